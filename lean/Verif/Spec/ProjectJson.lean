import Verif.Spec.Project
import Verif.Spec.ReportJson

/-!
# Specification: what a JSON report lists
-/

namespace Verif.Spec

open Verif

/-- The array at a place has an element about this advisory and this version of this package. -/
def ListsFinding (place : List JsonStep) (j : Json) (id name version : Str) : Prop :=
  ∃ i, jsonAt (place ++ [.idx i, .key "advisory", .key "id"]) j = some (.str id) ∧
    jsonAt (place ++ [.idx i, .key "package", .key "name"]) j = some (.str name) ∧
    jsonAt (place ++ [.idx i, .key "package", .key "version"]) j = some (.str version)

/-- The array at a place has an element about this version of this package, and no advisory. -/
def ListsPackage (place : List JsonStep) (j : Json) (name version : Str) : Prop :=
  ∃ i, jsonAt (place ++ [.idx i, .key "advisory"]) j = some .null ∧
    jsonAt (place ++ [.idx i, .key "package", .key "name"]) j = some (.str name) ∧
    jsonAt (place ++ [.idx i, .key "package", .key "version"]) j = some (.str version)

/-- A SARIF document has a result with this level and this fingerprint. -/
def HasResult (j : Json) (level fingerprint : Str) : Prop :=
  ∃ i, jsonAt [.key "runs", .idx 0, .key "results", .idx i, .key "level"] j = some (.str level) ∧
    jsonAt [.key "runs", .idx 0, .key "results", .idx i, .key "partialFingerprints",
      .key "cargo-audit/advisory-fingerprint"] j = some (.str fingerprint)

end Verif.Spec
