import Verif.Model.CvssText
import Mathlib.Data.List.Forall2

/-!
# What the text of a CVSS vector means

Written from the CVSS v2, v3.1 and v4.0 specifications ("Vector String"), without reference to the parser.
-/

namespace Verif.Cvss.Spec

/-- Equal texts, apart from the case of ASCII letters. -/
def SameLetters (a b : Str) : Prop := a.map Char.toLower = b.map Char.toLower

/-- The components `parts` of a text give the metrics `v`: every component is `name:value` for one metric
(compared with `same`), no metric occurs twice, and `v` has exactly the metrics that occur. -/
def Gives {S : Scheme} (same : Str → Str → Prop) (parts : List Str) (v : S.Metrics) : Prop :=
  ∃ es : List ((m : S.M) × S.Val m),
    List.Forall₂ (fun t e => same t (S.name e.1 ++ ':' :: S.asStr e.1 e.2)) parts es
    ∧ (es.map Sigma.fst).Nodup
    ∧ ∀ m x, v m = some x ↔ (⟨m, x⟩ : (m : S.M) × S.Val m) ∈ es

/-- All `name:value` texts of a table of names and values. -/
def texts (table : List (String × List String)) : List Str :=
  table.flatMap fun row => row.2.map fun v => row.1.toList ++ ':' :: v.toList

/-- CVSS v3.1 specification, table 15 (base metrics). -/
def v3Table : List (String × List String) :=
  [("AV", ["N", "A", "L", "P"]), ("AC", ["L", "H"]), ("PR", ["N", "L", "H"]), ("UI", ["N", "R"]),
    ("S", ["U", "C"]), ("C", ["H", "L", "N"]), ("I", ["H", "L", "N"]), ("A", ["H", "L", "N"])]

/-- CVSS v2 guide, table 13 (base, temporal and environmental vectors). -/
def v2Table : List (String × List String) :=
  [("AV", ["L", "A", "N"]), ("AC", ["H", "M", "L"]), ("Au", ["M", "S", "N"]), ("C", ["N", "P", "C"]),
    ("I", ["N", "P", "C"]), ("A", ["N", "P", "C"]),
    ("E", ["U", "POC", "F", "H", "ND"]), ("RL", ["OF", "TF", "W", "U", "ND"]), ("RC", ["UC", "UR", "C", "ND"]),
    ("CDP", ["N", "L", "LM", "MH", "H", "ND"]), ("TD", ["N", "L", "M", "H", "ND"]),
    ("CR", ["L", "M", "H", "ND"]), ("IR", ["L", "M", "H", "ND"]), ("AR", ["L", "M", "H", "ND"])]

/-- CVSS v4.0 specification, table 23 (vector string values). -/
def v4Table : List (String × List String) :=
  [("AV", ["N", "A", "L", "P"]), ("AC", ["L", "H"]), ("AT", ["N", "P"]), ("PR", ["N", "L", "H"]),
    ("UI", ["N", "P", "A"]), ("VC", ["H", "L", "N"]), ("VI", ["H", "L", "N"]), ("VA", ["H", "L", "N"]),
    ("SC", ["H", "L", "N"]), ("SI", ["H", "L", "N"]), ("SA", ["H", "L", "N"]),
    ("E", ["X", "A", "P", "U"]),
    ("CR", ["X", "H", "M", "L"]), ("IR", ["X", "H", "M", "L"]), ("AR", ["X", "H", "M", "L"]),
    ("MAV", ["X", "N", "A", "L", "P"]), ("MAC", ["X", "L", "H"]), ("MAT", ["X", "N", "P"]),
    ("MPR", ["X", "N", "L", "H"]), ("MUI", ["X", "N", "P", "A"]),
    ("MVC", ["X", "H", "L", "N"]), ("MVI", ["X", "H", "L", "N"]), ("MVA", ["X", "H", "L", "N"]),
    ("MSC", ["X", "H", "L", "N"]), ("MSI", ["X", "S", "H", "L", "N"]), ("MSA", ["X", "S", "H", "L", "N"]),
    ("S", ["X", "N", "P"]), ("AU", ["X", "N", "Y"]), ("R", ["X", "A", "U", "I"]), ("V", ["X", "D", "C"]),
    ("RE", ["X", "L", "M", "H"]), ("U", ["X", "Clear", "Green", "Amber", "Red"])]

end Verif.Cvss.Spec
