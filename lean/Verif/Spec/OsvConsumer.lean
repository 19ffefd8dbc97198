import Verif.Spec.OsvJson
import Verif.Spec.OsvExport
import Verif.Spec.SemverLib
import Verif.Spec.Versions
import Verif.Spec.AdvisoryDecode

/-!
# Specification: what a reader of OSV files concludes (C97)

<https://ossf.github.io/osv-schema/#evaluation>, for documents of which only the JSON is known.
-/

namespace Verif.Spec

open Verif Verif.Semver Verif.Adv

/-- The evaluation of the events of a `SEMVER` range, in the order in which they stand: `introduced` at or before the version
makes it affected, `fixed` at or before it makes it unaffected.  The versions of the events are texts. -/
inductive Evaluates (v : Version) : Bool → List Json → Bool → Prop
  | finished {b : Bool} : Evaluates v b [] b
  | introduced {b c : Bool} {e : Json} {es : List Json} {text : Str} {u : Version}
      (he : e = .obj [("introduced".toList, .str text)]) (hu : readVersion text = some u) (hv : PrecLE u v)
      (h : Evaluates v true es c) : Evaluates v b (e :: es) c
  | fixed {b c : Bool} {e : Json} {es : List Json} {text : Str} {u : Version}
      (he : e = .obj [("fixed".toList, .str text)]) (hu : readVersion text = some u) (hv : PrecLE u v)
      (h : Evaluates v false es c) : Evaluates v b (e :: es) c
  | later {b c : Bool} {e : Json} {es : List Json} {name : String} {text : Str} {u : Version}
      (hn : name = "introduced" ∨ name = "fixed") (he : e = .obj [(name.toList, .str text)])
      (hu : readVersion text = some u) (hv : PrecLT v u) (h : Evaluates v b es c) : Evaluates v b (e :: es) c

/-- The events stand in the order of their versions. -/
def InOrder (es : List Json) : Prop :=
  es.Pairwise fun d e => ∀ n m s t u w, d = .obj [(n, .str s)] → e = .obj [(m, .str t)] →
    readVersion s = some u → readVersion t = some w → PrecLE u w

/-- A range of an affected package, all of whose events can be evaluated. -/
structure SemverRange (range : Json) (es : List Json) : Prop where
  type : jsonAt [.key "type"] range = some (.str "SEMVER".toList)
  events : jsonAt [.key "events"] range = some (.arr es)
  order : InOrder es

/-- The document says that this version of this crate of crates.io is affected: it is listed, or a range selects it. -/
def AffectsVersion (j : Json) (crate : Str) (v : Version) : Prop :=
  ∃ packages p, jsonAt [.key "affected"] j = some (.arr packages) ∧ p ∈ packages ∧
    jsonAt [.key "package", .key "ecosystem"] p = some (.str "crates.io".toList) ∧
    jsonAt [.key "package", .key "name"] p = some (.str crate) ∧
    ((∃ versions, jsonAt [.key "versions"] p = some (.arr versions) ∧ .str v.text ∈ versions) ∨
     ∃ ranges r events, jsonAt [.key "ranges"] p = some (.arr ranges) ∧ r ∈ ranges ∧ SemverRange r events ∧
       Evaluates v false events true)

/-- No number of the advisory's requirements is the greatest of 64 bits, to which one cannot be added. -/
def BelowMax (f : AdvisoryFile) : Prop :=
  ∀ r ∈ f.versions.patched ++ f.versions.unaffected, ∀ c ∈ r.comparators,
    c.major ≠ 2 ^ 64 - 1 ∧ c.minor ≠ some (2 ^ 64 - 1) ∧ c.patch ≠ some (2 ^ 64 - 1)

/-- No requirement of the advisory covers the version. -/
def LeftExposed (f : AdvisoryFile) (v : Version) : Prop :=
  ∀ r ∈ f.versions.patched ++ f.versions.unaffected, ¬ Covers r v

/-- The OSV document says about versions what the advisory says. -/
structure Tally (f : AdvisoryFile) (j : Json) : Prop where
  id : jsonAt [.key "id"] j = some (.str f.metadata.id.string)
  withdrawn : jsonAt [.key "withdrawn"] j = none ↔ f.metadata.withdrawn = none
  affected : ∀ crate v, AffectsVersion j crate v ↔ crate = f.metadata.package ∧ LeftExposed f v

end Verif.Spec
