import Verif.Model.Assigner

/-!
# Specification of ID assignment (C51, C52, C53)
-/

namespace Verif.Spec

open Verif.Adv Verif.Db Verif.Assign

/-- The ID text `RUSTSEC-<year>-<number>`: the year in decimal, the number in at least four digits. -/
def RustSecId (s : Str) (year number : Nat) : Prop :=
  ∃ ys ns : Str, s = "RUSTSEC-".toList ++ ys ++ '-' :: ns ∧
    (∀ c ∈ ys ++ ns, c.isDigit = true) ∧ ys ≠ [] ∧ 4 ≤ ns.length ∧
    Nat.ofDigitChars 10 ys 0 = year ∧ Nat.ofDigitChars 10 ns 0 = number

/-- Every RUSTSEC advisory has the year of its date in its ID, as the linter demands (`C24_gate`). -/
def YearsAgree (db : Database) : Prop :=
  ∀ a ∈ db.iter, a.metadata.id.kind = .rustSec → ∀ y1 y2, a.metadata.id.year = some y1 →
    a.metadata.date.year = .ok y2 → y1 = y2

/-- The paths that a sequence of effects creates, in order. -/
def created (es : List Effect) : List Path :=
  es.filterMap fun
    | .create q => some q
    | _ => none

/-- The draft files in the order in which they are met: those of `crates`, then those of `rust`. -/
def drafts (d : Disk) : Disk :=
  (d.filter fun f => decide (f.1.collection = .crates) && decide ("RUSTSEC-0000-0000.".toList <+: f.1.file)) ++
  (d.filter fun f => decide (f.1.collection = .rust) && decide ("RUSTSEC-0000-0000.".toList <+: f.1.file))

/-- The text of a draft is in order: its front matter is TOML that decodes to an advisory dated in year `y`. -/
def DraftDated (L : AdvLib) (text : Str) (y : Nat) : Prop :=
  ∃ parts t a, Parts.parse text = .ok parts ∧ L.toml parts.frontMatter = some t ∧
    AdvisoryFile.decode L t = .ok a ∧ a.metadata.date.year = .ok y

/-- Some line of the text is the placeholder ID. -/
def HasPlaceholderLine (text : Str) : Prop :=
  ∃ l ∈ Lint.lines text, trimEnd (trimStart l) = "id = \"RUSTSEC-0000-0000\"".toList

/-- The text of a draft after assignment: line by line the same, except that the lines that are the
placeholder ID (up to white space around them) name the new ID. -/
def Renamed (id old new : Str) : Prop :=
  splitC '\n' new = (Lint.lines old).map (fun l =>
    if trimEnd (trimStart l) = "id = \"RUSTSEC-0000-0000\"".toList then "id = \"".toList ++ id ++ "\"".toList
    else l) ++ [[]]

/-- The title that names the first `k` of the assignments. -/
def titleWith (as : List Str) (k : Nat) : Str :=
  if k = as.length then "Assigned ".toList ++ List.intercalate ", ".toList as
  else "Assigned ".toList ++ List.intercalate ", ".toList (as.take k) ++ " and ".toList ++ showNat (as.length - k) ++ " more".toList

end Verif.Spec
