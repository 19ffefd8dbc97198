import Verif.Model.CachedIndex

/-!
# Specification: yanked packages
-/

namespace Verif.Spec

open Verif.Lock Verif.Yank

/-- The index entries say that the version is yanked: the last entry for that version text is marked so. -/
def SaysYanked (vs : List (Str × Bool)) (v : Str) : Prop :=
  ∃ a b, vs = a ++ (v, true) :: b ∧ v ∉ b.map Prod.fst

/-- The answer gives no verdict about the version: the lookup failed, there is no such crate, or no such
version. -/
def NoVerdict (k : Krate) (v : Str) : Prop :=
  k = .error ∨ k = .missing ∨ ∃ vs, k = .versions vs ∧ v ∉ vs.map Prod.fst

/-- Which of the two sources answers during one call: the download if the index is remote and the download
works, else what is on disk. -/
def answerOf (kind : IndexKind) (w : Registry) (n : Str) : Krate :=
  match kind, w.download with
  | .sparseRemote, some f => f n
  | _, _ => w.cached n

/-- The answer to the first call of a history that asks about a crate. -/
def firstAnswer (kind : IndexKind) : List (Registry × List Package) → Str → Option Krate
  | [], _ => none
  | (w, ps) :: h, n => if n ∈ ps.map (·.name) then some (answerOf kind w n) else firstAnswer kind h n

/-- The download of this call failed as a whole. -/
def DownloadFailed (kind : IndexKind) (w : Registry) : Prop := kind = .sparseRemote ∧ w.download = none

end Verif.Spec
