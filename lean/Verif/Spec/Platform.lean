import Verif.Model.Basic

/-! # What a platform glob means -/

namespace Verif.Spec

/-- The language of a glob pattern: `*` stands for any text, every other character for itself. -/
inductive Glob : Str → Str → Prop
  | nil : Glob [] []
  | lit (c : Char) (p t : Str) : c ≠ '*' → Glob p t → Glob (c :: p) (c :: t)
  | star (a p t : Str) : Glob p t → Glob ('*' :: p) (a ++ t)

/-- The only places a platform requirement may use a wildcard: its first and its last character. -/
def WildcardsAtEnds (req : Str) : Prop := '*' ∉ (req.drop 1).dropLast

instance (req : Str) : Decidable (WildcardsAtEnds req) := by unfold WildcardsAtEnds; infer_instance

end Verif.Spec
