import Verif.Model.PlatformTable

/-!
# What the printer of the platform tables promises
-/

namespace Verif.Spec

open Verif.Plat

/-- The number of a tier. -/
def tierNumber : Tier → Nat
  | .one => 1
  | .two => 2
  | .three => 3

/-- A column: the text, filled up with blanks. -/
def IsColumn (width : Nat) (text column : Str) : Prop :=
  ∃ n, column = text ++ List.replicate n ' ' ∧ (text.length ≤ width → column.length = width) ∧ (width ≤ text.length → n = 0)

/-- The row of a platform. -/
def IsRow (p : Platform) (row : Str) : Prop :=
  ∃ c₁ c₂ c₃ c₄, IsColumn 38 ('[' :: p.triple ++ [']']) c₁ ∧ IsColumn 11 p.arch.asStr c₂ ∧ IsColumn 10 p.os.asStr c₃ ∧
    IsColumn 10 p.env.asStr c₄ ∧
    row = '|' :: ' ' :: c₁ ++ [' ', '|', ' '] ++ c₂ ++ [' ', '|', ' '] ++ c₃ ++ [' ', '|', ' '] ++ c₄ ++ [' ', '|']

/-- The lines before the rows of a tier. -/
def tierHead (t : Tier) : List Str :=
  ["### Tier ".toList ++ showNat (tierNumber t), [],
   "| target triple                          | target_arch | target_os  | target_env |".toList,
   "|----------------------------------------|-------------|------------|------------|".toList]

/-- The sections of a printed table, one for each tier that has platforms, with an empty line between two of them. -/
def joinSections : List (List Str) → List Str
  | [] => []
  | [s] => s
  | s :: r => s ++ [] :: joinSections r

end Verif.Spec
