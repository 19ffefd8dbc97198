import Verif.Model.BinaryFilter
import Verif.Model.Symbols

/-!
# Specification: findings in binaries
-/

namespace Verif.Spec

open Verif.Bin Verif.Adv Verif.Plat

/-- The operating systems of Apple. -/
def AppleOs (os : Os) : Prop := os = .macOS ∨ os = .iOS ∨ os = .tvOS ∨ os = .watchOS ∨ os = .visionOS

/-- The operating systems a binary of the given format is taken to run on. -/
def RunsOn : BinaryFormat → Os → Prop
  | .pe, os => os = .windows
  | .macho, os => AppleOs os
  | .elf32, os => os ≠ .windows ∧ ¬ AppleOs os
  | .elf64, os => os ≠ .windows ∧ ¬ AppleOs os
  | .wasm, os => os = .unknown ∨ os = .none
  | .unknown, _ => True

/-- A finding concerns binaries of the format: it is not limited to operating systems, or the format is unknown,
or one of the operating systems it names runs the format. -/
def Concerns (format : BinaryFormat) (affected : Option Affected) : Prop :=
  ∀ af, affected = some af → af.os = [] ∨ format = .unknown ∨
    ∃ os : Os, os.asStr ∈ af.os ∧ RunsOn format os

/-- A symbol of the binary is the function: it starts with the same crate, ends with the same function name, and
in between contains the other segments of the path in order. -/
def SymbolIs (symbol path : List Str) : Prop :=
  ∃ krate between inPath name, symbol = krate :: between ++ [name] ∧ path = krate :: inPath ++ [name] ∧
    List.Sublist inPath between

/-- A path segment without its generic parameters. -/
def IsCut (s cut : Str) : Prop := '<' ∉ cut ∧ (s = cut ∨ ∃ rest, s = cut ++ '<' :: rest)

end Verif.Spec
