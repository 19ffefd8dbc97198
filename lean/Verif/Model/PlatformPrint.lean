import Verif.Model.Platform
import Verif.Model.PlatformGen
import Mathlib.Data.List.Sort

/-!
# The printer of the platform tables

Model of `platforms-table-gen/src/main.rs`.  Triples are ASCII, so that `to_uppercase` is `to_ascii_uppercase` and lengths in
bytes are lengths in characters.
-/

namespace Verif.PlatGen

open Verif.Plat

/-- `{:width$}` of a text: filled up with blanks at the right, never cut. -/
def fill (width : Nat) (s : Str) : Str := s ++ List.replicate (width - s.length) ' '

/-- `main.rs:66`: the first of the lines `print_table_header` prints. -/
def titleLine (t : Tier) : Str := "### Tier ".toList ++ showNat t.toUsize

/-- `main.rs:65-72`: `print_table_header`. -/
def headerLines (t : Tier) : List Str :=
  [titleLine t, [],
   "| target triple                          | target_arch | target_os  | target_env |".toList,
   "|----------------------------------------|-------------|------------|------------|".toList]

/-- `main.rs:75-97`: `print_platform_entry`. -/
def entryLine (p : Platform) : Str :=
  "| ".toList ++ fill (36 + 2) ("[".toList ++ p.triple ++ "]".toList) ++ " | ".toList ++
  fill 11 p.arch.asStr ++ " | ".toList ++ fill 10 p.os.asStr ++ " | ".toList ++ fill 10 p.env.asStr ++ " |".toList

/-- `main.rs:107`: the constant a link names. -/
def linkName (triple : Str) : Str := (upper triple).map fun c => if c = '-' then '_' else c

/-- `main.rs:104-108`: a link. -/
def linkLine (p : Platform) : Str :=
  "[".toList ++ p.triple ++ "]: https://docs.rs/platforms/latest/platforms/platform/constant.".toList ++
    linkName p.triple ++ ".html".toList

/-- `main.rs:46-58`: the loop over the sorted platforms; `current_tier` is the state. -/
def tableLines : Option Tier → List Platform → List Str
  | _, [] => []
  | current, p :: ps =>
    (if current ≠ some p.tier then (if current.isSome then [[]] else []) ++ headerLines p.tier else []) ++
      entryLine p :: tableLines (some p.tier) ps

/-- `main.rs:44-45`: `sort_by_key(|p| p.tier)`, which is stable; the derived order of `Tier` is that of its numbers. -/
def sortByTier (ps : List Platform) : List Platform :=
  ps.insertionSort fun a b => a.tier.toUsize ≤ b.tier.toUsize

/-- `main.rs:41-62,100-110`: `print_platforms_table`. -/
def printLines (ps : List Platform) : List Str :=
  tableLines none (sortByTier ps) ++ [] :: ps.map linkLine

/-- `main.rs:17-38`: `main`; the maximum of no lengths is unwrapped. -/
def printTable (ps : List Platform) : Outcome (List Str) :=
  if (ps.map fun p => p.triple.length).max? ≠ some 36 then .panic
  else if (ps.map fun p => p.os.asStr.length).max? ≠ some 10 then .panic
  else .ok (printLines ps)

end Verif.PlatGen
