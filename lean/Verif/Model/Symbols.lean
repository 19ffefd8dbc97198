import Verif.Model.Advisory

/-!
# Affected functions found in a binary

Model of `cargo-audit/src/binary_scanning.rs` (the symbol table itself, the demangler and the parser of type
paths are not modelled: a symbol is the list of its path segments) and of `rustsec/src/vulnerability.rs`'s
`affected_functions`.
-/

namespace Verif.Bin

open Verif.Semver Verif.Adv

/-- A parsed type path, as `flatten_type_path` (`cargo-audit/src/binary_scanning.rs:88-113`) sees it
(`syn::TypePath`): an optional self type `<T as …>::`, which is a path itself (`path`) or some other type
(`other`), and the identifiers of the segments. -/
inductive TypePath where
  /-- no self type, or one that is not a path -/
  | plain (segments : List Str)
  /-- `<inner …>::segments` -/
  | qself (inner : TypePath) (segments : List Str)
  deriving DecidableEq, Repr

/-- `binary_scanning.rs:91-103`: the first loop: the stack, last pushed first. -/
def pushAll : TypePath → List (List Str) → List (List Str)
  | .plain s, stack => s :: stack
  | .qself inner s, stack => pushAll inner (s :: stack)

/-- `binary_scanning.rs:88-113`: `flatten_type_path`. -/
def flattenTypePath (t : TypePath) : List Str := (pushAll t []).flatten

/-- `binary_scanning.rs:56-60`: a segment up to the first `<`. -/
def cutGeneric (s : Str) : Str := s.takeWhile (· ≠ '<')

/-- The inner loop of `is_subsequence` (`binary_scanning.rs:118-124`): advance past the first equal segment. -/
def advance (seg : Str) : List Str → Option (List Str)
  | [] => none
  | s :: rest => if s = seg then some rest else advance seg rest

/-- `binary_scanning.rs:115-127`: `is_subsequence`. -/
def isSubsequence : List Str → List Str → Bool
  | [], _ => true
  | seg :: path, symbol =>
    match advance seg symbol with
    | some rest => isSubsequence path rest
    | none => false

/-- The slice pattern `[first, middle @ .., last]`. -/
def split3 (l : List Str) : Option (Str × List Str × Str) :=
  match l with
  | [] => none
  | first :: rest => rest.getLast?.map fun last => (first, rest.dropLast, last)

/-- `binary_scanning.rs:64-81`: the match of one symbol against the cut path. -/
def symbolMatches (symbol affected : List Str) : Bool :=
  match symbol, affected with
  | [ident], [a] => decide (ident = a)
  | symbol, affected =>
    match split3 symbol, split3 affected with
    | some (f, m, l), some (f', m', l') => decide (f = f') && isSubsequence m' m && decide (l = l')
    | _, _ => false

/-- `binary_scanning.rs:47-85`: `SymbolSet::filter`. -/
def filterFunctions (symbols : List (List Str)) (affected : List (List Str)) : List (List Str) :=
  affected.filter fun path =>
    let cut := path.map cutGeneric
    symbols.any fun symbol => symbolMatches symbol cut

/-- `vulnerability.rs:38-55`: `Vulnerability::affected_functions`.  (The same filter is applied to warnings,
`cargo-audit/src/presenter.rs:198-217`.) -/
def affectedFunctions (v : Vulnerability) : Option (List (List Str)) :=
  match v.affected with
  | none => none
  | some af =>
    if af.functions.isEmpty then none
    else some (af.functions.filterMap fun e =>
      if e.2.any fun req => req.isMatch v.package.version then some e.1 else none)

end Verif.Bin
