import Verif.Model.GitRefs

/-!
# Specification: references after a fetch (C74)
-/

namespace Verif.Spec

open Verif.Refs

/-- The value of a hexadecimal digit. -/
def hexValue (c : Char) : Option Nat :=
  if '0' ≤ c ∧ c ≤ '9' then some (c.toNat - '0'.toNat)
  else if 'a' ≤ c ∧ c ≤ 'f' then some (c.toNat - 'a'.toNat + 10)
  else none

/-- The bytes a text stands for, two digits each. -/
def readHex : Str → Option (List UInt8)
  | [] => some []
  | [_] => none
  | a :: b :: rest =>
    match hexValue a, hexValue b, readHex rest with
    | some x, some y, some bytes => some (UInt8.ofNat (16 * x + y) :: bytes)
    | _, _, _ => none

/-- The object a reference stands for, directly or through others. -/
inductive Resolves (refs : Str → Option Target) : Str → List UInt8 → Prop
  | direct (name : Str) (oid : List UInt8) : refs name = some (.object oid) → Resolves refs name oid
  | through (name next : Str) (oid : List UInt8) : refs name = some (.symbolic next) → Resolves refs next oid →
      Resolves refs name oid

/-- The references on the way from a name. -/
inductive OnWay (refs : Str → Option Target) : Str → Str → Prop
  | here (name : Str) : OnWay refs name name
  | further (name next m : Str) : refs name = some (.symbolic next) → OnWay refs next m → OnWay refs name m

/-- The remote announces that its `HEAD` is the branch, with that commit. -/
def Announces (mappings : List Mapping) (branch : Str) (oid : Oid) : Prop :=
  ∃ before after, mappings = before ++ .symbolic "HEAD".toList branch oid :: after ∧
    ∀ b o, .symbolic "HEAD".toList b o ∉ before

/-- `FETCH_HEAD` names the commit and the URL, and on another line the branch. -/
def NamesCommit (oid : List UInt8) (url branch text : Str) : Prop :=
  ∃ hex, readHex hex = some oid ∧ hex.length = 2 * oid.length ∧
    ((∀ b, branch ≠ "refs/heads/".toList ++ b) → text = hex ++ "\t\t".toList ++ url ++ "\n".toList) ∧
    (∀ b, branch = "refs/heads/".toList ++ b →
      text = hex ++ "\t\t".toList ++ url ++ "\n".toList ++
        (hex ++ "\t\tbranch '".toList ++ b ++ "' of ".toList ++ url ++ "\n".toList))

end Verif.Spec
