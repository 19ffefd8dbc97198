import Verif.Model.Json

/-!
# The indented JSON text

What `serde_json::to_writer_pretty` and `to_string_pretty` write (the library's `PrettyFormatter` with two spaces), as
called by admin/src/osv_export.rs:87 and admin/src/web.rs:238.
-/

namespace Verif.Json

/-- A new line, indented. -/
def newline (d : Nat) : Str := '\n' :: List.replicate (2 * d) ' '

mutual

/-- A value at depth `d`: empty arrays and objects are written in one piece. -/
def pretty (d : Nat) : Json → Str
  | .null => ['n', 'u', 'l', 'l']
  | .bool true => ['t', 'r', 'u', 'e']
  | .bool false => ['f', 'a', 'l', 's', 'e']
  | .num n => showNat n
  | .str s => quote s
  | .arr l => '[' :: prettyItems d l
  | .obj l => '{' :: prettyMembers d l

/-- The items of an array, each on a line of its own, and the closing bracket. -/
def prettyItems (d : Nat) : List Json → Str
  | [] => [']']
  | [j] => newline (d + 1) ++ (pretty (d + 1) j ++ (newline d ++ [']']))
  | j :: k :: rest => newline (d + 1) ++ (pretty (d + 1) j ++ ',' :: prettyItems d (k :: rest))

/-- The members of an object, each on a line of its own, and the closing brace. -/
def prettyMembers (d : Nat) : List (Str × Json) → Str
  | [] => ['}']
  | [(k, j)] => newline (d + 1) ++ (quote k ++ ':' :: ' ' :: (pretty (d + 1) j ++ (newline d ++ ['}'])))
  | (k, j) :: m :: rest =>
    newline (d + 1) ++ (quote k ++ ':' :: ' ' :: (pretty (d + 1) j ++ ',' :: prettyMembers d (m :: rest)))

end

end Verif.Json
