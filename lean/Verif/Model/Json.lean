import Verif.Model.Str

/-!
# JSON values and their compact text

The values that the reports of `cargo audit` are made of, and the text `serde_json::to_writer` writes for them
(the library's compact formatter: no white space, non-ASCII characters as they are).  Numbers: the reports only hold
unsigned integers.
-/

namespace Verif

/-- A JSON value.  An object is its members, in order. -/
inductive Json where
  | null
  | bool (b : Bool)
  | num (n : Nat)
  | str (s : Str)
  | arr (l : List Json)
  | obj (l : List (Str × Json))

namespace Json

/-- A lower-case hexadecimal digit. -/
def hexDigit (n : Nat) : Char :=
  if n < 10 then Char.ofNat (48 + n) else Char.ofNat (87 + n)

/-- One character inside a string (`serde_json`'s `ESCAPE` table): quotation mark, backslash and the control
characters are escaped, all others are written as they are. -/
def escapeChar (c : Char) : Str :=
  if c = '"' then ['\\', '"']
  else if c = '\\' then ['\\', '\\']
  else if c.toNat = 8 then ['\\', 'b']
  else if c.toNat = 9 then ['\\', 't']
  else if c.toNat = 10 then ['\\', 'n']
  else if c.toNat = 12 then ['\\', 'f']
  else if c.toNat = 13 then ['\\', 'r']
  else if c.toNat < 32 then ['\\', 'u', '0', '0', hexDigit (c.toNat / 16), hexDigit (c.toNat % 16)]
  else [c]

/-- A string with its quotation marks. -/
def quote (s : Str) : Str := '"' :: (s.flatMap escapeChar ++ ['"'])

mutual

/-- `serde_json::to_writer` / `to_string` of a value, as called by cargo-audit/src/presenter.rs:121-138. -/
def print : Json → Str
  | .null => ['n', 'u', 'l', 'l']
  | .bool true => ['t', 'r', 'u', 'e']
  | .bool false => ['f', 'a', 'l', 's', 'e']
  | .num n => showNat n
  | .str s => quote s
  | .arr l => '[' :: printItems l
  | .obj l => '{' :: printMembers l

/-- The items of an array and its closing bracket. -/
def printItems : List Json → Str
  | [] => [']']
  | [j] => print j ++ [']']
  | j :: k :: rest => print j ++ ',' :: printItems (k :: rest)

/-- The members of an object and its closing brace. -/
def printMembers : List (Str × Json) → Str
  | [] => ['}']
  | [(k, j)] => quote k ++ ':' :: (print j ++ ['}'])
  | (k, j) :: m :: rest => quote k ++ ':' :: (print j ++ ',' :: printMembers (m :: rest))

end

end Json

end Verif
