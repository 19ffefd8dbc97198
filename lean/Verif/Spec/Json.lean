import Verif.Model.Json

/-!
# Reading JSON

A reader written from RFC 8259 ("The JavaScript Object Notation Data Interchange Format"), independently of any
printer: white space between tokens, all escapes (also pairs of surrogates), no leading zeros.  Of the numbers only the
unsigned integers are read.
-/

namespace Verif.Spec

open Verif

/-- White space (RFC 8259, section 2). -/
def isJsonSpace (c : Char) : Bool := c == ' ' || c == '\t' || c == '\n' || c == '\r'

/-- A text without leading white space. -/
def skipSpace (s : Str) : Str := s.dropWhile isJsonSpace

/-- The value of a hexadecimal digit. -/
def hexOf (c : Char) : Option Nat :=
  if '0' ≤ c ∧ c ≤ '9' then some (c.toNat - 48)
  else if 'a' ≤ c ∧ c ≤ 'f' then some (c.toNat - 87)
  else if 'A' ≤ c ∧ c ≤ 'F' then some (c.toNat - 55)
  else none

/-- Four hexadecimal digits. -/
def hex4 (a b c d : Char) : Option Nat :=
  match hexOf a, hexOf b, hexOf c, hexOf d with
  | some a, some b, some c, some d => some (4096 * a + 256 * b + 16 * c + d)
  | _, _, _, _ => none

/-- The character of a two-character escape. -/
def simpleEscape (c : Char) : Option Char :=
  if c = '"' then some '"'
  else if c = '\\' then some '\\'
  else if c = '/' then some '/'
  else if c = 'b' then some (Char.ofNat 8)
  else if c = 'f' then some (Char.ofNat 12)
  else if c = 'n' then some '\n'
  else if c = 'r' then some '\r'
  else if c = 't' then some '\t'
  else none

/-- One character of a string, possibly escaped (RFC 8259, section 7), and the rest. -/
def readChar : Str → Option (Char × Str)
  | [] => none
  | c :: r =>
    if c = '"' ∨ c.toNat < 32 then none
    else if c ≠ '\\' then some (c, r)
    else
      match r with
      | 'u' :: a :: b :: x :: y :: r =>
        match hex4 a b x y with
        | none => none
        | some n =>
          if n < 0xD800 ∨ 0xDFFF < n then some (Char.ofNat n, r)
          else if 0xDBFF < n then none
          else
            match r with
            | '\\' :: 'u' :: a' :: b' :: x' :: y' :: r =>
              match hex4 a' b' x' y' with
              | none => none
              | some m =>
                if 0xDC00 ≤ m ∧ m ≤ 0xDFFF then some (Char.ofNat (0x10000 + (n - 0xD800) * 0x400 + (m - 0xDC00)), r)
                else none
            | _ => none
      | e :: r => (simpleEscape e).map fun c => (c, r)
      | [] => none

/-- The rest of a string after its opening quotation mark (`n`: at most so many characters). -/
def readString : Nat → Str → Option (Str × Str)
  | 0, _ => none
  | n + 1, s =>
    match s with
    | '"' :: r => some ([], r)
    | _ =>
      match readChar s with
      | none => none
      | some (c, r) => (readString n r).map fun p => (c :: p.1, p.2)

/-- An unsigned integer: digits without a leading zero, not followed by a fraction or an exponent. -/
def readNumber (s : Str) : Option (Nat × Str) :=
  let ds := s.takeWhile Char.isDigit
  let r := s.dropWhile Char.isDigit
  if ds = [] ∨ (ds.head? = some '0' ∧ ds ≠ ['0']) then none
  else if r.head? = some '.' ∨ r.head? = some 'e' ∨ r.head? = some 'E' then none
  else some (Nat.ofDigitChars 10 ds 0, r)

mutual

/-- A value (RFC 8259, section 3) after optional white space, and the rest of the text.  `n` bounds the depth. -/
def readValue : Nat → Str → Option (Json × Str)
  | 0, _ => none
  | n + 1, s =>
    match skipSpace s with
    | 'n' :: 'u' :: 'l' :: 'l' :: r => some (.null, r)
    | 't' :: 'r' :: 'u' :: 'e' :: r => some (.bool true, r)
    | 'f' :: 'a' :: 'l' :: 's' :: 'e' :: r => some (.bool false, r)
    | '"' :: r => (readString (r.length + 1) r).map fun p => (.str p.1, p.2)
    | '[' :: r =>
      match skipSpace r with
      | ']' :: r => some (.arr [], r)
      | r => (readItems n r).map fun p => (.arr p.1, p.2)
    | '{' :: r =>
      match skipSpace r with
      | '}' :: r => some (.obj [], r)
      | r => (readMembers n r).map fun p => (.obj p.1, p.2)
    | r => (readNumber r).map fun p => (.num p.1, p.2)

/-- The items of an array up to the closing bracket. -/
def readItems : Nat → Str → Option (List Json × Str)
  | 0, _ => none
  | n + 1, s =>
    match readValue n s with
    | none => none
    | some (j, r) =>
      match skipSpace r with
      | ']' :: r => some ([j], r)
      | ',' :: r => (readItems n r).map fun p => (j :: p.1, p.2)
      | _ => none

/-- The members of an object up to the closing brace. -/
def readMembers : Nat → Str → Option (List (Str × Json) × Str)
  | 0, _ => none
  | n + 1, s =>
    match skipSpace s with
    | '"' :: r =>
      match readString (r.length + 1) r with
      | none => none
      | some (k, r) =>
        match skipSpace r with
        | ':' :: r =>
          match readValue n r with
          | none => none
          | some (j, r) =>
            match skipSpace r with
            | '}' :: r => some ([(k, j)], r)
            | ',' :: r => (readMembers n r).map fun p => ((k, j) :: p.1, p.2)
            | _ => none
        | _ => none
    | _ => none

end

/-- A JSON text: one value with nothing but white space around it.  Every value in the text takes at least one
character, which bounds the depth. -/
def readJson (s : Str) : Option Json :=
  match readValue (2 * s.length + 1) s with
  | some (j, r) => if skipSpace r = [] then some j else none
  | none => none

end Verif.Spec
