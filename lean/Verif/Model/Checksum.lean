import Verif.Model.LockTypes

/-!
# Package checksums: text form

Models `cargo-lock/src/package/checksum.rs`.
-/

namespace Verif.Lock

/-- Value of one hexadecimal digit, either case (`char::to_digit(16)`, used by `u8::from_str_radix`). -/
def hexVal (c : Char) : Option Nat :=
  if '0' ≤ c ∧ c ≤ '9' then some (c.toNat - '0'.toNat)
  else if 'a' ≤ c ∧ c ≤ 'f' then some (c.toNat - 'a'.toNat + 10)
  else if 'A' ≤ c ∧ c ≤ 'F' then some (c.toNat - 'A'.toNat + 10)
  else none

/-- `u8::from_str_radix(_, 16)` on a text of two ASCII characters: an optional leading `+` is dropped, the
rest must be hexadecimal digits; two digits always fit in a `u8`. -/
def byteOfHex (c d : Char) : Option (Fin 256) :=
  if c = '+' then
    match hexVal d with
    | some y => some (Fin.ofNat 256 y)
    | none => none
  else
    match hexVal c with
    | some x =>
      match hexVal d with
      | some y => some (Fin.ofNat 256 (16 * x + y))
      | none => none
    | none => none

/-- Length in bytes of the UTF-8 encoding (`str::len`). -/
def byteLen (s : Str) : Nat := (s.map Char.utf8Size).sum

/-- `checksum.rs:46-50`: the loop over the 32 bytes, `n` of them left, `s` the unread text.  The slice
`s[2*i ..= 2*i+1]` is two one-byte characters, or one two-byte character (never a number: `?` returns
`Err`), or cuts a character in two (panic). -/
def Checksum.loop : Nat → Str → Outcome Checksum
  | 0, _ => .ok []
  | n + 1, c :: s =>
    if c.utf8Size = 1 then
      match s with
      | d :: s =>
        if d.utf8Size = 1 then
          match byteOfHex c d with
          | some b =>
            match Checksum.loop n s with
            | .ok bs => .ok (b :: bs)
            | .err => .err
            | .panic => .panic
          | none => .err
        else .panic
      | [] => .panic
    else if c.utf8Size = 2 then .err
    else .panic
  | _ + 1, [] => .panic

/-- `checksum.rs:37-53`: `FromStr for Checksum`. -/
def Checksum.fromStr (s : Str) : Outcome Checksum :=
  if byteLen s ≠ 64 then .err else Checksum.loop 32 s

/-- One lower-case hexadecimal digit. -/
def hexDigit (n : Nat) : Char := "0123456789abcdef".toList.getD n '0'

/-- `checksum.rs:72-84`: `{b:02x}`. -/
def byteHex (b : Fin 256) : Str := [hexDigit (b.val / 16), hexDigit (b.val % 16)]

/-- `checksum.rs:66-84`: `Display` (lower-case hexadecimal) of a checksum. -/
def Checksum.show (c : Checksum) : Str := c.flatMap byteHex

end Verif.Lock
