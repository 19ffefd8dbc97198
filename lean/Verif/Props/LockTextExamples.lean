import Verif.Props.LockText

/-!
# C86: examples

A way of quoting TOML strings that meets the assumptions, and texts of lockfiles.
-/

namespace Verif.Props

open Verif.Toml Verif.Lock Verif.Spec

/-- A hexadecimal digit. -/
private def hexOf (n : Nat) : Char := "0123456789ABCDEF".toList.getD n '0'

/-- A character of a basic string. -/
private def escape (c : Char) : Str :=
  if c = '"' then ['\\', '"'] else if c = '\\' then ['\\', '\\']
  else if isControl c then ['\\', 'u', '0', '0', hexOf (c.toNat / 16), hexOf (c.toNat % 16)] else [c]

/-- A basic string. -/
private def basicQuote (s : Str) : Str := '"' :: (s.flatMap escape ++ ['"'])

/-- A key: bare if possible. -/
private def plainKey (s : Str) : Str := if s ≠ [] ∧ s.all isBare = true then s else basicQuote s

/-- Quoting with basic strings. -/
def basicOut : TomlOut where
  quote := basicQuote
  prettyKey := plainKey
  prettyValue := basicQuote

private theorem codePoint_control : ∀ n < 128, codePoint ['0', '0', hexOf (n / 16), hexOf (n % 16)] = some (Char.ofNat n) := by
  decide +kernel

private theorem basic_close (r : Str) : basic ('"' :: r) = some ([], r) := by
  rw [basic.eq_def]
  rfl

private theorem basic_quote (r : Str) : basic ('\\' :: '"' :: r) = push '"' (basic r) := by
  rw [basic.eq_def]
  rfl

private theorem basic_backslash (r : Str) : basic ('\\' :: '\\' :: r) = push '\\' (basic r) := by
  rw [basic.eq_def]
  rfl

private theorem basic_code (a b c d : Char) (r : Str) :
    basic ('\\' :: 'u' :: a :: b :: c :: d :: r) = (codePoint [a, b, c, d]).bind fun x => push x (basic r) := by
  rw [basic.eq_def]
  rfl

private theorem basic_quoted (s rest : Str) : basic (s.flatMap escape ++ '"' :: rest) = some (s, rest) := by
  induction s with
  | nil => exact basic_close rest
  | cons c s ih =>
    rw [List.flatMap_cons, List.append_assoc]
    generalize s.flatMap escape ++ '"' :: rest = r at ih
    unfold escape
    split
    · rename_i h
      subst h
      rw [List.cons_append, List.cons_append, List.nil_append, basic_quote, ih]
      rfl
    · split
      · rename_i h
        subst h
        rw [List.cons_append, List.cons_append, List.nil_append, basic_backslash, ih]
        rfl
      · split
        · rename_i h
          have hlt : c.toNat < 128 := by
            unfold isControl at h
            simp only [Bool.or_eq_true, Bool.and_eq_true, decide_eq_true_eq] at h
            omega
          have hcp := codePoint_control c.toNat hlt
          rw [Char.ofNat_toNat] at hcp
          simp only [List.cons_append, List.nil_append]
          rw [basic_code, hcp, Option.bind_some, ih]
          rfl
        · rename_i h1 h2 h3
          rw [List.cons_append, List.nil_append, basic.eq_def]
          simp only [h1, h2, if_false]
          rw [if_neg h3, ih]
          rfl

private theorem tomlEscape_head (c : Char) : ∃ d t, escape c = d :: t ∧ d ≠ '"' := by
  unfold escape
  split
  · exact ⟨_, _, rfl, by decide⟩
  · split
    · exact ⟨_, _, rfl, by decide⟩
    · split
      · exact ⟨_, _, rfl, by decide⟩
      · rename_i h _ _
        exact ⟨_, _, rfl, h⟩

private theorem run_quoted (s rest : Str) (h : rest.head? ≠ some '"') : run '"' (basicQuote s ++ rest) < 3 := by
  unfold basicQuote run
  cases s with
  | nil =>
    cases rest with
    | nil => decide
    | cons c r =>
      have hc : (c == '"') = false := by simpa using h
      simp [List.take_succ_cons, hc]
  | cons c s =>
    obtain ⟨d, t, hd, hne⟩ := tomlEscape_head c
    have hc : (d == '"') = false := by simpa using hne
    simp [List.take_succ_cons, hd, hc]

private theorem string_quoted (s rest : Str) (h : rest.head? ≠ some '"') :
    Toml.string (basicQuote s ++ rest) = some (s, rest) := by
  have h1 := run_quoted s rest h
  have h2 : run '\'' (basicQuote s ++ rest) = 0 := by
    unfold basicQuote
    exact run_ne (by decide)
  unfold Toml.string
  rw [if_neg (by omega), if_neg (by omega)]
  show basic ((s.flatMap escape ++ ['"']) ++ rest) = _
  rw [List.append_assoc]
  exact basic_quoted s rest

private theorem quoted_last (s : Str) : (basicQuote s).getLast? ≠ some '\n' := by
  unfold basicQuote
  rw [← List.cons_append, List.getLast?_append]
  simp

/-- Non-vacuity of C86: basic strings are what is assumed of the `toml` crate. -/
theorem basicOut_writes : WritesToml basicOut where
  quote s rest h _ := string_quoted s rest h
  quote_last := quoted_last
  value s rest h _ := string_quoted s rest h
  value_last := quoted_last
  key s rest h := by
    show simpleKey (plainKey s ++ rest) = _
    unfold plainKey
    split
    · rename_i hs
      exact simpleKey_bare hs.1 (List.all_eq_true.mp hs.2) h
    · show basic ((s.flatMap escape ++ ['"']) ++ rest) = _
      rw [List.append_assoc]
      exact basic_quoted s rest

/-- A lockfile with everything in it: the text, character by character. -/
example : (LockDoc.mk (some 4)
    [{ name := "a".toList, version := "1.0.0".toList, source := some "registry+https://x".toList, checksum := some "00".toList },
     { name := "b".toList, version := "2.0.0".toList, dependencies := ["a".toList, "c 1.0.0".toList] }] none
    [("k".toList, "v".toList), ("x y".toList, "a\"b".toList)]
    [{ name := "p".toList, version := "0.1.0".toList }]).text basicOut =
"# This file is automatically @generated by Cargo.
# It is not intended for manual editing.
version = 4

[[package]]
name = \"a\"
version = \"1.0.0\"
source = \"registry+https://x\"
checksum = \"00\"

[[package]]
name = \"b\"
version = \"2.0.0\"
dependencies = [
 \"a\",
 \"c 1.0.0\",
]

[[patch.unused]]
name = \"p\"
version = \"0.1.0\"


[metadata]
k = \"v\"
\"x y\" = \"a\\\"b\"
".toList := by decide +kernel

/-- C86 applies to the sample lockfiles. -/
example : Lockfile.fromText toyCodec Toml.read (sampleLock.text toyCodec basicOut) = .ok sampleLock :=
  C86_round_trip toyCodec basicOut_writes sampleLock List.Pairwise.nil sampleLock_wellFormed

example : ∃ m, Lockfile.fromText toyCodec Toml.read (sampleV1.text toyCodec basicOut) = .ok { sampleV1 with metadata := m } ∧
    m ≠ [] :=
  ⟨_, C86_round_trip_v1 toyCodec basicOut_writes sampleV1
    (by unfold OrderedKeys; decide +kernel) sampleV1_wellFormed, by decide +kernel⟩

/-- A text not written by cargo-lock: other quotes, comments, tables in another order, an unknown field. -/
private def handWritten : Str :=
"[metadata]
'z' = '1' # last
a.b = \"no\"
".toList

private def handWritten' : Str :=
"patch.unused = [{ name = 'p', version = \"0.1.0\" }]
version = 3
extra = [true, -1, []]
[metadata]
'z' = '1' # last
\"\\u0061 b\" = '''first'''

[[package]]
version = \"1.0.0\"
  name = \"\"\"a\\
     bc\"\"\"
dependencies = []
".toList

private def metadataOf : Outcome Lockfile → Option LockMetadata
  | .ok l => some l.metadata
  | _ => none

private def namesOf : Outcome Lockfile → Option (List Str × List Str)
  | .ok l => some (l.packages.map (·.name), l.patch.map (·.name))
  | _ => none

/-- Metadata are texts: a table in them is an error. -/
example : metadataOf (Lockfile.fromText toyCodec Toml.read handWritten) = none := by decide +kernel

example : metadataOf (Lockfile.fromText toyCodec Toml.read handWritten') =
    some [("a b".toList, "first".toList), ("z".toList, "1".toList)] := by decide +kernel

example : namesOf (Lockfile.fromText toyCodec Toml.read handWritten') = some (["abc".toList], ["p".toList]) := by decide +kernel

/-- A key may not be given twice. -/
example : namesOf (Lockfile.fromText toyCodec Toml.read "version = 3\nversion = 4\n".toList) = none := by decide +kernel

end Verif.Props
