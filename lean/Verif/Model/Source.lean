import Verif.Model.Checksum

/-!
# Source identifiers: text form and comparison

Models `cargo-lock/src/package/source.rs`, together with our reading of the parts of the `url` and
`form_urlencoded` crates it calls (third-party, not in /repo; trusted base).
-/

namespace Verif.Lock

open Verif.Semver

/-! ### Percent encoding (`percent-encoding`, `form_urlencoded` crates) -/

/-- One upper-case hexadecimal digit. -/
def hexDigitUpper (n : Nat) : Char := "0123456789ABCDEF".toList.getD n '0'

/-- A percent-encoded byte, `%XX`. -/
def pctByte (b : UInt8) : Str := ['%', hexDigitUpper (b.toNat / 16), hexDigitUpper (b.toNat % 16)]

/-- UTF-8 encoding of a text. -/
def utf8 (s : Str) : List UInt8 := s.flatMap String.utf8EncodeChar

/-- `percent_encoding::utf8_percent_encode` with the characters satisfying `keep` left alone. -/
def pctEncode (keep : Char → Bool) (s : Str) : Str :=
  s.flatMap fun c => if keep c then [c] else (String.utf8EncodeChar c).flatMap pctByte

/-- `form_urlencoded::byte_serialize`: letters, digits and `*-._` are kept, space becomes `+`, every other
byte is percent-encoded. -/
def byteSerialize (s : Str) : Str :=
  s.flatMap fun c =>
    if c.isAlphanum || decide (c ∈ ['*', '-', '.', '_']) then [c]
    else if c = ' ' then ['+']
    else (String.utf8EncodeChar c).flatMap pctByte

/-- The two hexadecimal digits after a `%`, if there are two, as a byte. -/
def pctValue (h l : Char) : Option UInt8 :=
  match hexVal h with
  | some x =>
    match hexVal l with
    | some y => some (UInt8.ofNat (16 * x + y))
    | none => none
  | none => none

/-- `form_urlencoded` decoding to bytes: `+` is a space, `%XX` a byte, anything else itself. -/
def formDecode : Str → List UInt8
  | [] => []
  | [c] => if c = '+' then [32] else String.utf8EncodeChar c
  | [c, d] =>
    (if c = '+' then [32] else String.utf8EncodeChar c) ++ formDecode [d]
  | c :: h :: l :: s =>
    if c = '+' then 32 :: formDecode (h :: l :: s)
    else if c = '%' then
      match pctValue h l with
      | some b => b :: formDecode s
      | none => String.utf8EncodeChar c ++ formDecode (h :: l :: s)
    else String.utf8EncodeChar c ++ formDecode (h :: l :: s)

/-- First character of a byte string, with the bytes it takes, if the bytes start with valid UTF-8. -/
def decodeOne (bs : List UInt8) : Option Char :=
  match bs with
  | [] => none
  | b :: _ => if b < 128 then some (Char.ofNat b.toNat) else bs.toByteArray.utf8DecodeChar? 0

/-- `String::from_utf8_lossy`, reading at most `n` characters: invalid bytes become U+FFFD.
(Simplification: one replacement character per invalid byte; the library merges some of them.) -/
def lossyN : Nat → List UInt8 → Str
  | 0, _ => []
  | n + 1, bs =>
    match bs with
    | [] => []
    | _ :: t =>
      match decodeOne bs with
      | some c => c :: lossyN n (bs.drop c.utf8Size)
      | none => Char.ofNat 0xFFFD :: lossyN n t

/-- `String::from_utf8_lossy`. -/
def lossy (bs : List UInt8) : Str := lossyN bs.length bs

/-! ### `url::Url` -/

/-- The text before the first `c`, and the text after it if there is one. -/
def cutC (c : Char) : Str → Str × Option Str
  | [] => ([], none)
  | x :: xs =>
    if x = c then ([], some xs)
    else
      match cutC c xs with
      | (a, b) => (x :: a, b)

/-- What `Url::parse` does with the part before `?` and `#`: parse and normalise it (`none`: error). -/
structure UrlLib where
  base : Str → Option Str
  /-- Does this (normalised) base have a special scheme (`http`, `https`, `file`, ...)? -/
  special : Str → Bool

/-- Characters the query of a URL keeps unencoded (`url`: `QUERY`, `SPECIAL_QUERY` complements). -/
def keepQuery (special : Bool) (c : Char) : Bool :=
  decide (' ' < c ∧ c < Char.ofNat 127) && !(c == '"') && !(c == '#') && !(c == '<') && !(c == '>') &&
    !(special && c == '\'')

/-- Characters the fragment of a URL keeps unencoded (`url`: `FRAGMENT` complement). -/
def keepFragment (c : Char) : Bool :=
  decide (' ' < c ∧ c < Char.ofNat 127) && !(c == '"') && !(c == '<') && !(c == '>') && !(c == '`')

/-- `Url::parse` ignores control characters and spaces at both ends. -/
def trimCtl (s : Str) : Str :=
  ((s.dropWhile (fun c => decide (c ≤ ' '))).reverse.dropWhile (fun c => decide (c ≤ ' '))).reverse

/-- `Url::parse` ignores tabs and newlines anywhere. -/
def dropTabs (s : Str) : Str := s.filter fun c => !(c == '\t' || c == '\n' || c == '\r')

/-- `Url::parse`: everything after the first `#` is the fragment, in the rest everything after the first `?`
is the query; both are percent-encoded. -/
def Url.parse (L : UrlLib) (s : Str) : Option Url :=
  match cutC '#' (dropTabs (trimCtl s)) with
  | (rest, frag) =>
    match cutC '?' rest with
    | (b, q) =>
      match L.base b with
      | some b' =>
        some { base := b', query := q.map (pctEncode (keepQuery (L.special b'))),
               fragment := frag.map (pctEncode keepFragment) }
      | none => none

/-- One piece of a query string: the decoded text before the first `=` and the decoded text after it. -/
def decodePair (p : Str) : Str × Str :=
  match cutC '=' p with
  | (k, v) => (lossy (formDecode k), lossy (formDecode (v.getD [])))

/-- `Url::query_pairs`: pieces between `&`s, empty ones skipped. -/
def Url.queryPairs (u : Url) : List (Str × Str) :=
  match u.query with
  | none => []
  | some q => ((splitC '&' q).filter (fun p => !p.isEmpty)).map decodePair

/-! ### `SourceId` -/

/-- `source.rs:76-85`: one step of the loop over the query pairs. -/
def refStep (r : GitReference) (kv : Str × Str) : GitReference :=
  if kv.1 = "branch".toList ∨ kv.1 = "ref".toList then .branch kv.2
  else if kv.1 = "rev".toList then .rev kv.2
  else if kv.1 = "tag".toList then .tag kv.2
  else r

/-- `source.rs:75-85`: the git reference named by the query pairs. -/
def refOfPairs (ps : List (Str × Str)) : GitReference := ps.foldl refStep .defaultBranch

/-- `source.rs:65-105`: `SourceId::from_url`. -/
def SourceId.fromUrl (L : UrlLib) (s : Str) : Outcome SourceId :=
  match cutC '+' s with
  | (_, none) => .err
  | (kind, some rest) =>
    if kind = "git".toList then
      match Url.parse L rest with
      | some u =>
        .ok { url := { base := u.base }, kind := .git (refOfPairs u.queryPairs), precise := u.fragment }
      | none => .err
    else if kind = "registry".toList then
      match Url.parse L rest with
      | some u => .ok { url := u, kind := .registry, precise := some "locked".toList }
      | none => .err
    else if kind = "sparse".toList then
      match Url.parse L rest with
      | some u => .ok { url := u, kind := .sparseRegistry, precise := some "locked".toList }
      | none => .err
    else if kind = "path".toList then
      match Url.parse L rest with
      | some u => .ok { url := u, kind := .path }
      | none => .err
    else .err

/-- `source.rs:458-464`: the value of a git reference, URL-encoded or raw. -/
def refValue (encoded : Bool) (s : Str) : Str := if encoded then byteSerialize s else s

/-- `source.rs:421-467`: `GitReference::pretty_ref`. -/
def GitReference.pretty (encoded : Bool) : GitReference → Option Str
  | .defaultBranch => none
  | .branch s => some ("branch=".toList ++ refValue encoded s)
  | .tag s => some ("tag=".toList ++ refValue encoded s)
  | .rev s => some ("rev=".toList ++ refValue encoded s)

/-- A separator character and a text, or nothing. -/
def optPart (c : Char) : Option Str → Str
  | some t => c :: t
  | none => []

/-- `source.rs:356-403`: `Display for SourceIdAsUrl` (`encoded` from lockfile format V4 on).
`Display for SourceId` (314-318) is the case `encoded = false`. -/
def SourceId.asUrl (encoded : Bool) (s : SourceId) : Str :=
  match s.kind with
  | .path => "path+".toList ++ s.url.text
  | .git r => "git+".toList ++ s.url.text ++ optPart '?' (r.pretty encoded) ++ optPart '#' s.precise
  | .registry => "registry+".toList ++ s.url.text
  | .sparseRegistry => "sparse+".toList ++ s.url.text
  | .localRegistry => "local-registry+".toList ++ s.url.text
  | .directory => "directory+".toList ++ s.url.text

/-! ### Comparison -/

/-- Rust `str` order: by bytes, which for UTF-8 is the order by characters. -/
def strCmp (a b : Str) : Ordering := List.compareLex compare a b

/-- Derived `Ord` of `Option<String>`: `None` first. -/
def optStrCmp : Option Str → Option Str → Ordering
  | none, none => .eq
  | none, some _ => .lt
  | some _, none => .gt
  | some a, some b => strCmp a b

/-- `source.rs:406-419`: derived `Ord` of `GitReference`, by variant then content. -/
def GitReference.cmp : GitReference → GitReference → Ordering
  | .defaultBranch, .defaultBranch => .eq
  | .defaultBranch, _ => .lt
  | .tag _, .defaultBranch => .gt
  | .tag a, .tag b => strCmp a b
  | .tag _, _ => .lt
  | .branch _, .defaultBranch => .gt
  | .branch _, .tag _ => .gt
  | .branch a, .branch b => strCmp a b
  | .branch _, .rev _ => .lt
  | .rev a, .rev b => strCmp a b
  | .rev _, _ => .gt

/-- Position of a source kind in its declaration (`source.rs:327-348`). -/
def SourceKind.rank : SourceKind → Nat
  | .git _ => 0
  | .path => 1
  | .registry => 2
  | .sparseRegistry => 3
  | .localRegistry => 4
  | .directory => 5

/-- `source.rs:327`: derived `Ord` of `SourceKind`. -/
def SourceKind.cmp : SourceKind → SourceKind → Ordering
  | .git a, .git b => a.cmp b
  | a, b => compare a.rank b.rank

/-- `source.rs:252-262`: the last part of the comparison: two git sources are compared by their precise
revisions if both have one, and are equal otherwise; other kinds by kind. -/
def cmpKindPrecise (a b : SourceId) : Ordering :=
  match a.kind, b.kind with
  | .git _, .git _ =>
    match a.precise, b.precise with
    | some p, some q => strCmp p q
    | _, _ => .eq
  | k, k' => k.cmp k'

/-- `source.rs:239-264`: `Ord for SourceId`.  (`Url` is ordered by its text.) -/
def SourceId.cmp (a b : SourceId) : Ordering :=
  match strCmp a.url.text b.url.text with
  | .eq =>
    match optStrCmp a.name b.name with
    | .eq => cmpKindPrecise a b
    | o => o
  | o => o

/-- `source.rs:281-285`: `PartialEq for SourceId`. -/
def SourceId.eq (a b : SourceId) : Bool := a.cmp b == .eq

/-- `source.rs:272-279`: what `Hash for SourceId` feeds to the hasher, in order. -/
def SourceId.hashInput (s : SourceId) : Str × SourceKind × Option Str × Option Str :=
  (s.url.text, s.kind, s.precise, s.name)

end Verif.Lock
