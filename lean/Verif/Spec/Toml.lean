import Verif.Model.Str

/-!
# Reading TOML

Written from the TOML v1.1.0 specification.  Not read (the result is `none`): floats, dates and times, integers in
hexadecimal, octal or binary or with underscores.  Everything else of the language is: comments, bare, quoted and dotted
keys, the four kinds of strings, decimal integers, booleans, arrays, inline tables, tables and arrays of tables, and the
rules against defining anything twice.
-/

namespace Verif.Toml

/-- A value of a TOML document.  A table is the list of its entries, in the order of the text. -/
inductive Value where
  | str (s : Str)
  | int (n : Int)
  | bool (b : Bool)
  | arr (l : List Value)
  | table (l : List (Str × Value))

/-- The entries of a table. -/
abbrev Table := List (Str × Value)

/-! ## Characters -/

/-- Tab or space. -/
def isWsp (c : Char) : Bool := c == ' ' || c == '\t'

/-- Characters that may not stand in comments and strings: control characters other than tab. -/
def isControl (c : Char) : Bool := (decide (c.toNat < 32) && c != '\t') || decide (c.toNat = 127)

/-- Characters of bare keys. -/
def isBare (c : Char) : Bool := c.isAlphanum || c == '_' || c == '-'

/-- Without leading tabs and spaces. -/
def skipWs : Str → Str
  | [] => []
  | c :: s => if isWsp c then skipWs s else c :: s

/-- The text after an expected character. -/
def expect (c : Char) : Str → Option Str
  | [] => none
  | d :: s => if d = c then some s else none

/-- The value of a hexadecimal digit. -/
def hexDigit (c : Char) : Option Nat :=
  let n := c.toNat
  if 48 ≤ n ∧ n ≤ 57 then some (n - 48)
  else if 65 ≤ n ∧ n ≤ 70 then some (n - 55)
  else if 97 ≤ n ∧ n ≤ 102 then some (n - 87)
  else none

/-- The value of hexadecimal digits. -/
def hexNumber : Nat → Str → Option Nat
  | n, [] => some n
  | n, c :: s => (hexDigit c).bind fun d => hexNumber (16 * n + d) s

/-- The character of a code: surrogates and codes above U+10FFFF have none. -/
def scalar (n : Nat) : Option Char := if n < 0xD800 ∨ (0xDFFF < n ∧ n < 0x110000) then some (Char.ofNat n) else none

/-- The character of hexadecimal digits. -/
def codePoint (s : Str) : Option Char := (hexNumber 0 s).bind scalar

/-- The characters of the short escape sequences. -/
def shortEscape (c : Char) : Option Char :=
  if c = 'b' then some (Char.ofNat 8)
  else if c = 't' then some '\t'
  else if c = 'n' then some '\n'
  else if c = 'f' then some (Char.ofNat 12)
  else if c = 'e' then some (Char.ofNat 27)
  else if c = 'r' then some '\r'
  else if c = '"' then some '"'
  else if c = '\\' then some '\\'
  else none

/-- One more character. -/
def push (c : Char) (r : Option (Str × Str)) : Option (Str × Str) := r.map fun p => (c :: p.1, p.2)

/-! ## Strings -/

/-- A basic string after its opening quotation mark: the string and the text after it. -/
def basic : Str → Option (Str × Str)
  | [] => none
  | c :: r =>
    if c = '"' then some ([], r)
    else if c = '\\' then
      match r with
      | [] => none
      | e :: r =>
        if e = 'u' then
          match r with
          | a :: b :: c :: d :: r => (codePoint [a, b, c, d]).bind fun x => push x (basic r)
          | _ => none
        else if e = 'x' then
          match r with
          | a :: b :: r => (codePoint [a, b]).bind fun x => push x (basic r)
          | _ => none
        else if e = 'U' then
          match r with
          | a :: b :: c :: d :: a' :: b' :: c' :: d' :: r =>
            (codePoint [a, b, c, d, a', b', c', d']).bind fun x => push x (basic r)
          | _ => none
        else (shortEscape e).bind fun x => push x (basic r)
    else if isControl c then none
    else push c (basic r)

/-- A literal string after its opening apostrophe. -/
def literal : Str → Option (Str × Str)
  | [] => none
  | c :: r => if c = '\'' then some ([], r) else if isControl c then none else push c (literal r)

/-- How many of the first characters are `q` (at most five). -/
def run (q : Char) (s : Str) : Nat := ((s.take 5).takeWhile (· == q)).length

/-- The state of the reader of a multi-line basic string: in the text; after a backslash at the end of a line, before the
newline; after it. -/
inductive Fold where
  | text | toNewline | trim
  deriving DecidableEq

/-- A multi-line basic string after its opening delimiter (and the newline that follows it, if any). -/
def mlBasic : Fold → Str → Option (Str × Str)
  | _, [] => none
  | f, c :: r =>
    if f = .toNewline then
      if c = '\n' then mlBasic .trim r
      else if isWsp c || c == '\r' then mlBasic .toNewline r
      else none
    else if f = .trim ∧ (c = '\n' ∨ c = '\r' ∨ isWsp c = true) then mlBasic .trim r
    else if run '"' (c :: r) ≥ 3 then
      some (List.replicate (run '"' (c :: r) - 3) '"', (c :: r).drop (run '"' (c :: r)))
    else if c = '\\' then
      match r with
      | [] => none
      | e :: r =>
        if e = 'u' then
          match r with
          | a :: b :: c :: d :: r => (codePoint [a, b, c, d]).bind fun x => push x (mlBasic .text r)
          | _ => none
        else if e = 'x' then
          match r with
          | a :: b :: r => (codePoint [a, b]).bind fun x => push x (mlBasic .text r)
          | _ => none
        else if e = 'U' then
          match r with
          | a :: b :: c :: d :: a' :: b' :: c' :: d' :: r =>
            (codePoint [a, b, c, d, a', b', c', d']).bind fun x => push x (mlBasic .text r)
          | _ => none
        else if e = '\n' then mlBasic .trim r
        else if isWsp e || e == '\r' then mlBasic .toNewline r
        else (shortEscape e).bind fun x => push x (mlBasic .text r)
    else if isControl c && c != '\n' && !(c == '\r' && r.head? == some '\n') then none
    else push c (mlBasic .text r)

/-- A multi-line literal string after its opening delimiter (and the newline that follows it, if any). -/
def mlLiteral : Str → Option (Str × Str)
  | [] => none
  | c :: r =>
    if run '\'' (c :: r) ≥ 3 then
      some (List.replicate (run '\'' (c :: r) - 3) '\'', (c :: r).drop (run '\'' (c :: r)))
    else if isControl c && c != '\n' && !(c == '\r' && r.head? == some '\n') then none
    else push c (mlLiteral r)

/-- Without the newline at the beginning. -/
def dropNewline : Str → Str
  | c :: r => if c = '\n' then r else if c = '\r' then (match r with | d :: r' => if d = '\n' then r' else c :: r | [] => [c]) else c :: r
  | [] => []

/-- A string, at its opening delimiter. -/
def string (s : Str) : Option (Str × Str) :=
  if run '"' s ≥ 3 then mlBasic .text (dropNewline (s.drop 3))
  else if run '\'' s ≥ 3 then mlLiteral (dropNewline (s.drop 3))
  else
    match s with
    | [] => none
    | c :: r => if c = '"' then basic r else if c = '\'' then literal r else none

/-! ## Keys and numbers -/

/-- A bare or quoted key; quoted keys are on one line. -/
def simpleKey (s : Str) : Option (Str × Str) :=
  match s with
  | [] => none
  | c :: r =>
    if c = '"' then basic r
    else if c = '\'' then literal r
    else if isBare c then some ((c :: r).takeWhile isBare, (c :: r).dropWhile isBare)
    else none

/-- A key: simple keys separated by dots. -/
def key : Nat → Str → Option (List Str × Str)
  | 0, _ => none
  | n + 1, s =>
    (simpleKey s).bind fun (k, r) =>
      match expect '.' (skipWs r) with
      | none => some ([k], r)
      | some r' => (key n (skipWs r')).map fun p => (k :: p.1, p.2)

/-- A decimal integer without sign: no leading zero, and nothing after it that would belong to the number. -/
def digits (s : Str) : Option (Nat × Str) :=
  let ds := s.takeWhile Char.isDigit
  let r := s.dropWhile Char.isDigit
  if ds = [] ∨ (ds.head? = some '0' ∧ ds.length ≠ 1) then none
  else
    match r.head? with
    | some c => if isBare c || c == '.' || c == ':' || c == '+' then none else some (Nat.ofDigitChars 10 ds 0, r)
    | none => some (Nat.ofDigitChars 10 ds 0, r)

/-- An integer. -/
def integer (s : Str) : Option (Int × Str) :=
  match s with
  | [] => none
  | c :: r =>
    if c = '-' then (digits r).map fun p => (-(p.1 : Int), p.2)
    else if c = '+' then (digits r).map fun p => ((p.1 : Int), p.2)
    else (digits s).map fun p => ((p.1 : Int), p.2)

/-- A word that is not continued. -/
def word (w : Str) (s : Str) : Option Str :=
  if s.take w.length = w ∧ ((s.drop w.length).head?.map isBare).getD false = false then some (s.drop w.length) else none

/-! ## Tables -/

/-- How a table came to be: by its own header, by the header of a table inside it, or by a dotted key. -/
inductive Kind where
  | header | super | dotted
  deriving DecidableEq

/-- A part of a document while it is read. -/
inductive Node where
  | leaf (v : Value)
  | tbl (kind : Kind) (es : List (Str × Node))
  | items (ts : List (List (Str × Node)))

/-- Entries of a table while it is read. -/
abbrev Entries := List (Str × Node)

/-- Change, or add, one entry. -/
def change (k : Str) (f : Option Node → Option Node) : Entries → Option Entries
  | [] => (f none).map fun n => [(k, n)]
  | (k', n) :: es =>
    if k' = k then (f (some n)).map fun n' => (k', n') :: es
    else (change k f es).map fun es' => (k', n) :: es'

/-- Change the last of the tables of an array of tables. -/
def changeLast (f : Entries → Option Entries) : List Entries → Option (List Entries)
  | [] => none
  | [t] => (f t).map fun t' => [t']
  | t :: ts => (changeLast f ts).map fun ts' => t :: ts'

/-- A new value; nothing is there yet. -/
def newLeaf (v : Value) : Option Node → Option Node
  | none => some (.leaf v)
  | some _ => none

/-- Inside a table made by dotted keys, or a new one. -/
def inDotted (f : Entries → Option Entries) : Option Node → Option Node
  | none => (f []).map (.tbl .dotted)
  | some (.tbl .dotted es) => (f es).map (.tbl .dotted)
  | some _ => none

/-- `key = value` in a table. -/
def put : List Str → Value → Entries → Option Entries
  | [], _, _ => none
  | [k], v, es => change k (newLeaf v) es
  | k :: ks, v, es => change k (inDotted (put ks v)) es

/-- Inside a table, the last table of an array, or a new table, on the way of a header. -/
def onWay (f : Entries → Option Entries) : Option Node → Option Node
  | none => (f []).map (.tbl .super)
  | some (.tbl k es) => (f es).map (.tbl k)
  | some (.items ts) => (changeLast f ts).map .items
  | some (.leaf _) => none

/-- The table of a header: it must not have been defined. -/
def newTable : Option Node → Option Node
  | none => some (.tbl .header [])
  | some (.tbl .super es) => some (.tbl .header es)
  | some _ => none

/-- One more table of an array of tables. -/
def newItem : Option Node → Option Node
  | none => some (.items [[]])
  | some (.items ts) => some (.items (ts ++ [[]]))
  | some _ => none

/-- A header: `last` is what happens at its last key. -/
def header (last : Option Node → Option Node) : List Str → Entries → Option Entries
  | [], _ => none
  | [k], es => change k last es
  | k :: ks, es => change k (onWay (header last ks)) es

/-- Inside the table of the last header. -/
def inside (f : Entries → Option Entries) : List Str → Entries → Option Entries
  | [], es => f es
  | k :: ks, es => change k (onWay (inside f ks)) es

mutual
/-- The value of a part. -/
def Node.value : Node → Value
  | .leaf v => v
  | .tbl _ es => .table (entriesValue es)
  | .items ts => .arr (itemsValue ts)
/-- The values of entries. -/
def entriesValue : List (Str × Node) → Table
  | [] => []
  | (k, n) :: es => (k, n.value) :: entriesValue es
/-- The values of tables. -/
def itemsValue : List (List (Str × Node)) → List Value
  | [] => []
  | t :: ts => .table (entriesValue t) :: itemsValue ts
end

/-! ## Values -/

/-- In arrays: without spaces, newlines and comments at the beginning.  The argument says whether we are in a comment. -/
def skipTrivia : Bool → Str → Str
  | _, [] => []
  | true, c :: s => if c = '\n' then skipTrivia false s else if isControl c && c != '\r' then c :: s else skipTrivia true s
  | false, c :: s =>
    if isWsp c || c == '\n' || (c == '\r' && s.head? == some '\n') then skipTrivia false s
    else if c = '#' then skipTrivia true s
    else c :: s

/-- The entries of an inline table. -/
def putAll : List (List Str × Value) → Entries → Option Entries
  | [], es => some es
  | (k, v) :: l, es => (put k v es).bind (putAll l)

mutual
/-- A value. -/
def value : Nat → Str → Option (Value × Str)
  | 0, _ => none
  | n + 1, s =>
    match s with
    | [] => none
    | c :: r =>
      if c = '"' ∨ c = '\'' then (string s).map fun p => (.str p.1, p.2)
      else if c = '[' then (array n r).map fun p => (.arr p.1, p.2)
      else if c = '{' then (inline n r).bind fun p => (putAll p.1 []).map fun es => (.table (entriesValue es), p.2)
      else if c = 't' then (word "true".toList s).map fun r => (.bool true, r)
      else if c = 'f' then (word "false".toList s).map fun r => (.bool false, r)
      else (integer s).map fun p => (.int p.1, p.2)
/-- The elements of an array, after `[` or a comma. -/
def array : Nat → Str → Option (List Value × Str)
  | 0, _ => none
  | n + 1, s =>
    match expect ']' (skipTrivia false s) with
    | some r => some ([], r)
    | none =>
      (value n (skipTrivia false s)).bind fun p =>
        match expect ',' (skipTrivia false p.2) with
        | some r => (array n r).map fun q => (p.1 :: q.1, q.2)
        | none => (expect ']' (skipTrivia false p.2)).map fun r => ([p.1], r)
/-- The entries of an inline table, after `{` or a comma. -/
def inline : Nat → Str → Option (List (List Str × Value) × Str)
  | 0, _ => none
  | n + 1, s =>
    match expect '}' (skipTrivia false s) with
    | some r => some ([], r)
    | none =>
      (key n (skipTrivia false s)).bind fun k =>
        (expect '=' (skipWs k.2)).bind fun r =>
          (value n (skipWs r)).bind fun p =>
            match expect ',' (skipTrivia false p.2) with
            | some r' => (inline n r').map fun q => ((k.1, p.1) :: q.1, q.2)
            | none => (expect '}' (skipTrivia false p.2)).map fun r' => ([(k.1, p.1)], r')
end

/-! ## Lines -/

/-- A statement of a document. -/
inductive Stmt where
  | pair (k : List Str) (v : Value)
  | table (k : List Str)
  | item (k : List Str)

/-- The text after a comment. -/
def comment : Str → Option Str
  | [] => some []
  | c :: s => if c = '\n' then some s else if isControl c && !(c == '\r' && s.head? == some '\n') then none else comment s

/-- The text after the end of a line. -/
def endLine (s : Str) : Option Str :=
  match skipWs s with
  | [] => some []
  | c :: r => if c = '\n' then some r else if c = '#' then comment r else if c = '\r' then expect '\n' r else none

/-- The statement of a line, if there is one, and the text after it. -/
def line (n : Nat) (s : Str) : Option (Option Stmt × Str) :=
  match skipWs s with
  | [] => some (none, [])
  | c :: r =>
    if c = '\n' ∨ c = '#' ∨ c = '\r' then (endLine (c :: r)).map fun r => (none, r)
    else if c = '[' then
      match expect '[' r with
      | some r =>
        (key n (skipWs r)).bind fun k =>
          (expect ']' (skipWs k.2)).bind fun r => (expect ']' r).bind fun r =>
            (endLine r).map fun r => (some (.item k.1), r)
      | none =>
        (key n (skipWs r)).bind fun k =>
          (expect ']' (skipWs k.2)).bind fun r => (endLine r).map fun r => (some (.table k.1), r)
    else
      (key n (c :: r)).bind fun k =>
        (expect '=' (skipWs k.2)).bind fun r => (value n (skipWs r)).bind fun p =>
          (endLine p.2).map fun r => (some (.pair k.1 p.1), r)

/-- The statements of a text. -/
def statements : Nat → Str → Option (List Stmt)
  | 0, _ => none
  | n + 1, s =>
    match s with
    | [] => some []
    | c :: r =>
      (line (n + 1) (c :: r)).bind fun p =>
        (statements n p.2).map fun l => p.1.toList ++ l

/-- The document of statements: the entries so far and the last header. -/
def build : List Stmt → List Str → Entries → Option Entries
  | [], _, es => some es
  | .pair k v :: l, path, es => (inside (put k v) path es).bind (build l path)
  | .table k :: l, _, es => (header newTable k es).bind (build l k)
  | .item k :: l, _, es => (header newItem k es).bind (build l k)

/-- The document of a text. -/
def read (s : Str) : Option Table :=
  ((statements (s.length + 1) s).bind fun l => build l [] []).map entriesValue

end Verif.Toml
