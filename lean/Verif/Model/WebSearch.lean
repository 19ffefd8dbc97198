import Verif.Model.Web
import Verif.Model.Source
import Verif.Spec.Json

/-!
# The search on the web site: the index file and the script

Models `render_index` of `admin/src/web.rs` down to the text, and `admin/src/web/static/js/search.js` with the functions of
the browser that it calls.  Texts are sequences of Unicode characters (no lone surrogates).  `toLowerCase` is the same
function as Rust's.  The document is not modelled beyond what is shown.
-/

namespace Verif.Web

open Verif Verif.Lock Verif.Adv Verif.Spec

/-! ### The index file -/

/-- `web.rs:446`: the JSON object of the IDs. -/
def idsJson (ids : List (Str × List Id)) : Json := .obj (ids.map fun e => (e.1, .arr (e.2.map fun x => .str x.string)))

/-- `web.rs:447`: the JSON array of the packages. -/
def packagesJson (packages : List Str) : Json := .arr (packages.map .str)

/-- `web.rs:446-450`: the text of `js/index.js`. -/
def indexText (ids : List (Str × List Id)) (packages : List Str) : Str :=
  "var ids = ".toList ++ ((idsJson ids).print ++ "\nvar packages = ".toList ++ ((packagesJson packages).print ++ ['\n']))

/-- The text without a prefix. -/
def dropPrefix : Str → Str → Option Str
  | [], s => some s
  | _ :: _, [] => none
  | c :: p, d :: s => if c = d then dropPrefix p s else none

/-- A line `var name = value` of a script, with a JSON value, and the rest of the script.  (JSON values are JavaScript
expressions, with one exception: the key `__proto__`, see `ordinary`.) -/
def varLine (name : String) (script : Str) : Option (Json × Str) :=
  (dropPrefix ("var ".toList ++ name.toList ++ " = ".toList) script).bind fun s =>
    match cutC '\n' s with
    | (value, some rest) => (readJson value).map fun j => (j, rest)
    | (_, none) => none

/-- No member is called `__proto__`: in a script, that would set the prototype of the object, which is not modelled. -/
def ordinary : Json → Bool
  | .obj l => l.all fun e => decide (e.1 ≠ "__proto__".toList)
  | _ => true

/-- The variables that a page of the site has after it ran `js/index.js`. -/
def globals (script : Str) : Option (Json × Json) :=
  (varLine "ids" script).bind fun a =>
    (varLine "packages" a.2).bind fun b => if b.2.isEmpty && ordinary a.1 then some (a.1, b.1) else none

/-! ### Functions of the browser -/

/-- ECMAScript `WhiteSpace` and `LineTerminator`. -/
def jsWhite (c : Char) : Bool :=
  decide (c.toNat ∈ [9, 10, 11, 12, 13, 32, 160, 0x1680, 0x2000, 0x2001, 0x2002, 0x2003, 0x2004, 0x2005, 0x2006, 0x2007,
    0x2008, 0x2009, 0x200A, 0x2028, 0x2029, 0x202F, 0x205F, 0x3000, 0xFEFF])

/-- `String.prototype.trim`. -/
def jsTrim (s : Str) : Str := ((s.dropWhile jsWhite).reverse.dropWhile jsWhite).reverse

/-- What `encodeURIComponent` keeps. -/
def keepComponent (c : Char) : Bool := c.isAlphanum || decide (c ∈ ['-', '_', '.', '!', '~', '*', '\'', '(', ')'])

/-- `encodeURIComponent`. -/
def encodeURIComponent (s : Str) : Str := pctEncode keepComponent s

/-- Percent decoding; `none` if a `%` is not followed by two hexadecimal digits. -/
def pctBytes : Str → Option (List UInt8)
  | [] => some []
  | '%' :: h :: l :: s => (pctValue h l).bind fun b => (pctBytes s).map (b :: ·)
  | c :: s => if c = '%' then none else (pctBytes s).map (String.utf8EncodeChar c ++ ·)

/-- UTF-8 decoding of at most `n` characters; `none` if it is not valid. -/
def strictN : Nat → List UInt8 → Option Str
  | _, [] => some []
  | 0, _ :: _ => none
  | n + 1, b :: bs =>
    match decodeOne (b :: bs) with
    | some c => (strictN n ((b :: bs).drop c.utf8Size)).map (c :: ·)
    | none => none

/-- `decodeURIComponent`; `none` is an exception. -/
def decodeURIComponent (s : Str) : Option Str := (pctBytes s).bind fun bs => strictN bs.length bs

/-- `new URLSearchParams({name: value}).toString()`. -/
def queryOf (name value : Str) : Str := byteSerialize name ++ '=' :: byteSerialize value

/-- `new URLSearchParams(query).get(name)`. -/
def queryGet (query name : Str) : Option Str :=
  (((splitC '&' query).filter fun p => !p.isEmpty).map decodePair).lookup name

/-- A percent-encoded path without its first slash: `folder/name` or `name`. -/
def servedPath (path : Str) : Option SitePath :=
  match cutC '/' path with
  | (folder, some name) => (decodeURIComponent folder).bind fun f => (decodeURIComponent name).map fun n => (f, n)
  | (name, none) => (decodeURIComponent name).map fun n => ([], n)

/-- The file that the server has for an address on the site: `/folder/name`, percent-encoded. -/
def served : Str → Option SitePath
  | [] => none
  | c :: path => if c = '/' then servedPath path else none

/-! ### The script -/

/-- What every object has from `Object.prototype`, in lower case only: a function with one parameter, or an object without a
length. -/
inductive Builtin where
  | constructor
  | proto
  deriving DecidableEq

/-- A member of an object. -/
inductive Member where
  | own (j : Json)
  | builtin (b : Builtin)

/-- `term in ids`, `ids[term]`; inherited members are looked up after the object's own.  Other inherited names have capital
letters and are not searched for.  -/
def member (ids : Json) (term : Str) : Option Member :=
  match (match ids with | .obj l => l.reverse.lookup term | _ => none) with
  | some j => some (.own j)
  | none =>
    if term = "constructor".toList then some (.builtin .constructor)
    else if term = "__proto__".toList then some (.builtin .proto)
    else none

/-- `packages.includes(term)`. -/
def includes (packages : Json) (term : Str) : Bool :=
  match packages with
  | .arr l => l.any fun j => match j with | .str s => decide (s = term) | _ => false
  | _ => false

/-- A string as an argument of `encodeURIComponent`; other values do not occur. -/
def jsString : Json → Str
  | .str s => s
  | _ => []

/-- A link of the list of results: the address and what is shown. -/
structure Link where
  href : Str
  text : Str
  deriving DecidableEq

/-- What the visitor comes to. -/
inductive Visit where
  /-- another address on the site -/
  | address (url : Str)
  /-- the search page with this query -/
  | searchPage (query : Str)
  /-- the search page shows this heading and these links -/
  | results (heading : Str) (links : List Link)
  /-- the search page shows this heading and "No results." -/
  | noResults (heading : Str)
  /-- an exception -/
  | exception
  deriving DecidableEq

/-- `search.js:2, 30`: the heading. -/
def heading (term : Str) : Str := "Search results for '".toList ++ term ++ "'".toList

/-- `search.js:9, 36`: the address of an advisory. -/
def advisoryAddress (id : Str) : Str := "/advisories/".toList ++ encodeURIComponent id ++ ".html".toList

/-- `search.js:10-44`: no package has this name. -/
def searchIdsPage (ids : Json) (original term : Str) (redirect : Bool) : Visit :=
  match member ids term with
  | some (.own (.arr [x])) => .address (advisoryAddress (jsString x))
  | some (.builtin .constructor) => .address (advisoryAddress "undefined".toList)
  | m =>
    if redirect then .searchPage (queryOf "q".toList (encodeURIComponent original))
    else
      match m with
      | some (.own (.arr l)) =>
        .results (heading original) (l.map fun x => { href := advisoryAddress (jsString x), text := jsString x })
      | some _ => .exception
      | none => .noResults (heading original)

/-- `search.js:1-44`: `search`. -/
def jsSearch (lower : Str → Str) (ids packages : Json) (text : Str) (redirect : Bool) : Visit :=
  let original := jsTrim text
  let term := lower original
  if includes packages term then .address ("/packages/".toList ++ encodeURIComponent term ++ ".html".toList)
  else searchIdsPage ids original term redirect

/-- `search.js:60-65`: the search page. -/
def openSearchPage (lower : Str → Str) (ids packages : Json) (query : Str) : Option Visit :=
  match queryGet query "q".toList with
  | none => none
  | some q =>
    match decodeURIComponent q with
    | none => some .exception
    | some term => some (jsSearch lower ids packages term false)

/-- `search.js:46-58`: a visitor types a text and sends the form, on any page: what is reached in the end. -/
def typed (lower : Str → Str) (ids packages : Json) (text : Str) : Option Visit :=
  match jsSearch lower ids packages text true with
  | .searchPage query => openSearchPage lower ids packages query
  | v => some v

end Verif.Web
