import Verif.Model.AdvisoryFile
import Verif.Model.Sync

/-!
# The generator of the platform tables

Model of `platforms-data-gen/src`: `enums.rs`, `write.rs`, `doc_target_info.rs`, `rustc_target_info.rs`, `main.rs`.
`rustc`, the Markdown parser `comrak`, the templates and the hand-written comments are arguments.
-/

namespace Verif.PlatGen

open Verif.Adv

/-! ### Names -/

/-- `to_ascii_lowercase`. -/
def lower (s : Str) : Str := s.map Char.toLower

/-- `to_ascii_uppercase`. -/
def upper (s : Str) : Str := s.map Char.toUpper

/-- `enums.rs:77-104`: `make_ascii_titlecase`; the flag is `at_boundary`. -/
def titleFrom : Bool → Str → Str
  | _, [] => []
  | b, c :: s =>
    if c = '_' then titleFrom true s
    else if b && c.isDigit then '_' :: c :: titleFrom false s
    else if b && c.isLower then c.toUpper :: titleFrom false s
    else c :: titleFrom false s

/-- `enums.rs:77-104`: `make_ascii_titlecase`. -/
def titlecase (s : Str) : Str := titleFrom true s

/-- `enums.rs:39-58`: the names that are spelled in their own way. -/
def special : List (Str × Str) :=
  [("".toList, "None".toList), ("16".toList, "U16".toList), ("32".toList, "U32".toList), ("64".toList, "U64".toList),
   ("aarch64".toList, "AArch64".toList), ("asmjs".toList, "AsmJs".toList), ("ios".toList, "iOS".toList),
   ("powerpc".toList, "PowerPc".toList), ("powerpc64".toList, "PowerPc64".toList), ("riscv".toList, "RiscV".toList),
   ("s390x".toList, "S390X".toList), ("thumbv6".toList, "ThumbV6".toList), ("thumbv7".toList, "ThumbV7".toList),
   ("uclibc".toList, "UClibc".toList), ("vxworks".toList, "VxWorks".toList)]

/-- `enums.rs:62-72`: the ends `os` and `bsd` in capitals. -/
def capitalEnd (s : Str) : Str :=
  if endsWith s "os" then s.take (s.length - 2) ++ upper (s.drop (s.length - 2))
  else if endsWith s "bsd" then s.take (s.length - 3) ++ upper (s.drop (s.length - 3))
  else s

/-- `enums.rs:36-75`: `to_enum_variant_name`. -/
def variantName (value : Str) : Str :=
  match special.lookup (lower value) with
  | some n => n
  | none => capitalEnd (titlecase (lower value))

/-- `write.rs:207-213`: `to_const_variable_name`. -/
def constName (triple : Str) : Str :=
  ((upper triple).map fun c => if c = '-' then '_' else c).map fun c => if c = '.' then '_' else c

/-- `enums.rs:21-33`: `to_enum_name`. -/
def enumName (key : Str) : Outcome Str :=
  if key = "target_arch".toList then .ok "Arch".toList
  else if key = "target_os".toList then .ok "Os".toList
  else if key = "target_env".toList then .ok "Env".toList
  else if key = "tier".toList then .ok "Tier".toList
  else if key = "target_endian".toList then .ok "Endian".toList
  else if key = "target_pointer_width".toList then .ok "PointerWidth".toList
  else .panic

/-- `write.rs:215-223`: `tier_to_enum_variant`. -/
def tierName (tier : Nat) : Outcome Str :=
  if tier = 1 then .ok "Tier::One".toList
  else if tier = 2 then .ok "Tier::Two".toList
  else if tier = 3 then .ok "Tier::Three".toList
  else .panic

/-! ### What `rustc` says -/

/-- `rustc_target_info.rs:52-62`: a line of `rustc --print=cfg`; the value is what follows the first `=`, without any
other `=`, and without its first and last characters, which must be quotes. -/
def parseLine (line : Str) : Outcome (Option (Str × Str)) :=
  match splitC '=' line with
  | [] => .ok none
  | [_] => .ok none
  | key :: rest =>
    let value := rest.flatten
    match value.reverse with
    | [] => .panic
    | last :: front =>
      if last ≠ '"' then .panic
      else
        match front.reverse with
        | [] => .panic
        | first :: inner => if first ≠ '"' then .panic else .ok (some (key, inner))

/-- `rustc_target_info.rs:46-67`: `parse_rustc_target_info`; collecting into a map keeps the last value of a key. -/
def parseInfo (lines : List Str) : Outcome (List (Str × Str)) := do
  let pairs ← Outcome.mapList parseLine lines
  .ok (pairs.filterMap id)

/-- `map[key]` of a map collected from pairs; `none` is a panic. -/
def getKey (info : List (Str × Str)) (key : Str) : Option Str := info.reverse.lookup key

/-! ### What the documentation says -/

/-- A node of the Markdown tree. -/
inductive Node where
  | code (literal : Str)
  | text (s : Str)
  | other (children : List Node)

/-- A cell: its children, and for each of them the text `comrak` formats it as (`none` for line breaks and footnotes, which
are left out). -/
structure Cell where
  first : Option Node
  notes : List (Option Str)

/-- A block of the document. -/
inductive Block where
  | heading (first : Option Node)
  | table (header : Option (List Cell)) (rows : List (List Cell))
  | other

/-- `doc_target_info.rs:14-19`: `DocTargetInfo`. -/
structure DocInfo where
  tier : Nat
  notes : Str
  deriving DecidableEq, Repr

/-- `doc_target_info.rs:37-53`: the tier a heading stands for. -/
def headingTier (first : Option Node) : Option Nat :=
  match first with
  | some (.text s) =>
    let t := trimEnd (trimStart s)
    if startsWith t "Tier " then
      match t.drop 5 with
      | c :: _ => if c.isDigit then some (c.toNat - '0'.toNat) else none
      | [] => none
    else none
  | _ => none

/-- `doc_target_info.rs:66-79`: a cell of the header. -/
def columnStep (title : String) (found : Option Nat) (c : Cell × Nat) : Option Nat :=
  match c.1.first with
  | some (.text s) => if trimEnd (trimStart s) = title.toList then some c.2 else found
  | _ => found

/-- `doc_target_info.rs:65-80`: the last column with that title. -/
def column (title : String) (header : List Cell) : Option Nat := header.zipIdx.foldl (columnStep title) none

/-- `doc_target_info.rs:101-115`: the first piece of code, going down along first children. -/
def Node.firstCode : Node → Option Str
  | .code l => some l
  | .text _ => none
  | .other [] => none
  | .other (c :: _) => c.firstCode

/-- `str::replace` of a two-character pattern by its second character. -/
def unescape (c : Char) : Str → Str
  | [] => []
  | [x] => [x]
  | x :: y :: s => if x = '\\' ∧ y = c then c :: unescape c s else x :: unescape c (y :: s)

/-- `doc_target_info.rs:124-143`: a piece of the notes. -/
def notesStep (acc : Str) : Option Str → Str
  | none => acc
  | some t => ((acc ++ t).reverse.dropWhile fun c => c = '\n' || c = '\r').reverse

/-- `doc_target_info.rs:123-150`: the notes. -/
def notesText (pieces : List (Option Str)) : Str :=
  let raw := pieces.foldl notesStep []
  unescape '-' (unescape '_' (trimEnd raw))

/-- `doc_target_info.rs:87-154`: a row of a table. -/
def rowEntry (tier targetCol notesCol : Nat) (row : List Cell) : Option (Str × DocInfo) :=
  match row[targetCol]?, row[notesCol]? with
  | some t, some n =>
    match t.first.bind Node.firstCode with
    | some target => some (target, ⟨tier, notesText n.notes⟩)
    | none => none
  | _, _ => none

/-- `doc_target_info.rs:34-162`: the rows of all tables under a tier, in order, and whether there was a table. -/
def docRows : Option Nat → List Block → List (Str × DocInfo) × Bool
  | _, [] => ([], false)
  | tier, .heading first :: bs =>
    match headingTier first with
    | some t => docRows (some t) bs
    | none => docRows tier bs
  | tier, .table header rows :: bs =>
    match tier, header with
    | some t, some h =>
      match column "target" h, column "notes" h with
      | some tc, some nc =>
        let r := docRows tier bs
        (rows.filterMap (rowEntry t tc nc) ++ r.1, true)
      | _, _ => docRows tier bs
    | _, _ => docRows tier bs
  | tier, .other :: bs => docRows tier bs

/-- `doc_target_info.rs:22-171`: `parse_file`; `entry(..).or_insert(..)` keeps the first row of a target, which is what
`lookup` finds. -/
def parseDoc (blocks : List Block) : Outcome (List (Str × DocInfo)) :=
  let r := docRows none blocks
  if r.2 then .ok r.1 else .panic

/-! ### Writing -/

/-- `write.rs:12-18`: `FIELDS_WITH_ENUMS`. -/
def fields : List Str :=
  ["target_arch".toList, "target_os".toList, "target_env".toList, "target_endian".toList, "target_pointer_width".toList]

/-- `enums.rs:7`: `&t[key]`. -/
def valueOf (key : Str) (info : List (Str × Str)) : Outcome Str :=
  match getKey info key with
  | some v => .ok v
  | none => .panic

/-- `enums.rs:6-8`: `distinct_values`: sorted, each once; a target without the key is a panic. -/
def distinctValues (key : Str) (info : List (List (Str × Str))) : Outcome (List Str) := do
  let vs ← Outcome.mapList (valueOf key) info
  .ok (Sync.sortDedup Lock.strCmp vs)

/-- A line. -/
def line (s : Str) : Str := s ++ ['\n']

/-- `write.rs:123-129`: the documentation of a variant. -/
def variantDoc (raw : Str) : Option Str → Str
  | some c => "    /// `".toList ++ raw ++ "`: ".toList ++ c
  | none => "    /// `".toList ++ raw ++ "`".toList

/-- `write.rs:122-137`: the lines of a variant; the `unwrap` panics on an empty name. -/
def variantLines (comment : Str → Option Str) (raw : Str) : Outcome Str :=
  match variantName raw with
  | [] => .panic
  | c :: n => .ok (line (variantDoc raw (comment raw)) ++ (if c.isLower then line "    #[allow(non_camel_case_types)]".toList else []) ++
      line ("    ".toList ++ (c :: n) ++ ",".toList) ++ line [])

/-- `write.rs:113-144`: `write_enum_definition`. -/
def enumDefinition (comment : Str → Option Str) (key : Str) (values : List Str) : Outcome Str := do
  let name ← enumName key
  let vs ← Outcome.mapList (variantLines comment) values
  .ok (line ("pub enum ".toList ++ name ++ " {".toList) ++ vs.flatten ++ line "}".toList)

/-- `write.rs:146-204`: `write_enum_string_conversions`. -/
def enumConversions (key : Str) (values : List Str) : Outcome Str := do
  let name ← enumName key
  .ok (line [] ++ line ("impl ".toList ++ name ++ " {".toList) ++
    line ("    /// String representing this `".toList ++ name ++ "` which matches `#[cfg(".toList ++ key ++ ")]`".toList) ++
    line "    pub fn as_str(self) -> &'static str {".toList ++
    line "        match self {".toList ++
    (values.map fun v => line ("            Self::".toList ++ variantName v ++ " => \"".toList ++ v ++ "\",".toList)).flatten ++
    line "        }".toList ++ line "    }".toList ++ line "}".toList ++
    line [] ++ line ("impl FromStr for ".toList ++ name ++ " {".toList) ++
    line "    type Err = Error;".toList ++ line [] ++
    line ("    /// Create a new `".toList ++ name ++ "` from the given string".toList) ++
    line "    fn from_str(name: &str) -> Result<Self, Self::Err> {".toList ++
    line "        let result = match name {".toList ++
    (values.map fun v => line ("            \"".toList ++ v ++ "\" => Self::".toList ++ variantName v ++ ",".toList)).flatten ++
    line "            _ => return Err(Error),".toList ++ line "        };".toList ++ line [] ++
    line "        Ok(result)".toList ++ line "    }".toList ++ line "}".toList)

/-- What the generator is given. -/
structure GenWorld where
  /-- `rustc --print=target-list` -/
  triples : List Str
  /-- `rustc --print=cfg --target=...`, if it ends with status 0 -/
  cfg : Str → Option (List Str)
  doc : List Block
  comment : Str → Option Str
  header : Str → Str
  footer : Str → Str
  fileHeader : Str

/-- `rustc_target_info.rs:28-34`: what `rustc` says of a target; another status is a panic. -/
def targetInfo (W : GenWorld) (triple : Str) : Outcome (List (Str × Str)) :=
  match W.cfg triple with
  | some lines => parseInfo lines
  | none => .panic

/-- `rustc_target_info.rs:20-35`: `targets_info`. -/
def targetsInfo (W : GenWorld) : Outcome (List (List (Str × Str))) := Outcome.mapList (targetInfo W) W.triples

/-- `main.rs:46-70`: `ensure_rustc_and_docs_agree`. -/
def agree (triples : List Str) (doc : List (Str × DocInfo)) : Bool :=
  triples.all (fun t => (doc.lookup t).isSome) && doc.all (fun e => triples.contains e.1)

/-- `write.rs:98-111`: `write_enum_file`. -/
def enumFile (W : GenWorld) (info : List (List (Str × Str))) (key : Str) : Outcome Str := do
  let values ← distinctValues key info
  let definition ← enumDefinition W.comment key values
  let conversions ← enumConversions key values
  .ok (W.header key ++ definition ++ conversions ++ W.footer key)

/-- `main.rs:32-38`: the file of an enum. -/
def enumPath (key : Str) : Str :=
  "src/target/".toList ++
  (if startsWith key "target_" then key.drop 7 else key) ++ ".rs".toList

/-- `main.rs:31-42`: a file with an enum. -/
def enumOutput (W : GenWorld) (info : List (List (Str × Str))) (key : Str) : Outcome (Str × Str) := do
  let text ← enumFile W info key
  .ok (enumPath key, text)

/-- `write.rs:88-91`: a field of a target. -/
def fieldLine (info : List (Str × Str)) (key : Str) : Outcome Str :=
  match getKey info key with
  | none => .panic
  | some v => do
    let name ← enumName key
    .ok (line ("    ".toList ++ key ++ ": ".toList ++ name ++ "::".toList ++ variantName v ++ ",".toList))

/-- `write.rs:73-95`: `write_target_struct`. -/
def targetStruct (triple : Str) (info : List (Str × Str)) (doc : DocInfo) : Outcome Str := do
  let fs ← Outcome.mapList (fieldLine info) fields
  let tier ← tierName doc.tier
  .ok ((if doc.notes.isEmpty then [] else "\n/// ".toList ++ doc.notes) ++
    line [] ++ line ("pub(crate) const ".toList ++ constName triple ++ ": Platform = Platform {".toList) ++
    line ("    target_triple: \"".toList ++ triple ++ "\",".toList) ++ fs.flatten ++
    line ("    tier: ".toList ++ tier ++ ",".toList) ++ line "};".toList)

/-- `write.rs:59-71`: `write_list_of_targets`. -/
def targetList (triples : List Str) : Str :=
  line [] ++ line "/// The list of all targets recognized by the Rust compiler".toList ++
  line "pub(crate) const ALL: &[Platform] = &[".toList ++
  (triples.map fun t => line ("    ".toList ++ constName t ++ ",".toList)).flatten ++ line "];".toList

/-- `write.rs:53-55`: a target with its `&(doc_info[triple])`. -/
def targetBlock (doc : List (Str × DocInfo)) (x : Str × List (Str × Str)) : Outcome Str :=
  match doc.lookup x.1 with
  | some d => targetStruct x.1 x.2 d
  | none => .panic

/-- `write.rs:20-57`: `write_targets_file`. -/
def targetsFile (W : GenWorld) (info : List (List (Str × Str))) (doc : List (Str × DocInfo)) : Outcome Str := do
  let structs ← Outcome.mapList (targetBlock doc) (W.triples.zip info)
  .ok (W.fileHeader ++ targetList W.triples ++ structs.flatten)

/-- `main.rs:16-44`: `main`: the files written.  What a run that panics has written before is not modelled. -/
def generate (W : GenWorld) : Outcome (List (Str × Str)) := do
  let doc ← parseDoc W.doc
  if !agree W.triples doc then .err
  else do
    let info ← targetsInfo W
    let enums ← Outcome.mapList (enumOutput W info) fields
    let targets ← targetsFile W info doc
    .ok (enums ++ [("src/platform/platforms.rs".toList, targets)])

end Verif.PlatGen
