import Verif.Model.PlatformGen

/-!
# What the generator of the platform tables promises

Words only about texts, Markdown blocks and lines of `rustc --print=cfg`; no function of the generator is used, except for
the types of its arguments and the trimming of blanks.
-/

namespace Verif.Spec

open Verif.PlatGen Verif.Adv

/-- A name without case and underscores. -/
def bareName (v : Str) : Str := (v.map Char.toLower).filter (· ≠ '_')

/-- How the values that cannot be names are read. -/
def readAs (v : Str) : Str :=
  if v = [] then "none".toList
  else if v = "16".toList then "u16".toList
  else if v = "32".toList then "u32".toList
  else if v = "64".toList then "u64".toList
  else v

/-- A letter, a digit or `_`. -/
def IdentChar (c : Char) : Prop := c.isAlphanum = true ∨ c = '_'

/-- A Rust identifier (of ASCII characters). -/
def RustIdent (s : Str) : Prop :=
  ∃ c r, s = c :: r ∧ (c.isAlpha = true ∨ (c = '_' ∧ r ≠ [])) ∧ ∀ x ∈ r, IdentChar x

/-- The characters a constant cannot have, and the one that replaces them. -/
def Separator (c : Char) : Prop := c = '-' ∨ c = '.' ∨ c = '_'

/-- Two characters of triples that constants do not tell apart. -/
def SameInConst (c d : Char) : Prop := (Separator c ∧ Separator d) ∨ c.toUpper = d.toUpper

/-- A heading `Tier N…`. -/
def TierHeading (first : Option Node) (n : Nat) : Prop :=
  ∃ s c rest, first = some (.text s) ∧ trimEnd (trimStart s) = "Tier ".toList ++ c :: rest ∧
    '0' ≤ c ∧ c ≤ '9' ∧ n = c.toNat - 48

/-- After these blocks the reader is under a heading of tier `n`. -/
def Under (blocks : List Block) (n : Nat) : Prop :=
  ∃ a first b, blocks = a ++ .heading first :: b ∧ TierHeading first n ∧
    ∀ first' m, Block.heading first' ∈ b → ¬ TierHeading first' m

/-- The column with this title is the one with index `i`: the last one, if there are more. -/
def TitledColumn (title : Str) (header : List Cell) (i : Nat) : Prop :=
  (∃ c s, header[i]? = some c ∧ c.first = some (.text s) ∧ trimEnd (trimStart s) = title) ∧
    ∀ j c s, i < j → header[j]? = some c → c.first = some (.text s) → trimEnd (trimStart s) ≠ title

/-- The code a node begins with. -/
inductive BeginsWithCode : Node → Str → Prop
  | code (l : Str) : BeginsWithCode (.code l) l
  | down (c : Node) (cs : List Node) (l : Str) : BeginsWithCode c l → BeginsWithCode (.other (c :: cs)) l

/-- Row `row` of a table with this header gives the target and its notes. -/
def RowOf (header : List Cell) (row : List Cell) (target : Str) (notes : List (Option Str)) : Prop :=
  ∃ i j t n node, TitledColumn "target".toList header i ∧ TitledColumn "notes".toList header j ∧
    row[i]? = some t ∧ row[j]? = some n ∧ t.first = some node ∧ BeginsWithCode node target ∧ notes = n.notes

/-- Somewhere in these blocks a row under a heading of tier `tier` gives the target. -/
def Documented (blocks : List Block) (target : Str) (tier : Nat) (notes : List (Option Str)) : Prop :=
  ∃ pre header rows post row, blocks = pre ++ .table (some header) rows :: post ∧ Under pre tier ∧ row ∈ rows ∧
    RowOf header row target notes

/-- The first row of the document that gives the target is this one. -/
def FirstDocumented (blocks : List Block) (target : Str) (tier : Nat) (notes : List (Option Str)) : Prop :=
  ∃ pre header before row after post, blocks = pre ++ .table (some header) (before ++ row :: after) :: post ∧
    Under pre tier ∧ RowOf header row target notes ∧
    (∀ t ns, ¬ Documented pre target t ns) ∧ ∀ r ∈ before, ∀ ns, ¬ RowOf header r target ns

/-- No character at the end satisfies `bad`. -/
def NotAtEnd (bad : Char → Prop) (s : Str) : Prop := ∀ a c, s = a ++ [c] → ¬ bad c

/-- A line end. -/
def LineEnd (c : Char) : Prop := c = '\n' ∨ c = '\r'

/-- The first text is the second one with some of its `_` and `-` escaped. -/
inductive Escaped : Str → Str → Prop
  | nil : Escaped [] []
  | plain (c : Char) (a b : Str) : c ≠ '\\' → Escaped a b → Escaped (c :: a) (c :: b)
  | escaped (c : Char) (a b : Str) : c = '_' ∨ c = '-' → Escaped a b → Escaped ('\\' :: c :: a) (c :: b)

/-- A line of `rustc --print=cfg`. -/
inductive CfgLine where
  | flag (s : Str)
  | pair (key value : Str)

/-- Its text. -/
def CfgLine.text : CfgLine → Str
  | .flag s => s
  | .pair k v => k ++ '=' :: '"' :: v ++ ['"']

/-- There is no `=` but the one between key and value. -/
def CfgLine.Plain : CfgLine → Prop
  | .flag s => '=' ∉ s
  | .pair k v => '=' ∉ k ∧ '=' ∉ v

/-- The last value given for a key. -/
def lastValue (key : Str) : List CfgLine → Option Str
  | [] => none
  | l :: ls =>
    match lastValue key ls, l with
    | some v, _ => some v
    | none, .pair k v => if k = key then some v else none
    | none, .flag _ => none

/-- Lines, each with its end. -/
def linesText (ls : List Str) : Str := (ls.map (· ++ ['\n'])).flatten

/-- A field of a platform that has an enum: its key in `rustc`, the enum, its file. -/
structure EnumField where
  key : Str
  name : Str
  path : Str

/-- The fields with enums. -/
def enumFields : List EnumField :=
  [⟨"target_arch".toList, "Arch".toList, "src/target/arch.rs".toList⟩,
   ⟨"target_os".toList, "Os".toList, "src/target/os.rs".toList⟩,
   ⟨"target_env".toList, "Env".toList, "src/target/env.rs".toList⟩,
   ⟨"target_endian".toList, "Endian".toList, "src/target/endian.rs".toList⟩,
   ⟨"target_pointer_width".toList, "PointerWidth".toList, "src/target/pointer_width.rs".toList⟩]

/-- The lines of a variant. -/
def variantBlock (comment : Option Str) (raw variant : Str) : List Str :=
  [("    /// `".toList ++ raw ++ "`".toList) ++ (match comment with | some c => ": ".toList ++ c | none => [])] ++
  (if variant.head?.any Char.isLower then ["    #[allow(non_camel_case_types)]".toList] else []) ++
  ["    ".toList ++ variant ++ ",".toList, []]

/-- The lines of an enum with its conversions; `variants` are the pairs of raw value and variant. -/
def enumLines (name key : Str) (comment : Str → Option Str) (variants : List (Str × Str)) : List Str :=
  ["pub enum ".toList ++ name ++ " {".toList] ++
  variants.flatMap (fun v => variantBlock (comment v.1) v.1 v.2) ++
  ["}".toList,
   [],
   "impl ".toList ++ name ++ " {".toList,
   "    /// String representing this `".toList ++ name ++ "` which matches `#[cfg(".toList ++ key ++ ")]`".toList,
   "    pub fn as_str(self) -> &'static str {".toList,
   "        match self {".toList] ++
  variants.map (fun v => "            Self::".toList ++ v.2 ++ " => \"".toList ++ v.1 ++ "\",".toList) ++
  ["        }".toList,
   "    }".toList,
   "}".toList,
   [],
   "impl FromStr for ".toList ++ name ++ " {".toList,
   "    type Err = Error;".toList,
   [],
   "    /// Create a new `".toList ++ name ++ "` from the given string".toList,
   "    fn from_str(name: &str) -> Result<Self, Self::Err> {".toList,
   "        let result = match name {".toList] ++
  variants.map (fun v => "            \"".toList ++ v.1 ++ "\" => Self::".toList ++ v.2 ++ ",".toList) ++
  ["            _ => return Err(Error),".toList,
   "        };".toList,
   [],
   "        Ok(result)".toList,
   "    }".toList,
   "}".toList]

/-- The lines of a platform. -/
def platformLines (notes const triple arch os env endian width tier : Str) : List Str :=
  (if notes = [] then [[]] else [[], "/// ".toList ++ notes]) ++
  ["pub(crate) const ".toList ++ const ++ ": Platform = Platform {".toList,
   "    target_triple: \"".toList ++ triple ++ "\",".toList,
   "    target_arch: Arch::".toList ++ arch ++ ",".toList,
   "    target_os: Os::".toList ++ os ++ ",".toList,
   "    target_env: Env::".toList ++ env ++ ",".toList,
   "    target_endian: Endian::".toList ++ endian ++ ",".toList,
   "    target_pointer_width: PointerWidth::".toList ++ width ++ ",".toList,
   "    tier: Tier::".toList ++ tier ++ ",".toList,
   "};".toList]

/-- The lines of the list of all platforms. -/
def allLines (consts : List Str) : List Str :=
  [[], "/// The list of all targets recognized by the Rust compiler".toList,
   "pub(crate) const ALL: &[Platform] = &[".toList] ++
  consts.map (fun c => "    ".toList ++ c ++ ",".toList) ++ ["];".toList]

/-- The names of the tiers. -/
def tierWord (n : Nat) : Option Str :=
  [(1, "One".toList), (2, "Two".toList), (3, "Three".toList)].lookup n

end Verif.Spec
