import Verif.Spec.LockText
import Verif.Spec.ConfigFile
import Verif.Spec.AdvisoryFile
import Verif.Props.Checksum

/-!
# Specification: what the text of `Cargo.lock` means

In terms of the TOML document, of words separated by white space and of hexadecimal digits.
-/

namespace Verif.Spec

open Verif Verif.Lock Verif.Semver Verif.Toml Verif.Audit
open Verif.Props (Spells HexPair)

/-- A white space character. -/
def White (c : Char) : Prop := c.toNat ∈ whiteSpace

/-- White space, or nothing. -/
def Blank (s : Str) : Prop := ∀ c ∈ s, White c

/-- A word: not empty, without white space. -/
def Word (w : Str) : Prop := w ≠ [] ∧ ∀ c ∈ w, ¬ White c

/-- The words of a text: what is between white space. -/
inductive Words : Str → List Str → Prop
  | blank {s : Str} (hs : Blank s) : Words s []
  | last {s w : Str} (hs : Blank s) (hw : Word w) : Words (s ++ w) [w]
  | more {s w rest : Str} {c : Char} {ws : List Str} (hs : Blank s) (hw : Word w) (hc : White c) (h : Words rest ws) :
      Words (s ++ (w ++ c :: rest)) (w :: ws)

/-- The key of a query that names a revision of a git repository, and what it names. -/
inductive RefKey : Str → Str → GitReference → Prop
  | branch {v : Str} : RefKey "branch".toList v (.branch v)
  | ref {v : Str} : RefKey "ref".toList v (.branch v)
  | rev {v : Str} : RefKey "rev".toList v (.rev v)
  | tag {v : Str} : RefKey "tag".toList v (.tag v)

/-- The revision that a query names: the last that is named, or else the default branch. -/
def Refers (pairs : List (Str × Str)) (r : GitReference) : Prop :=
  (r = .defaultBranch ∧ ∀ kv ∈ pairs, ∀ r', ¬ RefKey kv.1 kv.2 r') ∨
  ∃ a k v b, pairs = a ++ (k, v) :: b ∧ RefKey k v r ∧ ∀ kv ∈ b, ∀ r', ¬ RefKey kv.1 kv.2 r'

/-- The source that a text names: the kind, `+` and a URL.  The query and the fragment of a git URL are the reference and
the precise revision. -/
inductive SourceOf (U : UrlLib) : Str → SourceId → Prop
  | git {rest : Str} {u : Url} {r : GitReference} (hu : Url.parse U rest = some u) (hr : Refers u.queryPairs r) :
      SourceOf U ("git+".toList ++ rest) { url := { base := u.base }, kind := .git r, precise := u.fragment }
  | registry {rest : Str} {u : Url} (hu : Url.parse U rest = some u) :
      SourceOf U ("registry+".toList ++ rest) { url := u, kind := .registry, precise := some "locked".toList }
  | sparse {rest : Str} {u : Url} (hu : Url.parse U rest = some u) :
      SourceOf U ("sparse+".toList ++ rest) { url := u, kind := .sparseRegistry, precise := some "locked".toList }
  | path {rest : Str} {u : Url} (hu : Url.parse U rest = some u) :
      SourceOf U ("path+".toList ++ rest) { url := u, kind := .path, precise := none }

/-- A reference to a package: a name; a name and a version; a name, a version and a source in parentheses. -/
inductive ReferenceOf (C : Codec) (s : Str) : EncDependency → Prop
  | name {n : Str} (h : Words s [n]) : ReferenceOf C s ⟨n, none, none⟩
  | version {n v : Str} {ver : Version} (h : Words s [n, v]) (hv : C.parseVersion v = some ver) :
      ReferenceOf C s ⟨n, some ver, none⟩
  | source {n v src : Str} {ver : Version} {sid : SourceId} (h : Words s [n, v, '(' :: (src ++ [')'])])
      (hv : C.parseVersion v = some ver) (hs : SourceOf C.url src sid) : ReferenceOf C s ⟨n, some ver, some sid⟩

/-- A checksum: 32 bytes in hexadecimal. -/
def ChecksumOf (s : Str) (c : Checksum) : Prop := Spells s c ∧ c.length = 32

/-- The text is found not to be a checksum: it has another length, or after some bytes there are two characters that are not
a byte in hexadecimal. -/
def NoChecksum (s : Str) : Prop :=
  byteLen s ≠ 64 ∨ ∃ a bs rest, s = a ++ rest ∧ Spells a bs ∧
    ((∃ c d r, rest = c :: d :: r ∧ c.utf8Size = 1 ∧ d.utf8Size = 1 ∧ ∀ b, ¬ HexPair c d b) ∨
     (∃ c r, rest = c :: r ∧ c.utf8Size = 2))

/-- The value is a string with this meaning. -/
def Text {α : Type} (R : Str → α → Prop) (v : Value) (a : α) : Prop := ∃ s, v = .str s ∧ R s a

/-- The value is the table of a package: its name and version, and perhaps its source, its checksum, references to its
dependencies and a reference to what replaces it. -/
def IsPackage (C : Codec) (v : Value) (p : EncPackage) : Prop :=
  ∃ t, v = .table t ∧
    Mandatory IsText (t.lookup "name".toList) p.name ∧
    Mandatory (Text fun s ver => C.parseVersion s = some ver) (t.lookup "version".toList) p.version ∧
    Optionally (Text (SourceOf C.url)) (t.lookup "source".toList) p.source ∧
    Optionally (Text ChecksumOf) (t.lookup "checksum".toList) p.checksum ∧
    Defaulting [] (IsList (Text (ReferenceOf C))) (t.lookup "dependencies".toList) p.dependencies ∧
    Optionally (Text (ReferenceOf C)) (t.lookup "replace".toList) p.replace

/-- The value is the table of an unused patch. -/
def IsPatched (C : Codec) (v : Value) (d : Dependency) : Prop :=
  ∃ t, v = .table t ∧
    Mandatory IsText (t.lookup "name".toList) d.name ∧
    Mandatory (Text fun s ver => C.parseVersion s = some ver) (t.lookup "version".toList) d.version ∧
    Optionally (Text (SourceOf C.url)) (t.lookup "source".toList) d.source

/-- The value is a table with an array of unused patches. -/
def IsPatch (C : Codec) (v : Value) (ds : List Dependency) : Prop :=
  ∃ t, v = .table t ∧ Mandatory (IsList (IsPatched C)) (t.lookup "unused".toList) ds

/-- The value is a table of strings; its entries, in the order of their keys. -/
def IsMetadata (v : Value) (m : LockMetadata) : Prop :=
  ∃ t, v = .table t ∧ (∀ e ∈ t, ∃ s, e.2 = .str s) ∧ OrderedKeys m ∧
    ∀ k s, (k, s) ∈ m ↔ ∃ a b, t = a ++ (k, .str s) :: b ∧ ∀ e ∈ b, e.1 ≠ k

/-- The version of the format: what the document says, or else 1 if the checksums are in the metadata, and 2 if they are
not.  They cannot be in both places. -/
def FormatOf (o : Option Value) (ps : List EncPackage) (m : LockMetadata) (v : ResolveVersion) : Prop :=
  (∃ n : Nat, o = some (.int n) ∧ (n, v) ∈ [(1, ResolveVersion.v1), (2, .v2), (3, .v3), (4, .v4)]) ∨
  (o = none ∧ v = .v1 ∧ (∃ e ∈ m, "checksum ".toList <+: e.1) ∧ ∀ p ∈ ps, p.checksum = none) ∨
  (o = none ∧ v = .v2 ∧ ∀ e ∈ m, ¬ "checksum ".toList <+: e.1)

/-- The package has the name of the reference, and its version if it has one. -/
def Fits (d : EncDependency) (p : EncPackage) : Prop := p.name = d.name ∧ (d.version = none ∨ d.version = some p.version)

/-- What a reference refers to, given the packages of the lockfile: if it has no source, the first package that fits; if
there is none, or it has a source, it must say the version itself. -/
inductive StandsFor (ps : List EncPackage) (d : EncDependency) : Dependency → Prop
  | listed {before after : List EncPackage} {p : EncPackage} (hps : ps = before ++ p :: after) (hs : d.source = none)
      (hp : Fits d p) (hb : ∀ q ∈ before, ¬ Fits d q) : StandsFor ps d ⟨p.name, p.version, p.source⟩
  | unlisted {v : Version} (h : d.source ≠ none ∨ ∀ p ∈ ps, ¬ Fits d p) (hv : d.version = some v) :
      StandsFor ps d ⟨d.name, v, d.source⟩

/-- The key of the metadata is for the checksum of this package. -/
def ChecksumKeyOf (C : Codec) (name : Str) (version : Version) (k : Str) : Prop :=
  ∃ s src, k = "checksum ".toList ++ s ∧ ReferenceOf C s ⟨name, some version, src⟩

/-- The checksum of a package in the metadata: that of the first key for it; none if there is none or its value is found not
to be a checksum. -/
inductive MetadataChecksum (C : Codec) (m : LockMetadata) (name : Str) (version : Version) : Option Checksum → Prop
  | missing (h : ∀ e ∈ m, ¬ ChecksumKeyOf C name version e.1) : MetadataChecksum C m name version none
  | found {a b : LockMetadata} {k s : Str} {c : Checksum} (hm : m = a ++ (k, s) :: b)
      (ha : ∀ e ∈ a, ¬ ChecksumKeyOf C name version e.1) (hk : ChecksumKeyOf C name version k) (hs : ChecksumOf s c) :
      MetadataChecksum C m name version (some c)
  | unreadable {a b : LockMetadata} {k s : Str} (hm : m = a ++ (k, s) :: b)
      (ha : ∀ e ∈ a, ¬ ChecksumKeyOf C name version e.1) (hk : ChecksumKeyOf C name version k) (hs : NoChecksum s) :
      MetadataChecksum C m name version none

/-- A replacement says its version itself. -/
def Replaces (o : Option EncDependency) (r : Option Dependency) : Prop :=
  (o = none ∧ r = none) ∨ ∃ d x, o = some d ∧ r = some x ∧ StandsFor [] d x

/-- The package that a table means, when its references are among `ps`. -/
structure Means (ps : List EncPackage) (t : EncPackage) (checksum : Option Checksum) (p : Package) : Prop where
  name : p.name = t.name
  version : p.version = t.version
  source : p.source = t.source
  checksum : p.checksum = checksum
  dependencies : List.Forall₂ (StandsFor ps) t.dependencies p.dependencies
  replace : Replaces t.replace p.replace

/-- The same in a lockfile: in format 1 the references say everything themselves and the checksums are in the metadata. -/
def PackageMeans (C : Codec) (version : ResolveVersion) (ps : List EncPackage) (m : LockMetadata) (t : EncPackage)
    (p : Package) : Prop :=
  (version = .v1 ∧ ∃ c, MetadataChecksum C m t.name t.version c ∧ Means [] t c p) ∨
  (version ≠ .v1 ∧ Means ps t t.checksum p)

/-- The root package, of old lockfiles. -/
def RootMeans (o : Option EncPackage) (r : Option Package) : Prop :=
  (o = none ∧ r = none) ∨ ∃ t p, o = some t ∧ r = some p ∧ Means [] t t.checksum p

/-- What the text of a lockfile means. -/
def LockfileOf (C : Codec) (text : Str) (l : Lockfile) : Prop :=
  ∃ doc ps root, Toml.read text = some doc ∧
    Defaulting [] (IsList (IsPackage C)) (doc.lookup "package".toList) ps ∧
    Optionally (IsPackage C) (doc.lookup "root".toList) root ∧
    Defaulting [] IsMetadata (doc.lookup "metadata".toList) l.metadata ∧
    Defaulting [] (IsPatch C) (doc.lookup "patch".toList) l.patch ∧
    FormatOf (doc.lookup "version".toList) ps l.metadata l.version ∧
    List.Forall₂ (PackageMeans C l.version ps l.metadata) ps l.packages ∧
    RootMeans root l.root

/-- After some bytes in hexadecimal the text has a character that is cut in two when it is read two bytes at a time. -/
def CutsCharacter (s : Str) : Prop :=
  byteLen s = 64 ∧ ∃ a bs rest, s = a ++ rest ∧ Spells a bs ∧
    ((∃ c d r, rest = c :: d :: r ∧ c.utf8Size = 1 ∧ d.utf8Size ≠ 1) ∨ (∃ c r, rest = c :: r ∧ 3 ≤ c.utf8Size))

/-- The text stands where the document has the checksum of a package, or of the root package, or in its metadata. -/
def ChecksumText (doc : Table) (s : Str) : Prop :=
  (∃ tables t, doc.lookup "package".toList = some (.arr tables) ∧ Value.table t ∈ tables ∧
    t.lookup "checksum".toList = some (.str s)) ∨
  (∃ t, doc.lookup "root".toList = some (.table t) ∧ t.lookup "checksum".toList = some (.str s)) ∨
  (∃ t k, doc.lookup "metadata".toList = some (.table t) ∧ (k, .str s) ∈ t ∧ "checksum ".toList <+: k)

end Verif.Spec
