import Verif.Model.Project
import Verif.Spec.ConfigFile
import Verif.Spec.AdvisoryDecode
import Verif.Spec.Audit
import Verif.Spec.AuditJson
import Verif.Spec.CvssScore

/-!
# Specification: what the texts of a project say
-/

namespace Verif.Spec

open Verif Verif.Semver Verif.Osv Verif.Lock Verif.Adv Verif.Audit Verif.Toml
open Verif.AdminLint (Checkout)

/-- The source that a package table names. -/
def NamesSource (U : UrlLib) (t : Table) (source : Option SourceId) : Prop :=
  (t.lookup "source".toList = none ∧ source = none) ∨
  ∃ text s, t.lookup "source".toList = some (.str text) ∧ SourceId.fromUrl U text = .ok s ∧ source = some s

/-- The text has, in its array `package`, a table with this name, this version and this source. -/
def Locks (U : UrlLib) (text : Str) (name : Str) (version : Version) (source : Option SourceId) : Prop :=
  ∃ doc tables t v, Toml.read text = some doc ∧ doc.lookup "package".toList = some (.arr tables) ∧
    Value.table t ∈ tables ∧ t.lookup "name".toList = some (.str name) ∧ t.lookup "version".toList = some (.str v) ∧
    readVersion v = some version ∧ NamesSource U t source

/-- The checkout has, in the directory of the collection, a directory with a file, not hidden, of this text. -/
def HasFile (ch : Checkout) (col : Collection) (text : Str) : Prop :=
  ∃ entries dir items name, ch.listing col = some entries ∧ AdminLint.Entry.dir dir items ∈ entries ∧
    AdminLint.Item.file name (some text) ∈ items ∧ ¬ ['.'] <+: name

/-- The source is crates.io: the git index or the sparse index. -/
def IsCratesIo (s : SourceId) : Prop :=
  (s.kind = .registry ∧ s.url.text = "https://github.com/rust-lang/crates.io-index".toList) ∨
  (s.kind = .sparseRegistry ∧ s.url.text = "https://index.crates.io/".toList)

/-- The severity that the CVSS documents give a vector: the rating of its score, which their equations define in exact
arithmetic. -/
def Rated : Cvss.Cvss → Severity → Prop
  | .v20 v, s => Cvss.Spec.BandV2 (Cvss.Spec.v2Base v) s
  | .v30 b, s => Cvss.Spec.Band (Cvss.Spec.v3Tenths b.metrics) s
  | .v31 b, s => Cvss.Spec.Band (Cvss.Spec.v3Tenths b.metrics) s
  | .v40 w, s => ∃ e, Cvss.Spec.v4Eff w.metrics = some e ∧ Cvss.Spec.Band e.tenths s

/-- The advisory is about this crate, version and registry, is not withdrawn nor a draft, is not below the threshold, not
limited to other platforms than those asked about, and not ignored. -/
structure Tells (c : AuditConfig) (f : AdvisoryFile) (name : Str) (version : Version)
    (source : SourceId) : Prop where
  notDraft : f.metadata.id.string ≠ "RUSTSEC-0000-0000".toList
  name : f.metadata.package = name
  exposed : ∀ r ∈ f.versions.patched ++ f.versions.unaffected, ¬ Covers r version
  registry : (f.metadata.source.getD SourceId.default).kind = source.kind ∧
    (f.metadata.source.getD SourceId.default).url.text = source.url.text
  current : f.metadata.withdrawn = none
  severity : ∀ th cvss s, c.advisories.severityThreshold = some th → f.metadata.cvss = some cvss → Rated cvss s →
    th.rank ≤ s.rank
  arch : ∀ af, f.affected = some af → af.arch = [] ∨ FilterList.values c.target.arch = [] ∨
    ∃ x ∈ FilterList.values c.target.arch, x ∈ af.arch
  os : ∀ af, f.affected = some af → af.os = [] ∨ FilterList.values c.target.os = [] ∨
    ∃ x ∈ FilterList.values c.target.os, x ∈ af.os
  notIgnored : f.metadata.id ∉ c.advisories.ignore

/-- The lockfile's text locks this version of this package from crates.io, and a file below `crates` of the checkout has the
text of an advisory that concerns it. -/
def FindingOf (P : Project) (c : AuditConfig) (ch : Checkout) (lock : Str) (f : AdvisoryFile) (name : Str)
    (version : Version) : Prop :=
  ∃ source text, Locks P.url lock name version (some source) ∧ IsCratesIo source ∧
    HasFile ch .crates text ∧ AdvisoryOf P.advLib text f ∧ Tells c f name version source

/-- The same for some package. -/
def Finding (P : Project) (c : AuditConfig) (ch : Checkout) (lock : Str) (f : AdvisoryFile) : Prop :=
  ∃ name version, FindingOf P c ch lock f name version

/-- The index that is consulted says that this version of this package, locked from crates.io, is yanked. -/
def YankedOf (P : Project) (file : Option Str) (c : AuditConfig) (lock : Str) (name : Str) (version : Version) : Prop :=
  ∃ source, Locks P.url lock name version (some source) ∧ IsCratesIo source ∧
    ∃ kind, IndexUsed (P.env file) c kind ∧ ∃ vs, answerOf kind P.registry name = .versions vs ∧
      SaysYanked vs version.text

/-- The same for some package. -/
def YankedPackage (P : Project) (file : Option Str) (c : AuditConfig) (lock : Str) : Prop :=
  ∃ name version, YankedOf P file c lock name version

/-- A current advisory about the version of the tool, or of its library, that is run. -/
def ToolAdvisory (P : Project) (ch : Checkout) : Prop :=
  ∃ text f, HasFile ch .crates text ∧ AdvisoryOf P.advLib text f ∧
    f.metadata.id.string ≠ "RUSTSEC-0000-0000".toList ∧ f.metadata.withdrawn = none ∧ f.metadata.informational = none ∧
    ((f.metadata.package = "cargo-audit".toList ∧
        ∀ r ∈ f.versions.patched ++ f.versions.unaffected, ¬ Covers r P.toolVersion) ∨
     (f.metadata.package = "rustsec".toList ∧
        ∀ r ∈ f.versions.patched ++ f.versions.unaffected, ¬ Covers r P.libVersion))

/-- The texts make the run fail: a vulnerability; an informational advisory of a denied kind; a yanked package, if that is
denied; an advisory about the tool itself, if warnings are denied. -/
def Damning (P : Project) (file : Option Str) (c : AuditConfig) (ch : Checkout) (lock : Str) : Prop :=
  (∃ f, Finding P c ch lock f ∧ f.metadata.informational = none) ∨
  (∃ f i k, Finding P c ch lock f ∧ f.metadata.informational = some i ∧ WarnsAs i k ∧ Denied c.output.deny k) ∨
  (Denied c.output.deny .yanked ∧ YankedPackage P file c lock) ∨
  (DenyOption.warnings ∈ c.output.deny ∧ ToolAdvisory P ch)

/-- The configuration of the run: the file in force, if any, overridden by the command line. -/
def Configured (P : Project) (cmd : AuditCommand) (c' : AuditConfig) : Prop :=
  (∃ p s doc c, InForce P.configWorld p ∧ P.contents p = some s ∧ Toml.read s = some doc ∧ Describes doc c ∧
    cmd.overrideConfig c = .ok c') ∨
  ((∀ p, ¬ InForce P.configWorld p) ∧ cmd.overrideConfig {} = .ok c')

/-- The lockfile's text: the file named on the command line or `Cargo.lock`; `-` is standard input; `Cargo.lock` is
generated if no file is named and it is missing beside a manifest. -/
inductive LockOf (P : Project) : Option Str → Str → Prop
  | stdin {s : Str} (h : P.stdin = some s) : LockOf P (some "-".toList) s
  | named {path s : Str} (hp : path ≠ "-".toList) (h : P.contents path = some s) : LockOf P (some path) s
  | found {s : Str} (h : P.contents "Cargo.lock".toList = some s)
      (hg : P.pathExists "Cargo.lock".toList = true ∨ P.pathExists "Cargo.toml".toList = false) : LockOf P none s
  | generated {s : Str} (h : P.generated = some s) (h1 : P.pathExists "Cargo.lock".toList = false)
      (h2 : P.pathExists "Cargo.toml".toList = true) : LockOf P none s

/-- The checkout of the advisory database that is used. -/
inductive CheckoutOf (P : Project) (c : AuditConfig) : Checkout → Prop
  | fetched {ch : Checkout} (hf : c.database.fetch = true)
      (h : P.fetched (c.database.url.getD "https://github.com/RustSec/advisory-db.git".toList)
        (c.database.path.getD P.defaultPath) (!c.database.stale) = some ch) : CheckoutOf P c ch
  | files (hf : c.database.fetch = false) : CheckoutOf P c (P.checkoutAt (c.database.path.getD P.defaultPath))

/-- The files of the database, in the order of the listings: those in a directory of a collection that are not hidden. -/
def advisoryFiles (ch : Checkout) : List (Collection × Str × AdminLint.Item) :=
  [Collection.crates, .rust].flatMap fun col => ((ch.listing col).getD []).flatMap fun
    | .dir dir items => (items.filter fun i => !decide (i.name.head? = some '.')).map fun i => (col, dir, i)
    | .other _ => []

/-- The database can be read: `crates` can be listed; every file is an advisory, in the directory named after its package,
in a collection that it does not contradict, and named after its ID unless it is a draft; no two advisories, drafts apart,
have the same ID. -/
structure DatabaseReads (L : AdvLib) (ch : Checkout) : Prop where
  listed : ch.crates ≠ none
  placed : ∀ col dir item, (col, dir, item) ∈ advisoryFiles ch → ∃ name text f, item = .file name (some text) ∧
    AdvisoryOf L text f ∧ f.metadata.package = dir ∧ (∀ col', f.metadata.collection = some col' → col' = col) ∧
    (name = f.metadata.id.string ++ ".md".toList ∨ ("RUSTSEC-0000-0000.".toList <+: name ∧ ".md".toList <:+ name))
  distinct : (advisoryFiles ch).Pairwise fun x y => ∀ name name' text text' f f',
    x.2.2 = .file name (some text) → y.2.2 = .file name' (some text') → AdvisoryOf L text f → AdvisoryOf L text' f' →
    f.metadata.id = f'.metadata.id → f.metadata.id.string = "RUSTSEC-0000-0000".toList

end Verif.Spec
