import Verif.Model.Audit
import Verif.Spec.Database
import Verif.Spec.Tree
import Verif.Spec.Yank
import Verif.Spec.Binary

/-!
# Specification: `cargo audit`
-/

/-- The package a printed finding is about. -/
def Verif.Audit.Item.package (i : Verif.Audit.Item) : Verif.Lock.Package :=
  match i.finding with
  | .inl v => v.package
  | .inr w => w.package

namespace Verif.Spec

open Verif.Audit Verif.Adv Verif.Lock Verif.Semver Verif.Rep

/-- What a deny option denies according to its help text: "warnings (any), unmaintained, unsound, yanked". -/
def DeniesDocumented : DenyOption → WarningKind → Prop
  | .warnings, _ => True
  | .unmaintained, k => k = .unmaintained
  | .unsound, k => k = .unsound
  | .yanked, k => k = .yanked

/-- What a deny option denies in effect: `warnings` leaves out notices. -/
def Denies (d : DenyOption) (k : WarningKind) : Prop := DeniesDocumented d k ∧ k ≠ .notice

/-- Some option of the list denies the kind. -/
def Denied (deny : List DenyOption) (k : WarningKind) : Prop := ∃ d ∈ deny, Denies d k

/-- The kind of warning an informational advisory gives. -/
inductive WarnsAs : Informational → WarningKind → Prop
  | notice : WarnsAs .notice .notice
  | unmaintained : WarnsAs .unmaintained .unmaintained
  | unsound : WarnsAs .unsound .unsound

/-- The advisory concerns the locked package: it is about that crate, version and registry, is not withdrawn, is
not below the severity threshold, and is not limited to other architectures or operating systems than those asked
about. -/
structure Concerned (c : AuditConfig) (p : Package) (a : Advisory) : Prop where
  cratesIo : FromCratesIo p
  name : a.metadata.package = p.name
  exposed : Exposed a p.version
  registry : SameRegistry a p
  collection : a.metadata.collection = some .crates
  current : a.metadata.withdrawn = none
  severity : ∀ th sev, c.advisories.severityThreshold = some th → a.metadata.severity = some sev → th.rank ≤ sev.rank
  arch : ∀ af, a.affected = some af → af.arch = [] ∨ FilterList.values c.target.arch = [] ∨
    ∃ x ∈ FilterList.values c.target.arch, x ∈ af.arch
  os : ∀ af, a.affected = some af → af.os = [] ∨ FilterList.values c.target.os = [] ∨
    ∃ x ∈ FilterList.values c.target.os, x ∈ af.os
  notIgnored : a.metadata.id ∉ c.advisories.ignore

/-- The finding is not limited to operating systems that do not run the audited binary (if it is a binary that is
audited). -/
def Relevant (format : Option Bin.BinaryFormat) (a : Advisory) : Prop := ∀ f, format = some f → Concerns f a.affected

/-- The crates.io index that is consulted, if any: the remote one if it is to be updated, else the copy on disk. -/
def IndexUsed (env : Env) (c : AuditConfig) (kind : Yank.IndexKind) : Prop :=
  c.yanked.enabled = true ∧
  (((c.yanked.updateIndex = true ∧ c.database.fetch = true) ∧ env.fetchIndex = true ∧ kind = .sparseRemote) ∨
   (¬ (c.yanked.updateIndex = true ∧ c.database.fetch = true) ∧ env.openIndex = true ∧ kind = .sparseCached))

/-- The package is locked from crates.io and the index that is consulted says its version is yanked. -/
def SaidYanked (env : Env) (c : AuditConfig) (p : Package) : Prop :=
  FromCratesIo p ∧ ∃ kind, IndexUsed env c kind ∧ ∃ vs, answerOf kind env.registry p.name = .versions vs ∧
    SaysYanked vs (env.codec.showVersion p.version)

/-- The kinds of informational advisory that are reported: the configured ones (all three if none are configured) and
those a deny option is about. -/
def Enabled (c : AuditConfig) (i : Informational) : Prop :=
  i ∈ c.advisories.informationalWarnings.getD [.unmaintained, .unsound, .notice] ∨
  ∃ d ∈ c.output.deny, ∃ k, DeniesDocumented d k ∧ WarnsAs i k

/-- Some locked package has a vulnerability that is not filtered out. -/
def HasVulnerability (c : AuditConfig) (db : Db.Database) (l : Lockfile) (format : Option Bin.BinaryFormat) : Prop :=
  ∃ p ∈ l.packages, ∃ a ∈ db.iter, Concerned c p a ∧ a.metadata.informational = none ∧ Relevant format a

/-- Some locked package has an informational advisory of a kind that is denied.  (It need not be among the
configured `informational_warnings`.) -/
def HasDeniedAdvisory (c : AuditConfig) (db : Db.Database) (l : Lockfile) (format : Option Bin.BinaryFormat) : Prop :=
  ∃ p ∈ l.packages, ∃ a ∈ db.iter, ∃ i k, Concerned c p a ∧ a.metadata.informational = some i ∧ Relevant format a ∧
    WarnsAs i k ∧ Denied c.output.deny k

/-- Some locked package is yanked, and that is denied. -/
def HasDeniedYanked (env : Env) (c : AuditConfig) (l : Lockfile) : Prop :=
  Denied c.output.deny .yanked ∧ ∃ p ∈ l.packages, SaidYanked env c p

/-- The warning is in the report. -/
def InReport (r : Report) (w : Warning) : Prop := ∃ k ws, (k, ws) ∈ r.warnings ∧ w ∈ ws

/-- The report contains the findings about the lockfile, and nothing else. -/
structure Complete (env : Env) (c : AuditConfig) (db : Db.Database) (l : Lockfile) (format : Option Bin.BinaryFormat)
    (r : Report) : Prop where
  vulnerabilities : ∀ v, v ∈ r.vulnerabilities.list ↔ ∃ p ∈ l.packages, ∃ a ∈ db.iter, v = Vulnerability.new a p ∧
    Concerned c p a ∧ a.metadata.informational = none ∧ Relevant format a
  count : r.vulnerabilities.count = r.vulnerabilities.list.length
  found : r.vulnerabilities.found = true ↔ r.vulnerabilities.list ≠ []
  keys : (r.warnings.map Prod.fst).Nodup
  filed : ∀ k ws, (k, ws) ∈ r.warnings → ∀ w ∈ ws, w.kind = k
  advisories : ∀ w, (InReport r w ∧ w.kind ≠ .yanked) ↔ ∃ p ∈ l.packages, ∃ a ∈ db.iter, ∃ i,
    Concerned c p a ∧ a.metadata.informational = some i ∧ Relevant format a ∧ Enabled c i ∧ WarnsAs i w.kind ∧
    w.package = p ∧ w.advisory = some a.metadata ∧ w.affected = a.affected ∧ w.versions = some a.versions
  yanked : ∀ w, InReport r w → w.kind = .yanked → w.advisory = none ∧ w.affected = none ∧ w.versions = none ∧
    w.package ∈ l.packages ∧ SaidYanked env c w.package
  allYanked : ∀ p ∈ l.packages, SaidYanked env c p → ∃ w, InReport r w ∧ w.kind = .yanked ∧
    w.package.name = p.name ∧ w.package.version = p.version
  settings : r.settings = c.reportSettings
  /-- Nothing is listed twice, unless a package is locked twice. -/
  once : l.packages.Nodup → r.vulnerabilities.list.Nodup ∧ ∀ k ws, (k, ws) ∈ r.warnings → k ≠ .yanked → ws.Nodup

/-- The binary can be scanned: it can be read, is not larger than the limit (100 MiB unless given), and its
dependencies can be recovered with the limit on the embedded data (8 MiB unless given). -/
def Scans (env : Env) (maxBinarySize auditDataSizeLimit : Option Nat) (path : Str) (format : Bin.BinaryFormat)
    (l : Lockfile) : Prop :=
  ∃ content, env.readBinary path = some content ∧ content.length ≤ maxBinarySize.getD (100 * 1024 * 1024) ∧
    env.loadDeps content (some (auditDataSizeLimit.getD (8 * 1024 * 1024))) = some (format, some l)

/-- There is an advisory about this version of the tool or of its library. -/
def HasSelfAdvisory (env : Env) (db : Db.Database) : Prop :=
  ∃ a ∈ db.iter, a.metadata.collection = some .crates ∧ a.metadata.withdrawn = none ∧
    a.metadata.informational = none ∧
    ((a.metadata.package = "cargo-audit".toList ∧ Exposed a env.toolVersion) ∨
     (a.metadata.package = "rustsec".toList ∧ Exposed a env.libVersion))

/-- The report can be printed: on the terminal that needs a dependency tree. -/
def Printable (c : AuditConfig) (l : Lockfile) : Prop :=
  c.output.format = .terminal → Pinned l.packages ∧ ∃ t, Lock.Tree.new l = .ok t

/-- What is printed shows the report. -/
def Shows (c : AuditConfig) (r : Report) : Printed → Prop
  | .json r' => c.output.format = .json ∧ r' = r
  | .sarif r' => c.output.format = .sarif ∧ r' = r
  | .terminal items v d al => c.output.format = .terminal ∧
      items.map (·.finding) = r.vulnerabilities.list.map .inl ++ ((inOrder r.warnings).flatMap (·.2)).map .inr ∧
      v = (if r.vulnerabilities.found then some r.vulnerabilities.count else none) ∧
      d + al = (r.warnings.map (·.2.length)).sum

/-- The findings make the run fail. -/
def Fails (env : Env) (c : AuditConfig) (db : Db.Database) (l : Lockfile) (format : Option Bin.BinaryFormat) : Prop :=
  HasVulnerability c db l format ∨ HasDeniedAdvisory c db l format ∨ HasDeniedYanked env c l

end Verif.Spec
