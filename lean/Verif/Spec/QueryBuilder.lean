import Verif.Model.QueryBuilder

/-!
# What a chain of query calls asks for

In terms of the calls alone, not of the query they build.
-/

namespace Verif.Spec

open Verif.Semver Verif.Lock Verif.Adv Verif.Db

/-- What the last call that speaks about something says. -/
def lastSaid {β : Type} (about : QueryCall → Option β) (cs : List QueryCall) : Option β := (cs.filterMap about).getLast?

/-- Calls about the collection. -/
def saysCollection : QueryCall → Option Collection
  | .collection c => some c
  | _ => none

/-- Calls about the name of the package. -/
def saysName : QueryCall → Option Str
  | .packageName n => some n
  | .package p => some p.name
  | _ => none

/-- Calls about the version of the package. -/
def saysVersion : QueryCall → Option Version
  | .packageVersion v => some v
  | .package p => some p.version
  | _ => none

/-- Calls about the source of the package: `package` also says that there is none. -/
def saysSource : QueryCall → Option (Option SourceId)
  | .packageSource s => some (some s)
  | .package p => some p.source
  | _ => none

/-- Calls about the severity. -/
def saysSeverity : QueryCall → Option Severity
  | .severity s => some s
  | _ => none

/-- Calls about the architectures. -/
def saysArch : QueryCall → Option (List Str)
  | .targetArch l => some l
  | _ => none

/-- Calls about the operating systems. -/
def saysOs : QueryCall → Option (List Str)
  | .targetOs l => some l
  | _ => none

/-- Calls about the year. -/
def saysYear : QueryCall → Option Nat
  | .year y => some y
  | _ => none

/-- Calls about withdrawn advisories. -/
def saysWithdrawn : QueryCall → Option Bool
  | .withdrawn b => some b
  | _ => none

/-- Calls about informational advisories. -/
def saysInformational : QueryCall → Option Bool
  | .informational b => some b
  | _ => none

/-- The advisory is what the calls, made on `Query::new()`, ask for. -/
structure AskedFor (cs : List QueryCall) (a : Advisory) : Prop where
  collection : ∀ c, lastSaid saysCollection cs = some c → a.metadata.collection = some c
  name : ∀ n, lastSaid saysName cs = some n → a.metadata.package = n
  version : ∀ v, lastSaid saysVersion cs = some v → a.versions.isVulnerable v = .ok true
  source : ∀ s, lastSaid saysSource cs = some (some s) →
    (a.metadata.source.getD SourceId.default).kind = s.kind ∧
    (a.metadata.source.getD SourceId.default).url.text = s.url.text
  severity : ∀ th sev, lastSaid saysSeverity cs = some th → a.metadata.severity = some sev → th.rank ≤ sev.rank
  arch : ∀ af l, a.affected = some af → lastSaid saysArch cs = some l → af.arch = [] ∨ l = [] ∨ ∃ x ∈ l, x ∈ af.arch
  os : ∀ af l, a.affected = some af → lastSaid saysOs cs = some l → af.os = [] ∨ l = [] ∨ ∃ x ∈ l, x ∈ af.os
  year : ∀ y y', lastSaid saysYear cs = some y → a.metadata.id.year = some y' → y = y'
  withdrawn : ∀ b, lastSaid saysWithdrawn cs = some b → (b = true ↔ a.metadata.withdrawn ≠ none)
  informational : ∀ b, lastSaid saysInformational cs = some b → (b = true ↔ a.metadata.informational ≠ none)

/-- The chains have the same last word about everything. -/
def SameLastWord (cs ds : List QueryCall) : Prop :=
  lastSaid saysCollection cs = lastSaid saysCollection ds ∧ lastSaid saysName cs = lastSaid saysName ds ∧
  lastSaid saysVersion cs = lastSaid saysVersion ds ∧ lastSaid saysSource cs = lastSaid saysSource ds ∧
  lastSaid saysSeverity cs = lastSaid saysSeverity ds ∧ lastSaid saysArch cs = lastSaid saysArch ds ∧
  lastSaid saysOs cs = lastSaid saysOs ds ∧ lastSaid saysYear cs = lastSaid saysYear ds ∧
  lastSaid saysWithdrawn cs = lastSaid saysWithdrawn ds ∧ lastSaid saysInformational cs = lastSaid saysInformational ds

/-- Two calls that never speak about the same thing. -/
def Independent (c d : QueryCall) : Prop :=
  (saysCollection c = none ∨ saysCollection d = none) ∧ (saysName c = none ∨ saysName d = none) ∧
  (saysVersion c = none ∨ saysVersion d = none) ∧ (saysSource c = none ∨ saysSource d = none) ∧
  (saysSeverity c = none ∨ saysSeverity d = none) ∧ (saysArch c = none ∨ saysArch d = none) ∧
  (saysOs c = none ∨ saysOs d = none) ∧ (saysYear c = none ∨ saysYear d = none) ∧
  (saysWithdrawn c = none ∨ saysWithdrawn d = none) ∧ (saysInformational c = none ∨ saysInformational d = none)

/-- The calls of `Query::crate_scope()`. -/
def crateScopeCalls : List QueryCall := [.collection .crates, .withdrawn false, .informational false]

end Verif.Spec
