import Verif.Model.Osv
import Verif.Model.Id
import Verif.Model.LockTypes

/-!
# Advisories

Types of `rustsec/src/advisory.rs`, `advisory/metadata.rs`, `advisory/affected.rs`,
`advisory/informational.rs`, `collection.rs`, `warning.rs`, `vulnerability.rs` and `cvss/src/severity.rs`.
-/

namespace Verif.Adv

open Verif.Semver Verif.Osv Verif.Lock

/-- `cvss/src/severity.rs:26-41`: `enum Severity`, ordered as declared. -/
inductive Severity where
  | none | low | medium | high | critical
  deriving DecidableEq, Repr

/-- The derived `Ord` of `Severity`: declaration order. -/
def Severity.rank : Severity → Nat
  | .none => 0 | .low => 1 | .medium => 2 | .high => 3 | .critical => 4

/-- `rustsec/src/collection.rs:12-18`: `enum Collection`. -/
inductive Collection where
  | crates | rust
  deriving DecidableEq, Repr

/-- `rustsec/src/warning.rs:65-84`: `enum WarningKind`. -/
inductive WarningKind where
  | notice | unmaintained | unsound | yanked
  deriving DecidableEq, Repr

/-- `rustsec/src/advisory/informational.rs:9-31`: `enum Informational`. -/
inductive Informational where
  | notice | unmaintained | unsound | other (s : Str)
  deriving DecidableEq, Repr

/-- `informational.rs:66-73`: `Informational::warning_kind`. -/
def Informational.warningKind : Informational → Option WarningKind
  | .notice => some .notice
  | .unmaintained => some .unmaintained
  | .unsound => some .unsound
  | .other _ => none

/-- `rustsec/src/advisory/affected.rs:19-36`: `struct Affected`; a function path is its list of segments,
the `BTreeMap` its entries in order. -/
structure Affected where
  arch : List Str := []
  os : List Str := []
  functions : List (List Str × List VersionReq) := []
  deriving DecidableEq, Repr

/-- `date.rs:18-20`: `struct Date(String)`. -/
structure DateText where
  text : Str
  deriving DecidableEq, Repr

/-- `rustsec/src/advisory/license.rs:10-28`: `enum License`. -/
inductive License where
  | ccZero10 | ccBy40 | other (s : Str)
  deriving DecidableEq, Repr

/-- `rustsec/src/advisory/metadata.rs:14-98`: `struct Metadata`.  Simplifications: the CVSS vector is
represented by its text and its severity (`Advisory::severity`, `advisory.rs:97-99`); description, categories,
keywords, references are left out because no modelled function reads them. -/
structure Metadata where
  id : Id
  package : Str
  title : Str := []
  date : DateText := ⟨"2020-01-01".toList⟩
  aliases : List Id := []
  related : List Id := []
  collection : Option Collection := none
  severity : Option Severity := none
  informational : Option Informational := none
  source : Option SourceId := none
  withdrawn : Option DateText := none
  cvss : Option Str := none
  url : Option Url := none
  license : License := .ccZero10
  deriving DecidableEq, Repr

/-- `rustsec/src/advisory.rs:43-54`: `struct Advisory`. -/
structure Advisory where
  metadata : Metadata
  affected : Option Affected := none
  versions : Versions
  deriving DecidableEq, Repr

/-- `rustsec/src/vulnerability.rs:10-24`: `struct Vulnerability`. -/
structure Vulnerability where
  advisory : Metadata
  versions : Versions
  affected : Option Affected
  package : Package
  deriving DecidableEq, Repr

/-- `vulnerability.rs:28-35`: `Vulnerability::new`. -/
def Vulnerability.new (a : Advisory) (p : Package) : Vulnerability :=
  { advisory := a.metadata, versions := a.versions, affected := a.affected, package := p }

end Verif.Adv
