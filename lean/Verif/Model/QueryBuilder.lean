import Verif.Model.Database

/-!
# Building a query

The methods of `Query` that return the query with one more setting (rustsec/src/database/query.rs).
-/

namespace Verif.Db

open Verif.Semver Verif.Lock Verif.Adv

/-- `Query::collection` (rustsec/src/database/query.rs:85-88). -/
def Query.setCollection (q : Query) (c : Collection) : Query := { q with collection := some c }

/-- `Query::package_name` (rustsec/src/database/query.rs:100-103). -/
def Query.setPackageName (q : Query) (n : Str) : Query := { q with packageName := some n }

/-- `Query::package_version` (rustsec/src/database/query.rs:106-109). -/
def Query.setPackageVersion (q : Query) (v : Version) : Query := { q with packageVersion := some v }

/-- `Query::package_source` (rustsec/src/database/query.rs:112-115). -/
def Query.setPackageSource (q : Query) (s : SourceId) : Query := { q with packageSource := some s }

/-- `Query::severity` (rustsec/src/database/query.rs:122-125). -/
def Query.setSeverity (q : Query) (s : Severity) : Query := { q with severity := some s }

/-- `Query::target_arch` (rustsec/src/database/query.rs:128-131). -/
def Query.setTargetArch (q : Query) (l : List Str) : Query := { q with targetArch := l }

/-- `Query::target_os` (rustsec/src/database/query.rs:134-137). -/
def Query.setTargetOs (q : Query) (l : List Str) : Query := { q with targetOs := l }

/-- `Query::year` (rustsec/src/database/query.rs:140-143). -/
def Query.setYear (q : Query) (y : Nat) : Query := { q with year := some y }

/-- `Query::withdrawn` (rustsec/src/database/query.rs:148-151). -/
def Query.setWithdrawn (q : Query) (b : Bool) : Query := { q with withdrawn := some b }

/-- `Query::informational` (rustsec/src/database/query.rs:155-158). -/
def Query.setInformational (q : Query) (b : Bool) : Query := { q with informational := some b }

/-- `impl Default for Query` (rustsec/src/database/query.rs:248-252). -/
def Query.default : Query := Query.crateScope

/-- A call of one of the methods (rustsec/src/database/query.rs:84-158). -/
inductive QueryCall where
  | collection (c : Collection)
  | package (p : Package)
  | packageName (n : Str)
  | packageVersion (v : Version)
  | packageSource (s : SourceId)
  | severity (s : Severity)
  | targetArch (l : List Str)
  | targetOs (l : List Str)
  | year (y : Nat)
  | withdrawn (b : Bool)
  | informational (b : Bool)

/-- The query after the call (rustsec/src/database/query.rs:84-158). -/
def Query.call (q : Query) : QueryCall → Query
  | .collection c => q.setCollection c
  | .package p => q.package p
  | .packageName n => q.setPackageName n
  | .packageVersion v => q.setPackageVersion v
  | .packageSource s => q.setPackageSource s
  | .severity s => q.setSeverity s
  | .targetArch l => q.setTargetArch l
  | .targetOs l => q.setTargetOs l
  | .year y => q.setYear y
  | .withdrawn b => q.setWithdrawn b
  | .informational b => q.setInformational b

/-- The query after a chain of calls. -/
def Query.calls (q : Query) (cs : List QueryCall) : Query := cs.foldl Query.call q

end Verif.Db
