import Verif.Model.ConfigFile

/-!
# What a configuration file says

The settings `cargo audit` documents (`cargo-audit/audit.toml.example`, `cargo-audit/src/config.rs`), and what each of them
means, in terms of the TOML document alone.
-/

namespace Verif.Audit

open Verif.Adv Verif.Toml

/-- The sections of the file and the settings of each. -/
def configSettings : List (String × List String) :=
  [("advisories", ["ignore", "informational_warnings", "severity_threshold"]),
   ("database", ["path", "url", "fetch", "stale"]),
   ("output", ["deny", "format", "quiet", "show_tree"]),
   ("target", ["arch", "os"]),
   ("yanked", ["enabled", "update_index"])]

/-- A document with nothing in it but documented settings in their sections. -/
def OnlySettings (doc : Table) : Prop :=
  ∀ s v, doc.lookup s = some v → ∃ sec ∈ configSettings, sec.1.toList = s ∧
    ∃ t, v = .table t ∧ ∀ k w, t.lookup k = some w → ∃ key ∈ sec.2, key.toList = k

/-- The document has a section. -/
def HasSection (doc : Table) (sec : String) : Prop := doc.lookup sec.toList ≠ none

/-- The value of a setting. -/
def setting (doc : Table) (sec key : String) : Option Value :=
  match doc.lookup sec.toList with
  | some (.table t) => t.lookup key.toList
  | _ => none

/-- The value is a string. -/
def IsText (v : Value) (s : Str) : Prop := v = .str s

/-- The value is `true` or `false`. -/
def IsFlag (v : Value) (b : Bool) : Prop := v = .bool b

/-- The value is an array. -/
def IsList {α : Type} (R : Value → α → Prop) (v : Value) (l : List α) : Prop := ∃ vs, v = .arr vs ∧ List.Forall₂ R vs l

/-- The value is one of some words, in this case. -/
def IsWord {α : Type} (words : List (String × α)) (v : Value) (a : α) : Prop := ∃ w ∈ words, w.2 = a ∧ v = .str w.1.toList

/-- The words of `output.deny`. -/
def denyWords : List (String × DenyOption) :=
  [("warnings", .warnings), ("unmaintained", .unmaintained), ("unsound", .unsound), ("yanked", .yanked)]

/-- The words of `output.format`. -/
def formatWords : List (String × OutputFormat) := [("json", .json), ("sarif", .sarif), ("terminal", .terminal)]

/-- The words of `advisories.severity_threshold`. -/
def severityWords : List (String × Severity) :=
  [("none", .none), ("low", .low), ("medium", .medium), ("high", .high), ("critical", .critical)]

/-- The value is the name of a severity, in any mixture of cases. -/
def IsSeverity (v : Value) (x : Severity) : Prop :=
  ∃ w ∈ severityWords, w.2 = x ∧ ∃ s, v = .str s ∧ s.map Char.toLower = w.1.toList

/-- The words of `advisories.informational_warnings` that have a meaning. -/
def informationalWords : List (String × Informational) :=
  [("notice", .notice), ("unmaintained", .unmaintained), ("unsound", .unsound)]

/-- The value is the name of a category; any other string is a category of its own. -/
def IsCategory (v : Value) (i : Informational) : Prop :=
  IsWord informationalWords v i ∨ ∃ s, v = .str s ∧ i = .other s ∧ ∀ w ∈ informationalWords, w.1.toList ≠ s

/-- The value is an advisory ID (C19). -/
def IsId (v : Value) (i : Id) : Prop := ∃ s, v = .str s ∧ Id.fromStr s = .ok i

/-- The value is one string, or an array of strings. -/
def IsFilter (v : Value) (f : FilterList) : Prop :=
  (∃ s, IsText v s ∧ f = .single s) ∨ (∃ l, IsList IsText v l ∧ f = .many l)

/-- A setting that may be left out. -/
def Optionally {α : Type} (R : Value → α → Prop) (o : Option Value) (a : Option α) : Prop :=
  (o = none ∧ a = none) ∨ ∃ v x, o = some v ∧ a = some x ∧ R v x

/-- A setting with a default. -/
def Defaulting {α : Type} (d : α) (R : Value → α → Prop) (o : Option Value) (a : α) : Prop :=
  (o = none ∧ a = d) ∨ ∃ v, o = some v ∧ R v a

/-- A setting without a default. -/
def Mandatory {α : Type} (R : Value → α → Prop) (o : Option Value) (a : α) : Prop := ∃ v, o = some v ∧ R v a

/-- What a document says. -/
structure Describes (doc : Table) (c : AuditConfig) : Prop where
  only : OnlySettings doc
  ignore : Defaulting [] (IsList IsId) (setting doc "advisories" "ignore") c.advisories.ignore
  informational : Optionally (IsList IsCategory) (setting doc "advisories" "informational_warnings")
    c.advisories.informationalWarnings
  severity : Optionally IsSeverity (setting doc "advisories" "severity_threshold") c.advisories.severityThreshold
  path : Optionally IsText (setting doc "database" "path") c.database.path
  url : Optionally IsText (setting doc "database" "url") c.database.url
  fetch : Defaulting true IsFlag (setting doc "database" "fetch") c.database.fetch
  /-- A file with the section must have the setting. -/
  stale : (¬ HasSection doc "database" ∧ c.database.stale = false) ∨
    Mandatory IsFlag (setting doc "database" "stale") c.database.stale
  deny : Defaulting [] (IsList (IsWord denyWords)) (setting doc "output" "deny") c.output.deny
  format : Defaulting .terminal (IsWord formatWords) (setting doc "output" "format") c.output.format
  /-- A file with the section must have the setting. -/
  quiet : (¬ HasSection doc "output" ∧ c.output.quiet = false) ∨
    Mandatory IsFlag (setting doc "output" "quiet") c.output.quiet
  /-- The default depends on whether the file has the section. -/
  showTree : (¬ HasSection doc "output" ∧ c.output.showTree = false) ∨
    (HasSection doc "output" ∧ Defaulting true IsFlag (setting doc "output" "show_tree") c.output.showTree)
  arch : Optionally IsFilter (setting doc "target" "arch") c.target.arch
  os : Optionally IsFilter (setting doc "target" "os") c.target.os
  enabled : Defaulting true IsFlag (setting doc "yanked" "enabled") c.yanked.enabled
  updateIndex : Defaulting true IsFlag (setting doc "yanked" "update_index") c.yanked.updateIndex

/-- A document that sets something undocumented: a section that does not exist, or a setting its section does not have. -/
def Misspelt (doc : Table) : Prop :=
  (∃ s, doc.lookup s ≠ none ∧ ∀ sec ∈ configSettings, sec.1.toList ≠ s) ∨
  (∃ sec ∈ configSettings, ∃ t k, doc.lookup sec.1.toList = some (.table t) ∧ t.lookup k ≠ none ∧
    ∀ key ∈ sec.2, key.toList ≠ k)

/-- The configuration file of the project, relative to the directory `cargo audit` runs in. -/
def projectConfig : Str := "./.cargo/audit.toml".toList

/-- The configuration file of the user, `audit.toml` in cargo's home directory. -/
def UserConfig (home p : Str) : Prop :=
  ((home = [] ∨ ∃ d, home = d ++ ['/']) ∧ p = home ++ "audit.toml".toList) ∨
  (¬ (home = [] ∨ ∃ d, home = d ++ ['/']) ∧ p = home ++ "/audit.toml".toList)

/-- The file in force: the project's if there is one, otherwise the user's if there is one. -/
def InForce (w : ConfigWorld) (p : Str) : Prop :=
  (p = projectConfig ∧ w.pathExists p = true) ∨
  (w.pathExists projectConfig = false ∧ ∃ home, w.cargoHome = some home ∧ UserConfig home p ∧ w.pathExists p = true)

end Verif.Audit
