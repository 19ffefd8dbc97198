import Verif.Props.ConfigFile

/-!
# C88: examples

The example file the repository ships, and files in which something is wrong.
-/

namespace Verif.Props

open Verif.Audit Verif.Adv

/-- The text of lines. -/
private def lines (l : List String) : Str := l.flatMap fun s => s.toList ++ ['\n']

/-- `cargo-audit/audit.toml.example`. -/
def exampleConfig : Str := lines
  ["# Example audit config file",
   "#",
   "# It may be located in the user home (`~/.cargo/audit.toml`) or in the project",
   "# root (`.cargo/audit.toml`).",
   "#",
   "# All of the options which can be passed via CLI arguments can also be",
   "# permanently specified in this file.",
   "",
   "[advisories]",
   "ignore = [] # advisory IDs to ignore e.g. [\"RUSTSEC-2019-0001\", ...]",
   "informational_warnings = [\"unmaintained\"] # warn for categories of informational advisories",
   "severity_threshold = \"low\" # CVSS severity (\"none\", \"low\", \"medium\", \"high\", \"critical\")",
   "",
   "# Advisory Database Configuration",
   "[database]",
   "path = \"~/.cargo/advisory-db\" # Path where advisory git repo will be cloned",
   "url = \"https://github.com/RustSec/advisory-db.git\" # URL to git repo",
   "fetch = true # Perform a `git fetch` before auditing (default: true)",
   "stale = false # Allow stale advisory DB (i.e. no commits for 90 days, default: false)",
   "",
   "# Output Configuration",
   "[output]",
   "deny = [\"unmaintained\"] # exit on error if unmaintained dependencies are found",
   "format = \"terminal\" # \"terminal\" (human readable report) or \"json\"",
   "quiet = false # Only print information on error",
   "show_tree = true # Show inverse dependency trees along with advisories (default: true)",
   "",
   "# Target Configuration",
   "[target]",
   "arch = [\"x86_64\"] # Ignore advisories for CPU architectures other than these",
   "os = [\"linux\", \"windows\"] # Ignore advisories for operating systems other than these",
   "",
   "[yanked]",
   "enabled = true # Warn for yanked crates in Cargo.lock (default: true)",
   "update_index = true # Auto-update the crates.io index (default: true)"]

/-- What it says. -/
theorem exampleConfig_read : AuditConfig.fromText exampleConfig = .ok
    { advisories := { informationalWarnings := some [.unmaintained], severityThreshold := some .low }
      database :=
        { path := some "~/.cargo/advisory-db".toList, url := some "https://github.com/RustSec/advisory-db.git".toList }
      output := { deny := [.unmaintained], showTree := true }
      target := { arch := some (.many ["x86_64".toList]), os := some (.many ["linux".toList, "windows".toList]) } } := by
  decide +kernel

/-- The document of the theorems above is met: the example describes something. -/
example : ∃ doc c, Toml.read exampleConfig = some doc ∧ Describes doc c := by
  obtain ⟨doc, h⟩ := (C88_config _ _).1 exampleConfig_read
  exact ⟨doc, _, h⟩

/-- The older form of the targets, other ways of writing the same, a severity in capitals, a category nobody knows. -/
example : AuditConfig.fromText (lines
    ["yanked.enabled = false",
     "target = { arch = 'x86_64', os = [\"linux\"] }",
     "[ advisories ]",
     "ignore = [",
     "  \"RUSTSEC-2019-0001\", # comment",
     "  \"CVE-2020-1234\",",
     "]",
     "informational_warnings = ['unsound', 'weird']",
     "severity_threshold = 'HIGH'",
     "[output]",
     "quiet = true",
     "format = 'json'"]) = .ok
    { advisories :=
        { ignore := [⟨.rustSec, some 2019, "RUSTSEC-2019-0001".toList⟩, ⟨.cve, some 2020, "CVE-2020-1234".toList⟩]
          informationalWarnings := some [.unsound, .other "weird".toList]
          severityThreshold := some .high }
      output := { format := .json, quiet := true, showTree := true }
      target := { arch := some (.single "x86_64".toList), os := some (.many ["linux".toList]) }
      yanked := { enabled := false } } := by
  decide +kernel

/-- A file of comments. -/
example : AuditConfig.fromText "# nothing\n\n  # here\n".toList = .ok {} := C88_empty _ rfl

private def ignoredFile : Str := "[advisories]\nignored = [\"RUSTSEC-2019-0001\"]\n".toList

private def fetchFile : Str := "[database]\nfetch = false\n".toList

private def formatFile : Str := "[output]\nformat = \"json\"\n".toList

private theorem read_any {s : Str} {P : Toml.Table → Bool} (h : (Toml.read s).any P = true) :
    ∃ doc, Toml.read s = some doc ∧ P doc = true := by
  cases hs : Toml.read s with
  | none => rw [hs] at h; cases h
  | some doc => rw [hs] at h; exact ⟨doc, rfl, h⟩

private def tableOf : Option Toml.Value → Toml.Table
  | some (.table t) => t
  | _ => []

private theorem tableOf_found {o : Option Toml.Value} {k : Str} (h : ((tableOf o).lookup k).isSome = true) :
    ∃ t, o = some (.table t) ∧ t.lookup k ≠ none := by
  match o with
  | none | some (.str _) | some (.int _) | some (.bool _) | some (.arr _) => cases h
  | some (.table t) =>
    refine ⟨t, rfl, fun e => ?_⟩
    change (t.lookup k).isSome = true at h
    rw [e] at h
    cases h

/-- A misspelt setting: `ignored` for `ignore`. -/
example : AuditConfig.fromText ignoredFile = .err := by
  obtain ⟨doc, hd, h⟩ := read_any (s := ignoredFile)
    (P := fun doc => ((tableOf (doc.lookup "advisories".toList)).lookup "ignored".toList).isSome) (by decide +kernel)
  obtain ⟨t, ht, hk⟩ := tableOf_found h
  exact C88_misspelt _ doc hd (Or.inr ⟨("advisories", ["ignore", "informational_warnings", "severity_threshold"]), .head _,
    t, _, ht, hk, by decide⟩)

/-- A setting outside its section. -/
example : AuditConfig.fromText "ignore = []\n".toList = .err := by
  obtain ⟨doc, hd, h⟩ := read_any (s := "ignore = []\n".toList) (P := fun doc => (doc.lookup "ignore".toList).isSome)
    (by decide +kernel)
  refine C88_misspelt _ doc hd (Or.inl ⟨"ignore".toList, fun e => ?_, by decide⟩)
  change (doc.lookup "ignore".toList).isSome = true at h
  rw [e] at h
  cases h

/-- Only turning off the fetch. -/
example : AuditConfig.fromText fetchFile = .err := by
  obtain ⟨doc, hd, h⟩ := read_any (s := fetchFile)
    (P := fun doc => (doc.lookup "database".toList).isSome && (setting doc "database" "stale").isNone) (by decide +kernel)
  rw [Bool.and_eq_true, Option.isSome_iff_ne_none, Option.isNone_iff_eq_none] at h
  exact C88_mandatory _ doc hd (Or.inl h)

/-- Only asking for JSON. -/
example : AuditConfig.fromText formatFile = .err := by
  obtain ⟨doc, hd, h⟩ := read_any (s := formatFile)
    (P := fun doc => (doc.lookup "output".toList).isSome && (setting doc "output" "quiet").isNone) (by decide +kernel)
  rw [Bool.and_eq_true, Option.isSome_iff_ne_none, Option.isNone_iff_eq_none] at h
  exact C88_mandatory _ doc hd (Or.inr h)

/-- The order of the sections does not matter, the case of the words does. -/
example : AuditConfig.fromText "[output]\nquiet = false\nformat = \"JSON\"\n".toList = .err := by decide +kernel

example : AuditConfig.fromText "[advisories]\nignore = [\"RUSTSEC-19-1\"]\n".toList = .err := by decide +kernel

/-- A project and a user configuration. -/
private def twoFiles : ConfigWorld where
  cargoHome := some "/home/u/.cargo".toList
  pathExists p := decide (p ∈ ["./.cargo/audit.toml".toList, "/home/u/.cargo/audit.toml".toList])
  contents p :=
    if p = "./.cargo/audit.toml".toList then some "[advisories]\nignore = [\"RUSTSEC-2019-0001\"]\n".toList
    else if p = "/home/u/.cargo/audit.toml".toList then some exampleConfig
    else none

private def oneFile : ConfigWorld := { twoFiles with pathExists := fun p => decide (p = "/home/u/.cargo/audit.toml".toList) }

/-- The project's file is in force, and the user's threshold is not. -/
example : InForce twoFiles projectConfig := Or.inl ⟨rfl, by decide +kernel⟩

example : effectiveConfig twoFiles { ignore := ["CVE-2020-1234".toList] } = .ok
    { advisories :=
        { ignore := [⟨.rustSec, some 2019, "RUSTSEC-2019-0001".toList⟩, ⟨.cve, some 2020, "CVE-2020-1234".toList⟩] } } := by
  decide +kernel

/-- Without it the user's is. -/
example : InForce oneFile "/home/u/.cargo/audit.toml".toList :=
  Or.inr ⟨by decide +kernel, "/home/u/.cargo".toList, rfl, (joinConfig_iff _ _).1 (by decide +kernel), by decide +kernel⟩

example : effectiveConfig oneFile {} = AuditConfig.fromText exampleConfig := by decide +kernel

/-- The hypotheses of `C88_project_first` and `C88_report` are met. -/
example : effectiveConfig twoFiles {} = effectiveConfig { twoFiles with cargoHome := none } {} :=
  C88_project_first _ _ _ (by decide +kernel) (by decide +kernel) rfl

example : ∃ c' p s doc, effectiveConfig twoFiles { ignore := ["CVE-2020-1234".toList] } = .ok c' ∧ InForce twoFiles p ∧
    twoFiles.contents p = some s ∧ Toml.read s = some doc := by
  obtain ⟨c', hc⟩ : ∃ c', effectiveConfig twoFiles { ignore := ["CVE-2020-1234".toList] } = .ok c' := by
    cases h : effectiveConfig twoFiles { ignore := ["CVE-2020-1234".toList] } with
    | ok c => exact ⟨c, rfl⟩
    | err => exact absurd h (by decide +kernel)
    | panic => exact absurd h (by decide +kernel)
  rcases (C88_effective _ _ _).1 hc with ⟨p, s, doc, _, hp, hs, hd, _⟩ | ⟨h, _⟩
  · exact ⟨c', p, s, doc, hc, hp, hs, hd⟩
  · exact absurd (Or.inl ⟨rfl, by decide +kernel⟩) (h projectConfig)

/-- The tree is shown or not by default, according to whether there is an unrelated line in the file. -/
example : (match AuditConfig.fromText "[output]\nquiet = false\n".toList with | .ok c => c.output.showTree | _ => false) = true ∧
    (match AuditConfig.fromText [] with | .ok c => c.output.showTree | _ => true) = false := by decide +kernel

end Verif.Props
