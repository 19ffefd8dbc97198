import Verif.Model.Audit
import Verif.Model.AdvisoryFile
import Verif.Model.LockText

/-!
# The configuration file of `cargo audit`

Model of the derived `Deserialize` and `Serialize` of `cargo-audit/src/config.rs` over a TOML document, and of the choice of
the file (`cargo-audit/src/commands.rs:52-88`).

Simplifications: the TOML grammar is `Verif.Toml.read` (a library in the code); what serde also accepts beside the
documented forms, an array instead of a table for a structure and a table instead of a string for a unit variant, is an
error here; errors carry no message.
-/

namespace Verif.Audit

open Verif.Lock Verif.Adv Verif.Toml

/-- A Boolean. -/
def asFlag : Value → Outcome Bool
  | .bool b => .ok b
  | _ => .err

/-- A type read from a string that can fail. -/
def asParsed {α : Type} (f : Str → Option α) (v : Value) : Outcome α := do
  let s ← asStr v
  ofOption (f s)

/-- `rustsec/src/advisory/id.rs:162-168`: `Deserialize for Id`. -/
def asId (v : Value) : Outcome Id := do
  let s ← asStr v
  Id.fromStr s

/-- `rustsec/src/advisory/informational.rs:93-99`: `Deserialize for Informational`. -/
def asInformational (v : Value) : Outcome Informational := do
  let s ← asStr v
  pure (Informational.fromStr s)

/-- `#[serde(deny_unknown_fields)]` (`config.rs:13`, `94`, `115`, `143`, `289`, `320`). -/
def denyUnknown (t : Table) (known : List String) : Outcome Unit :=
  if t.all (fun e => (known.map String.toList).contains e.1) then .ok () else .err

/-- `config.rs:92-108`: derived `Deserialize for AdvisoryConfig`. -/
def AdvisoryConfig.ofValue : Value → Outcome AdvisoryConfig
  | .table t => do
    denyUnknown t ["ignore", "informational_warnings", "severity_threshold"]
    let ignore ← orDefault t "ignore" [] (asArr asId)
    let informationalWarnings ← optionally t "informational_warnings" (asArr asInformational)
    let severityThreshold ← optionally t "severity_threshold" (asParsed Severity.fromStr)
    pure { ignore, informationalWarnings, severityThreshold }
  | _ => .err

/-- `config.rs:114-129`: derived `Deserialize for DatabaseConfig`; `stale` has no default. -/
def DatabaseConfig.ofValue : Value → Outcome DatabaseConfig
  | .table t => do
    denyUnknown t ["path", "url", "fetch", "stale"]
    let path ← optionally t "path" asStr
    let url ← optionally t "url" asStr
    let fetch ← orDefault t "fetch" true asFlag
    let stale ← needed t "stale" asFlag
    pure { path, url, fetch, stale }
  | _ => .err

/-- `config.rs:142-160`, `169-171`: derived `Deserialize for OutputConfig`; `quiet` has no default.  The names of the variants
(`config.rs:174-192`, `237-251`) are those of the two `FromStr`s. -/
def OutputConfig.ofValue : Value → Outcome OutputConfig
  | .table t => do
    denyUnknown t ["deny", "format", "quiet", "show_tree"]
    let deny ← orDefault t "deny" [] (asArr (asParsed DenyOption.fromStr))
    let format ← orDefault t "format" .terminal (asParsed OutputFormat.fromStr)
    let quiet ← needed t "quiet" asFlag
    let showTree ← orDefault t "show_tree" true asFlag
    pure { deny, format, quiet, showTree }
  | _ => .err

/-- `config.rs:278-285`: derived (untagged) `Deserialize for FilterList<String>`. -/
def FilterList.ofValue : Value → Outcome FilterList
  | .str s => .ok (.single s)
  | .arr l => do
    let l ← Outcome.mapList asStr l
    pure (.many l)
  | _ => .err

/-- `config.rs:288-296`: derived `Deserialize for TargetConfig`. -/
def TargetConfig.ofValue : Value → Outcome TargetConfig
  | .table t => do
    denyUnknown t ["arch", "os"]
    let arch ← optionally t "arch" FilterList.ofValue
    let os ← optionally t "os" FilterList.ofValue
    pure { arch, os }
  | _ => .err

/-- `config.rs:319-329`, `340-342`: derived `Deserialize for YankedConfig`. -/
def YankedConfig.ofValue : Value → Outcome YankedConfig
  | .table t => do
    denyUnknown t ["enabled", "update_index"]
    let enabled ← orDefault t "enabled" true asFlag
    let updateIndex ← orDefault t "update_index" true asFlag
    pure { enabled, updateIndex }
  | _ => .err

/-- `config.rs:12-34`: derived `Deserialize for AuditConfig`.  A section that is missing is the `Default` of its structure. -/
def AuditConfig.ofTable (t : Table) : Outcome AuditConfig := do
  denyUnknown t ["advisories", "database", "output", "target", "yanked"]
  let advisories ← orDefault t "advisories" {} AdvisoryConfig.ofValue
  let database ← orDefault t "database" {} DatabaseConfig.ofValue
  let output ← orDefault t "output" {} OutputConfig.ofValue
  let target ← orDefault t "target" {} TargetConfig.ofValue
  let yanked ← orDefault t "yanked" {} YankedConfig.ofValue
  pure { advisories, database, output, target, yanked }

/-- `cargo-audit/tests/config.rs:11`, and abscissa's `Config::load_toml`: the configuration written in a text. -/
def AuditConfig.fromText (s : Str) : Outcome AuditConfig := do
  let t ← ofOption (Toml.read s)
  AuditConfig.ofTable t

/-! ### Where the file is -/

/-- What loading the configuration asks the outside world: cargo's home directory, and the files. -/
structure ConfigWorld where
  /-- `home::cargo_home()`. -/
  cargoHome : Option Str
  /-- `Path::exists`. -/
  pathExists : Str → Bool
  /-- The contents of a file, if it can be read. -/
  contents : Str → Option Str

/-- `cargo-audit/src/commands.rs:23`: `CONFIG_FILE`. -/
def configFile : Str := "audit.toml".toList

/-- `PathBuf::join` with the name of the file (a relative path): a separator is added if there is none. -/
def joinConfig (dir : Str) : Str :=
  if dir.isEmpty || endsWith dir "/" then dir ++ configFile else dir ++ '/' :: configFile

/-- `cargo-audit/src/commands.rs:53-78`: `config_path`. -/
def configPath (w : ConfigWorld) : Option Str :=
  let project := joinConfig "./.cargo".toList
  if w.pathExists project then some project
  else do
    let home ← w.cargoHome.map joinConfig
    if w.pathExists home then some home else none

/-- The configuration file: abscissa's `Application::init` reads the file of `config_path`, or takes the default if there is
none. -/
def loadedConfig (w : ConfigWorld) : Outcome AuditConfig :=
  match configPath w with
  | some p => do
    let s ← ofOption (w.contents p)
    AuditConfig.fromText s
  | none => .ok {}

/-- The configuration `cargo audit` works with: the file's, handed to `process_config`
(`cargo-audit/src/commands.rs:80-87`). -/
def effectiveConfig (w : ConfigWorld) (cmd : AuditCommand) : Outcome AuditConfig := do
  let c ← loadedConfig w
  cmd.overrideConfig c

end Verif.Audit
