import Verif.Model.Terminal

/-!
# Everything `cargo audit` prints

Model of the messages of `cargo-audit/src/{auditor,presenter}.rs` and `commands/audit.rs` around the report, in order with
the report: the transcript of a run.

Simplifications: both streams are one sequence; the texts of errors of other crates (after a colon) are left out; what
`cargo update` prints is not there; if printing the report panics nothing of the report is in the transcript.
-/

namespace Verif.Audit

open Verif.Adv Verif.Db Verif.Rep Verif.Lock Verif.Bin

/-- `status_ok!`, `status_warn!`, `status_err!` of abscissa. -/
inductive MsgLevel where
  | ok | warn | err
  deriving DecidableEq, Repr

/-- The messages. -/
inductive Msg where
  /-- `auditor.rs:65-67` -/
  | fetching (url : Str)
  /-- `auditor.rs:80-86`, `139-145`, `168-174` -/
  | waiting (path : Str)
  /-- `auditor.rs:94-98` -/
  | fetchFailed
  /-- `auditor.rs:102-106`, `110-114` -/
  | loadFailed
  /-- `auditor.rs:118-125` -/
  | loaded (n : Nat) (path : Str)
  /-- `auditor.rs:129-131` -/
  | updating
  /-- `auditor.rs:152-154` -/
  | updateFailed
  /-- `auditor.rs:178-180` -/
  | openFailed
  /-- `commands/audit.rs:286-289` -/
  | noLockfile
  /-- `auditor.rs:206-210`, `commands/audit.rs:299-302` -/
  | lockfileFailed (path : Str)
  /-- `presenter.rs:72-79` -/
  | scanning (path : Str) (n : Nat)
  /-- `auditor.rs:371-374` -/
  | yankFailed
  /-- `presenter.rs:88-93` -/
  | auditable (path : Str) (n : Nat)
  /-- `presenter.rs:94-100` -/
  | notAuditable (path : Str) (n : Nat)
  /-- `presenter.rs:101-104` -/
  | noDependencies (path : Str)
  /-- `presenter.rs:164-167` -/
  | symbolsFailed
  /-- `auditor.rs:242` -/
  | binaryFailed (path : Str)
  deriving DecidableEq, Repr

/-- The macro used for a message (lines as at `Msg`). -/
def Msg.level : Msg → MsgLevel
  | .fetching _ | .loaded _ _ | .updating | .scanning _ _ | .auditable _ _ => .ok
  | .waiting _ | .updateFailed | .openFailed | .notAuditable _ _ | .symbolsFailed => .warn
  | .fetchFailed | .loadFailed | .noLockfile | .lockfileFailed _ | .yankFailed | .noDependencies _ | .binaryFailed _ => .err

/-- A line, or block of lines, that is printed. -/
inductive Shown where
  | status (m : Msg)
  | screen (t : TermLine)
  | document (p : Printed)

/-- What the outside world answers beyond `Env`: whether the first attempt at the database and at the index finds the
package lock taken (`auditor.rs:77-79`, `136-138`, `165-167`), and whether a binary was built with `cargo auditable`
(`presenter.rs:87-94`). -/
structure Circumstances where
  databaseBusy : Bool := false
  indexBusy : Bool := false
  complete : List UInt8 → Bool := fun _ => true

/-- A message unless quiet (`if !config.output.is_quiet()`). -/
def say (c : OutputConfig) (m : Msg) : List Shown := if !c.isQuiet then [.status m] else []

/-- `auditor.rs:127-187`: the messages about the crates.io index. -/
def indexLines (w : Circumstances) (env : Env) (c : AuditConfig) : List Shown :=
  let path := c.database.path.getD env.defaultPath
  let wait : List Shown := if w.indexBusy then [.status (.waiting path)] else []
  if c.yanked.enabled then
    if c.yanked.updateIndex && c.database.fetch then
      say c.output .updating ++ wait ++ (if env.fetchIndex then [] else say c.output .updateFailed)
    else wait ++ (if env.openIndex then [] else say c.output .openFailed)
  else []

/-- `auditor.rs:64-91`: the messages before the database is there. -/
def fetchLines (w : Circumstances) (env : Env) (c : AuditConfig) : List Shown :=
  if c.database.fetch then
    say c.output (.fetching (c.database.url.getD defaultUrl)) ++
      (if w.databaseBusy then [.status (.waiting (c.database.path.getD env.defaultPath))] else [])
  else []

/-- `auditor.rs:49-199`: the messages of `Auditor::new`. -/
def newLines (w : Circumstances) (env : Env) (c : AuditConfig) : List Shown :=
  match env.checkout c with
  | none => fetchLines w env c ++ [.status .fetchFailed]
  | some t =>
    match Db.Database.open t with
    | .err => fetchLines w env c ++ [.status .loadFailed]
    | .panic => fetchLines w env c
    | .ok db =>
      fetchLines w env c ++ say c.output (.loaded db.iter.length (c.database.path.getD env.defaultPath)) ++
        indexLines w env c

/-- `auditor.rs:350-378`: the messages of `check_for_yanked_crates`. -/
def yankLines (env : Env) (a : Auditor) (l : Lockfile) : List Shown :=
  match a.index with
  | none => []
  | some ci =>
    let pkgs := l.packages.filter fun p => match p.source with | some s => s.isDefaultRegistry | none => false
    (ci.findYanked env.codec env.registry pkgs).2.filterMap fun o => match o with
      | .err => some (.status .yankFailed)
      | .ok _ => none
      | .panic => none

/-- `presenter.rs:121-145`: a document, or the lines of the report. -/
def reportLines (T : TermLib) (path : Option Str) (out : Printed) : Outcome (List Shown) :=
  match out with
  | .json _ => .ok [.document out]
  | .sarif _ => .ok [.document out]
  | .terminal _ _ _ _ =>
    match out.screen T path with
    | .ok lines => .ok (lines.map .screen)
    | .err => .err
    | .panic => .panic

/-- `presenter.rs:149-173`: the message of the affected-function analysis. -/
def symbolLines (p : Presenter) (bytes : Option (List UInt8)) : List Shown :=
  match bytes with
  | none => []
  | some _ => if p.config.format = .terminal ∧ p.symbols = none then [.status .symbolsFailed] else []

/-- `commands/audit.rs:271-306`: the transcript of `cargo audit`. -/
def runTranscript (T : TermLib) (w : Circumstances) (env : Env) (cmd : AuditCommand) (c : AuditConfig) :
    List Shown × Exit :=
  match env.locate cmd.file with
  | none => ([.status .noLockfile], .code 2)
  | some path =>
    match Auditor.new env c with
    | .err => (newLines w env c, .code 1)
    | .panic => (newLines w env c, .panic)
    | .ok a =>
      match env.loadLock path with
      | none => (newLines w env c ++ [.status (.lockfileFailed path)], .code 2)
      | some l =>
        let before := newLines w env c ++ say a.presenter.config (.scanning path l.packages.length)
        match a.audit env l none with
        | .err => (before, .code 2)
        | .panic => (before, .panic)
        | .ok (a', r, out) =>
          match reportLines T none out with
          | .err => (before ++ yankLines env a l, .panic)
          | .panic => (before ++ yankLines env a l, .panic)
          | .ok report =>
            match a'.selfAdvisories env with
            | none => (before ++ yankLines env a l ++ report, .panic)
            | some self =>
              (before ++ yankLines env a l ++ report ++ (a'.presenter.selfReport T self).map .screen,
                if a'.presenter.shouldExitWithFailure r || a'.presenter.failureDueToSelf self then .code 1 else .code 0)

/-- `presenter.rs:84-106`: `binary_scan_report`. -/
def scanLines (w : Circumstances) (c : OutputConfig) (path : Str) (bytes : List UInt8) (deps : Option Lockfile) : List Shown :=
  match deps with
  | some l =>
    if w.complete bytes then say c (.auditable path l.packages.length) else say c (.notAuditable path l.packages.length)
  | none => say c (.noDependencies path)

/-- `auditor.rs:289-294` with `presenter.rs:149-173`: the auditor that presents the report of a binary. -/
def Auditor.withSymbols (env : Env) (a : Auditor) (bytes : List UInt8) : Auditor :=
  { a with presenter := { a.presenter with symbols := env.symbolsOf bytes } }

/-- `auditor.rs:279-297` and `242`: the transcript of `audit_binary`, with the message if it fails. -/
def binaryTranscript (T : TermLib) (w : Circumstances) (env : Env) (a : Auditor) (path : Str) :
    List Shown × Outcome (Auditor × Report) :=
  match env.readBinary path with
  | none => ([.status (.binaryFailed path)], .err)
  | some content =>
    match readWithLimit (a.binaryLimit.getD defaultMaxBinarySize) content with
    | none => ([.status (.binaryFailed path)], .err)
    | some bytes =>
      match env.loadDeps bytes a.auditDataLimit with
      | none => ([.status (.binaryFailed path)], .err)
      | some (format, deps) =>
        let scan := scanLines w a.presenter.config path bytes deps
        match deps with
        | none => (scan ++ [.status (.binaryFailed path)], .err)
        | some l =>
          let b := a.withSymbols env bytes
          match b.audit env l (some format) with
          | .err => (scan, .panic)
          | .panic => (scan, .panic)
          | .ok (a', r, out) =>
            match reportLines T (some path) out with
            | .err => (scan ++ yankLines env b l, .panic)
            | .panic => (scan ++ yankLines env b l, .panic)
            | .ok report =>
              (scan ++ yankLines env b l ++ symbolLines b.presenter (some bytes) ++ report, .ok (a', r))

/-- `auditor.rs:234-247`: the loop of `audit_binaries`: vulnerabilities found, errors encountered. -/
def loopTranscript (T : TermLib) (w : Circumstances) (env : Env) :
    Auditor → List Str → List Shown × Outcome (Auditor × Bool × Bool)
  | a, [] => ([], .ok (a, false, false))
  | a, path :: paths =>
    match binaryTranscript T w env a path with
    | (lines, .panic) => (lines, .panic)
    | (lines, .err) =>
      match loopTranscript T w env a paths with
      | (rest, .ok (a', v, _)) => (lines ++ rest, .ok (a', v, true))
      | (rest, .err) => (lines ++ rest, .err)
      | (rest, .panic) => (lines ++ rest, .panic)
    | (lines, .ok (a1, r)) =>
      match loopTranscript T w env a1 paths with
      | (rest, .ok (a', v, e)) => (lines ++ rest, .ok (a', a1.presenter.shouldExitWithFailure r || v, e))
      | (rest, .err) => (lines ++ rest, .err)
      | (rest, .panic) => (lines ++ rest, .panic)

/-- `commands/audit/binary_scanning.rs:38-51` with `auditor.rs:228-259`: the transcript of `cargo audit bin`. -/
def binTranscript (T : TermLib) (w : Circumstances) (env : Env) (maxBinarySize auditDataSizeLimit : Option Nat)
    (paths : List Str) (c : AuditConfig) : List Shown × Exit :=
  match Auditor.new env c with
  | .err => (newLines w env c, .code 1)
  | .panic => (newLines w env c, .panic)
  | .ok a =>
    match loopTranscript T w env (a.setLimits maxBinarySize auditDataSizeLimit) paths with
    | (lines, .err) => (newLines w env c ++ lines, .panic)
    | (lines, .panic) => (newLines w env c ++ lines, .panic)
    | (lines, .ok (a', vulns, errors)) =>
      match a'.selfAdvisories env with
      | none => (newLines w env c ++ lines, .panic)
      | some self =>
        (newLines w env c ++ lines ++ (a'.presenter.selfReport T self).map .screen,
          if vulns then .code 1
          else if errors || a'.presenter.failureDueToSelf self then .code 2
          else .code 0)

end Verif.Audit
