import Verif.Model.Transcript
import Verif.Spec.Audit

/-!
# What is printed when
-/

namespace Verif.Audit

open Verif.Rep Verif.Spec

/-- Quiet: asked for, or a machine reads the output. -/
def Quiet (c : OutputConfig) : Prop := c.quiet = true ∨ c.format = .json ∨ c.format = .sarif

/-- The messages on the progress of a run, and on difficulties that do not concern the findings asked for. -/
def Chatter : Msg → Prop
  | .fetching _ | .loaded _ _ | .updating | .updateFailed | .openFailed | .scanning _ _ => True
  | .auditable _ _ | .notAuditable _ _ | .noDependencies _ => True
  | .waiting _ | .fetchFailed | .loadFailed | .noLockfile | .lockfileFailed _ | .yankFailed | .symbolsFailed
  | .binaryFailed _ => False

instance : DecidablePred Chatter := fun m => by cases m <;> unfold Chatter <;> infer_instance

/-- Such a message, as a line. -/
def Shown.chatter : Shown → Bool
  | .status m => decide (Chatter m)
  | _ => false

/-- A line that says that something went wrong or must not be: an error message, or a total of vulnerabilities or denied
warnings, or the notice about the tool itself if that is denied. -/
def Shown.isError : Shown → Prop
  | .status m => m.level = .err
  | .screen (.total error _) => error = true
  | _ => False

/-- A document for machines with a vulnerability, or a warning of a kind that is denied. -/
def Shown.reveals (deny : List DenyOption) : Shown → Prop
  | .document (.json r) | .document (.sarif r) =>
    r.vulnerabilities.found = true ∨ ∃ k ws, (k, ws) ∈ r.warnings ∧ ws ≠ [] ∧ Denied deny k
  | _ => False

/-- A line from which the user learns why the run fails.  Not being able to look up whether a crate is yanked is no reason. -/
def Shown.alarm (deny : List DenyOption) (x : Shown) : Prop :=
  (x.isError ∧ x ≠ .status .yankFailed) ∨ x.reveals deny

/-- The same settings, quiet or not. -/
def AuditConfig.quietly (c : AuditConfig) (b : Bool) : AuditConfig := { c with output := { c.output with quiet := b } }

/-- What a run that finds everything it needs says about its progress: that it fetches the database and from where, how many
advisories it loaded, what it does about the index of crates, what it scans and how many packages there are. -/
def progress (env : Env) (c : AuditConfig) (advisories : Nat) (path : Str) (packages : Nat) : List Msg :=
  (if c.database.fetch then [.fetching (c.database.url.getD defaultUrl)] else []) ++
  [.loaded advisories (c.database.path.getD env.defaultPath)] ++
  (if c.yanked.enabled then
    if c.yanked.updateIndex && c.database.fetch then .updating :: (if env.fetchIndex then [] else [.updateFailed])
    else if env.openIndex then [] else [.openFailed]
  else []) ++
  [.scanning path packages]

/-- The message, if a line is one on progress. -/
def Shown.progress? : Shown → Option Msg
  | .status m => if Chatter m then some m else none
  | _ => none

end Verif.Audit
