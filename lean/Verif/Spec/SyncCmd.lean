import Verif.Model.SyncCmd
import Verif.Spec.Sync

/-!
# Specification of the command `rustsec-admin sync` (C75)
-/

namespace Verif.Spec

open Verif.Adv Verif.Db Verif.Assign Verif.Sync Verif.Lock

/-- The file counts: it is called `<something>.json`, and `RUSTSEC-` is neither in its name nor in the path of the
directory. -/
def Counts (dir name : Str) : Prop :=
  (∃ stem, stem ≠ [] ∧ name = stem ++ ".json".toList) ∧ ¬ "RUSTSEC-".toList <:+: name ∧ ¬ "RUSTSEC-".toList <:+: dir

/-- `text` is the file `p` with aliases added to it, all of which belong there. -/
def UpdatedFile (L : SyncLib) (sev : Cvss.Cvss → Severity) (db : Database) (osv : List OsvRecord) (p : Path)
    (old text : Str) : Prop :=
  ∃ a f f', a ∈ db.iter ∧ p = fileOf a ∧ EditableFile L.adv old f ∧ a = stored .crates (toAdvisory sev f) ∧
    EditableFile L.adv text f' ∧ SameButAliases f f' ∧
    (∀ i ∈ f.metadata.aliases, i ∈ f'.metadata.aliases) ∧
    (∀ i ∈ f'.metadata.aliases, i ∈ f.metadata.aliases ∨ ToAdd osv a i) ∧
    ∃ q q', Parts.parse old = .ok q ∧ Parts.parse text = .ok q' ∧ q'.markdown = q.markdown

/-- What an interrupted run may leave: the same files; each has its old text or a complete updated one, except that one
may hold only the beginning of its updated text. -/
def Interrupted (L : SyncLib) (sev : Cvss.Cvss → Severity) (db : Database) (osv : List OsvRecord) (d e : Disk) : Prop :=
  e.map Prod.fst = d.map Prod.fst ∧
  ∃ torn : Option Path, ∀ p t, (p, t) ∈ d → ∃ t', (p, t') ∈ e ∧
    (t' = t ∨ UpdatedFile L sev db osv p t t' ∨
      (torn = some p ∧ ∃ whole, UpdatedFile L sev db osv p t whole ∧ t' <+: whole))

end Verif.Spec
