import Verif.Spec.Audit
import Verif.Spec.ReportJson
import Verif.Model.AuditJson

/-!
# Specification: what the JSON report of an audit shows
-/

namespace Verif.Spec

open Verif.Audit Verif.Adv Verif.Lock Verif.Semver Verif.Rep Verif.RepJson Verif.Db
open Verif.AdminLint (Checkout)

/-- The checkout has a file with this advisory.  Hidden files do not count, nor do drafts.  The collection of the advisory
is the directory of the file. -/
def HasAdvisory (L : AdvLib) (ch : Checkout) (f : AdvisoryFile) : Prop :=
  ∃ col entries dir items name text f₀, ch.listing col = some entries ∧ AdminLint.Entry.dir dir items ∈ entries ∧
    AdminLint.Item.file name (some text) ∈ items ∧ ¬ ['.'] <+: name ∧ AdvisoryFile.fromStr L text = .ok f₀ ∧
    f₀.metadata.id.string ≠ "RUSTSEC-0000-0000".toList ∧
    f = { f₀ with metadata := { f₀.metadata with collection := some col } }

end Verif.Spec
