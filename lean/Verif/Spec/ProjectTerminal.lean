import Verif.Spec.Project
import Verif.Spec.Terminal
import Verif.Spec.Meets

/-!
# Specification: what the terminal report says about the texts of a project (C103)
-/

namespace Verif.Spec

open Verif Verif.Semver Verif.Osv Verif.Lock Verif.Adv Verif.Audit Verif.Rep
open Verif.AdminLint (Checkout)

/-- The address shown for an advisory: the one in its file if the licence asks for credit, else the page of its ID; the other
one if there is only that. -/
inductive LinkOf (f : AdvisoryFile) : Str → Prop
  | original (u : Lock.Url) (h : f.metadata.license = .ccBy40) (hu : f.metadata.url = some u) : LinkOf f u.text
  | originalUnknown (s : Str) (h : f.metadata.license = .ccBy40) (hu : f.metadata.url = none) (hs : f.metadata.id.url = some s) :
      LinkOf f s
  | page (s : Str) (h : f.metadata.license ≠ .ccBy40) (hs : f.metadata.id.url = some s) : LinkOf f s
  | noPage (u : Lock.Url) (h : f.metadata.license ≠ .ccBy40) (hs : f.metadata.id.url = none) (hu : f.metadata.url = some u) :
      LinkOf f u.text

/-- What is said about an advisory: title, date, ID, link, and, if its file has a CVSS vector, the severity that the CVSS
documents give it. -/
structure PrintsAdvisory (T : TermLib) (f : AdvisoryFile) (error : Bool) (block : List TermLine) : Prop where
  title : .attr error "Title:    ".toList f.metadata.title ∈ block
  date : .attr error "Date:     ".toList f.metadata.date.text ∈ block
  id : .attr error "ID:       ".toList f.metadata.id.string ∈ block
  link : ∀ s, .attr error "URL:      ".toList s ∈ block ↔ LinkOf f s
  severity : ∀ s, .attr error "Severity: ".toList s ∈ block ↔ ∃ vector grade, f.metadata.cvss = some vector ∧
    Rated vector grade ∧ s = T.score vector.display ++ " (".toList ++ grade.asStr ++ ")".toList

/-- What a user of this version is advised to do.  Patched requirements are all shown.  Without them, requirements that were never
affected, each met by a newer release; or that there is no upgrade, which is right when all requirements name all their
numbers. -/
structure Advises (T : TermLib) (f : AdvisoryFile) (version : Version) (s : Str) : Prop where
  patched : f.versions.patched ≠ [] →
    s = "Upgrade to ".toList ++ separated " OR " (f.versions.patched.map T.req) ++ " (patched)".toList
  unpatched : f.versions.patched = [] → s = "No fixed upgrade is available!".toList ∨
    ∃ rs, rs ≠ [] ∧ rs.Sublist f.versions.unaffected ∧
      s = "Upgrade to ".toList ++ separated " OR " (rs.map T.req) ++ " (unaffected)".toList ∧
      ∀ r ∈ rs, ∃ w : Version, version < w ∧ Release w ∧ MeetsAll r w
  hopeless : (∀ r ∈ f.versions.patched ++ f.versions.unaffected, ExactNumbers r) → version.pre = [] →
    (s = "No fixed upgrade is available!".toList ↔ f.versions.patched = [] ∧
      ∀ w : Version, Release w → version < w → ∀ r ∈ f.versions.unaffected, ¬ Covers r w)

/-- The lines about a vulnerability. -/
structure PrintsVulnerability (T : TermLib) (f : AdvisoryFile) (nm : Str) (v : Version) (block : List TermLine) : Prop where
  crate : .attr true "Crate:    ".toList nm ∈ block
  version : .attr true "Version:  ".toList v.text ∈ block
  advisory : PrintsAdvisory T f true block
  solution : ∃ s, (∀ s', .attr true "Solution: ".toList s' ∈ block ↔ s' = s) ∧ Advises T f v s

/-- The lines about a warning, as an error or not. -/
structure PrintsWarning (T : TermLib) (f : Option AdvisoryFile) (k : WarningKind) (error : Bool) (nm : Str) (v : Version)
    (block : List TermLine) : Prop where
  crate : .attr error "Crate:    ".toList nm ∈ block
  version : .attr error "Version:  ".toList v.text ∈ block
  kind : ∀ s, .attr error "Warning:  ".toList s ∈ block ↔ s = k.asStr
  advisory : ∀ f', f = some f' → PrintsAdvisory T f' error block
  colour : error = false → ∀ x ∈ block, ¬ Red x

/-- What the texts tell, as a block of lines: a vulnerability; an informational advisory that is asked for; a yanked package.
Warnings of denied kinds are errors. -/
inductive Told (P : Project) (T : TermLib) (file : Option Str) (c : AuditConfig) (ch : Checkout) (lock : Str) :
    List TermLine → Prop
  | vulnerability (f : AdvisoryFile) (name : Str) (version : Version) {block : List TermLine} (h : FindingOf P c ch lock f name version)
      (hi : f.metadata.informational = none) (hs : PrintsVulnerability T f name version block) : Told P T file c ch lock block
  | warning (f : AdvisoryFile) (name : Str) (version : Version) (i : Informational) (kind : WarningKind) (error : Bool)
      {block : List TermLine} (h : FindingOf P c ch lock f name version) (hi : f.metadata.informational = some i) (he : Enabled c i)
      (hk : WarnsAs i kind) (hd : error = true ↔ Denied c.output.deny kind)
      (hs : PrintsWarning T (some f) kind error name version block) : Told P T file c ch lock block
  | yanked (name : Str) (version : Version) (error : Bool) {block : List TermLine} (h : YankedOf P file c lock name version)
      (hd : error = true ↔ Denied c.output.deny .yanked)
      (hs : PrintsWarning T none .yanked error name version block) : Told P T file c ch lock block

end Verif.Spec
