import Verif.Props.Terminal
import Verif.Props.ProjectLoad
import Verif.Spec.ProjectTerminal
import Verif.Props.Meets

/-!
# C103: from the texts of the files to the report on the terminal
-/

namespace Verif.Props

open Verif Verif.Semver Verif.Osv Verif.Lock Verif.Adv Verif.Audit Verif.Toml Verif.Spec Verif.Db Verif.Assign Verif.Rep
open Verif.AuditJson (withCollection)
open Verif.AdminLint (Checkout)

/-- An advisory file is about functions that have a name. -/
theorem functions_named {L : AdvLib} {text : Str} {f : AdvisoryFile} (h : AdvisoryOf L text f) {af : Affected}
    (ha : f.affected = some af) {e : List Str × List VersionReq} (he : e ∈ af.functions) : e.1 ≠ [] := by
  obtain ⟨parts, front, t, m, w, -, -, -, -, -, -, -, -, -, -, haf, -⟩ := h.contents
  rcases haf with ⟨-, haf⟩ | ⟨ta, af', -, haf, hof⟩
  · rw [haf] at ha; cases ha
  · rw [haf] at ha
    cases ha
    rcases hof.functions with ⟨-, hn⟩ | ⟨m, -, hall⟩
    · rw [hn] at he; cases he
    · obtain ⟨x, -, hx, -⟩ := forall2_right hall e he
      have := ((C21_round_trip _ _).1.mp hx).1.1
      intro hn
      rw [hn] at this
      exact absurd this (by decide)

private theorem link_of {P : Project} {f : AdvisoryFile} (s : Str) :
    Linked (toAdvisory P.severityOf (withCollection .crates f)).metadata s ↔ LinkOf f s := by
  constructor
  · intro h
    cases h with
    | original u h hu => exact .original u h hu
    | originalUnknown s h hu hs => exact .originalUnknown s h hu hs
    | page s h hs => exact .page s h hs
    | noPage u h hs hu => exact .noPage u h hs hu
  · intro h
    cases h with
    | original u h hu => exact .original u h hu
    | originalUnknown s h hu hs => exact .originalUnknown s h hu hs
    | page s h hs => exact .page s h hs
    | noPage u h hs hu => exact .noPage u h hs hu

theorem shows_advisory {P : Project} (hF : P.fp.Ok) {T : TermLib} {txt : Str} {f : AdvisoryFile} (hf : AdvisoryOf P.advLib txt f)
    {error : Bool} {block : List TermLine}
    (h : Introduces T (toAdvisory P.severityOf (withCollection .crates f)).metadata error block) : PrintsAdvisory T f error block := by
  refine ⟨h.title, h.date, h.id, fun s => (h.link s).trans (link_of s), fun s => (h.severity s).trans ?_⟩
  constructor
  · rintro ⟨vector, grade, hv, hg, rfl⟩
    have hv : f.metadata.cvss.map Cvss.Cvss.display = some vector := hv
    have hg : f.metadata.cvss.map P.severityOf = some grade := hg
    obtain ⟨cv, hcv, rfl⟩ := Option.map_eq_some_iff.mp hv
    rw [hcv, Option.map_some, Option.some.injEq] at hg
    obtain ⟨t, ht⟩ := cvss_parsed hf hcv
    exact ⟨cv, grade, hcv, (rated_iff P hF ht _).mpr hg, rfl⟩
  · rintro ⟨cv, grade, hcv, hr, rfl⟩
    obtain ⟨t, ht⟩ := cvss_parsed hf hcv
    refine ⟨cv.display, grade, ?_, ?_, rfl⟩
    · show f.metadata.cvss.map Cvss.Cvss.display = _
      rw [hcv]; rfl
    · show f.metadata.cvss.map P.severityOf = _
      rw [hcv, Option.map_some, (rated_iff P hF ht _).mp hr]

theorem advises {T : TermLib} {v : Vulnerability} {f : AdvisoryFile} (hv : v.versions = f.versions)
    (hwf : ∀ r ∈ v.versions.patched ++ v.versions.unaffected, ReqWF r)
    (h : Versions.new v.versions.patched v.versions.unaffected = .ok v.versions) :
    Advises T f v.package.version (Audit.solution T v) := by
  refine ⟨fun hp => ?_, fun hp => ?_, fun hex hpre => ?_⟩
  · have := (C73_patched T v hwf h (by rw [hv]; exact hp)).1
    rw [this, hv]
  · by_cases hs : Audit.solution T v = "No fixed upgrade is available!".toList
    · exact .inl hs
    · obtain ⟨rs, h1, h2, h3, h4⟩ := C73_unaffected T v hwf h (by rw [hv]; exact hp) hs
      refine .inr ⟨rs, h1, hv ▸ h2, h3, fun r hr => ?_⟩
      obtain ⟨w, a, b, d, -⟩ := h4 r hr
      exact ⟨w, a, b, (C109_meets (hwf r (List.mem_append_right _ (h2.subset hr))) w).mp d⟩
  · rw [(C73_no_upgrade T v hwf h (by rw [hv]; exact hex) hpre).1, hv]
    refine and_congr_right fun hp => forall_congr' fun w => forall_congr' fun _ => forall_congr' fun _ => ?_
    obtain ⟨b, hb, hb'⟩ := C01_is_vulnerable_iff _ _ _ hwf h w
    rw [hv] at hb hb'
    rw [hb, hp, List.nil_append] at *
    rw [← hb']
    constructor
    · intro e; cases e; rfl
    · rintro rfl; rfl

theorem denied_kinds (deny : List DenyOption) (k : WarningKind) :
    (deny.flatMap DenyOption.warningKinds).contains k = true ↔ Denied deny k := by
  rw [List.contains_iff_mem, mem_denyKinds]

/-- **Property C103**: when the configuration, the lockfile, the checkout and the database can be read and the dependency tree
can be built, `cargo audit` with terminal output prints blocks of lines.  Every block tells what the texts tell, and
everything that the texts tell has a block.  Something is marked as an error exactly if the exit status is 1, and that is
exactly if the texts are damning. -/
theorem C103_terminal (P : Project) (hF : P.fp.Ok) (cmd : AuditCommand) (c : AuditConfig) (hc : Configured P cmd c)
    (hfmt : c.output.format = .terminal) (text : Str) (ht : LockOf P cmd.file text) (l : Lockfile)
    (hl : Lockfile.fromText (semverCodec P.url) Toml.read text = .ok l) (ch : Checkout) (hch : CheckoutOf P c ch)
    (hdb : DatabaseReads P.advLib ch) (hpr : Printable c l) (T : TermLib) (hT : T.version = Version.text) :
    ∃ (n : Nat) (out : Printed) (lines selfLines : List TermLine) (blocks : List (List TermLine)), P.run cmd = (some out, .code n) ∧
      runPrints T (P.env cmd.file) cmd c = some (out, selfLines) ∧ out.screen T none = .ok lines ∧
      (∃ sums, lines = blocks.flatten ++ sums ∧ ∀ x ∈ sums, ∃ error s, x = .total error s) ∧ (∀ block ∈ blocks, Told P T cmd.file c ch text block) ∧
      (∀ f name version, FindingOf P c ch text f name version → f.metadata.informational = none →
        ∃ block ∈ blocks, PrintsVulnerability T f name version block) ∧
      (∀ f name version i kind, FindingOf P c ch text f name version → f.metadata.informational = some i → Enabled c i →
        WarnsAs i kind → ∃ block ∈ blocks, ∃ error, (error = true ↔ Denied c.output.deny kind) ∧
          PrintsWarning T (some f) kind error name version block) ∧
      (∀ name version, YankedOf P cmd.file c text name version → ∃ block ∈ blocks, ∃ error,
        (error = true ↔ Denied c.output.deny .yanked) ∧ PrintsWarning T none .yanked error name version block) ∧
      (n = 0 ∨ n = 1) ∧ (n = 1 ↔ ∃ x ∈ lines ++ selfLines, Red x) ∧ (n = 1 ↔ Damning P cmd.file c ch text) ∧
      (selfLines ≠ [] ↔ ToolAdvisory P ch) := by
  obtain ⟨db, hdb⟩ := (C91_database P ch).mpr hdb
  obtain ⟨path, hloc, hlt⟩ := lockOf_locate ht
  have hload : (P.env cmd.file).loadLock path = some l := by
    show P.loadLock cmd.file path = some l
    unfold Project.loadLock
    rw [hlt, Option.bind_some, hl]
  have hrun : P.run cmd = runAudit (P.env cmd.file) cmd c := by
    unfold Project.run
    rw [(configured_iff P cmd c).mpr hc]
  have hval := C90_validated (L := P.advLib) rfl hdb
  have hfun : ∀ a ∈ db.iter, ∀ af, a.affected = some af → ∀ e ∈ af.functions, e.1 ≠ [] := by
    intro a ha af haf e he
    obtain ⟨col, txt, f, -, h2, -, rfl⟩ := (mem_db hdb a).mp ha
    exact functions_named h2 haf he
  obtain ⟨r, out, n, blocks, lines, selfLines, h1, hcomp, h3, h4, h5, h6, h7, h8, h9⟩ := C73_run T (P.env cmd.file) cmd c path hloc _
    (checkoutOf_env hch cmd.file) db hdb hval hfun l hload hpr hfmt
  obtain ⟨r', out', n', h1', -, -, hn, hd⟩ := C91_verdict P hF cmd c hc text ht l hl ch hch db hdb hpr
  have hnn : n' = n := by
    rw [hrun, h1] at h1'
    cases h1'; rfl
  subst hnn
  have hin : ∀ w, w ∈ (inOrder r.warnings).flatMap (·.2) ↔ InReport r w := by
    intro w
    rw [List.mem_flatMap]
    constructor
    · rintro ⟨⟨k, ws⟩, hm, hw⟩
      exact ⟨k, ws, (inOrder_perm hcomp.keys).mem_iff.mp hm, hw⟩
    · rintro ⟨k, ws, hm, hw⟩
      exact ⟨(k, ws), (inOrder_perm hcomp.keys).mem_iff.mpr hm, hw⟩
  -- from a database advisory to the file
  have hfile : ∀ p ∈ l.packages, ∀ a ∈ db.iter, Concerned c p a → ∃ f txt, AdvisoryOf P.advLib txt f ∧
      FindingOf P c ch text f p.name p.version ∧ a = toAdvisory P.severityOf (withCollection .crates f) := by
    intro p hp a ha hcon
    obtain ⟨col, txt, f, a1, a2, a3, rfl⟩ := (mem_db hdb a).mp ha
    have hcol : col = .crates := Option.some.inj hcon.collection
    subst hcol
    exact ⟨f, txt, a2, (findingOf_iff hF hl f _ _).mpr ⟨p, hp, rfl, rfl, ⟨txt, a1, a2⟩, a3, hcon⟩, rfl⟩
  have hvuln : ∀ (f : AdvisoryFile) (txt : Str) (p : Package) (block : List TermLine), AdvisoryOf P.advLib txt f →
      toAdvisory P.severityOf (withCollection .crates f) ∈ db.iter →
      Describes T (c.output.deny.flatMap DenyOption.warningKinds)
        (.inl (Vulnerability.new (toAdvisory P.severityOf (withCollection .crates f)) p)) block →
      PrintsVulnerability T f p.name p.version block := by
    intro f txt p block hof hmem hdsc
    obtain ⟨hwf, hnew⟩ := hval _ hmem
    refine ⟨hdsc.crate, ?_, shows_advisory hF hof (hdsc.vulnerability _ rfl), _, hdsc.solution _ rfl, advises (T := T)
      (v := Vulnerability.new (toAdvisory P.severityOf (withCollection .crates f)) p) (f := f) rfl hwf hnew⟩
    rw [← hT]; exact hdsc.version
  have hwarn : ∀ (w : Warning) (f : Option AdvisoryFile) (block : List TermLine),
      (∀ f', f = some f' → (∃ txt, AdvisoryOf P.advLib txt f') ∧
        w.advisory = some (toAdvisory P.severityOf (withCollection .crates f')).metadata) →
      Describes T (c.output.deny.flatMap DenyOption.warningKinds) (.inr w) block →
      PrintsWarning T f w.kind ((c.output.deny.flatMap DenyOption.warningKinds).contains w.kind) w.package.name w.package.version block := by
    intro w f block hf hdsc
    refine ⟨hdsc.crate, ?_, hdsc.warning _ rfl, fun f' hf' => ?_, fun he x hx hr => ?_⟩
    · rw [← hT]; exact hdsc.version
    · obtain ⟨⟨txt, hof⟩, ha⟩ := hf f' hf'
      exact shows_advisory hF hof (hdsc.advisory _ _ rfl ha)
    · have := hdsc.colour x hx hr
      have hk : w.kind ∈ c.output.deny.flatMap DenyOption.warningKinds := this
      rw [List.contains_iff_mem.mpr hk] at he
      cases he
  refine ⟨n', out, lines, selfLines, blocks, hrun.trans h1, h3, h5, h6, fun block hb => ?_, fun f name version hf hi => ?_,
    fun f name version i kind hf hi he hk => ?_, fun name version hy => ?_, hn, h7, hd, h9.trans (toolAdvisory_iff cmd.file hdb)⟩
  · obtain ⟨x, hx, hdsc⟩ := forall2_right h4 block hb
    unfold findings at hx
    rcases List.mem_append.mp hx with hx | hx
    · obtain ⟨v, hv, rfl⟩ := List.mem_map.mp hx
      obtain ⟨p, hp, a, ha, rfl, hcon, hinf, -⟩ := (hcomp.vulnerabilities v).mp hv
      obtain ⟨f, txt, hof, hfo, rfl⟩ := hfile p hp a ha hcon
      exact .vulnerability f _ _ hfo hinf (hvuln f txt p block hof ha hdsc)
    · obtain ⟨w, hw, rfl⟩ := List.mem_map.mp hx
      have hw := (hin w).mp hw
      by_cases hy : w.kind = .yanked
      · obtain ⟨-, -, -, hp, hsaid⟩ := hcomp.yanked w hw hy
        have hsh := hwarn w none block (fun f' hf' => by cases hf') hdsc
        rw [hy] at hsh
        exact .yanked _ _ _ ((yankedOf_iff cmd.file hl _ _).mp ⟨_, hp, rfl, rfl, hsaid⟩) (denied_kinds _ _) hsh
      · obtain ⟨p, hp, a, ha, i, hcon, hinf, -, hen, hwa, hpk, had, -⟩ := (hcomp.advisories w).mp ⟨hw, hy⟩
        obtain ⟨f, txt, hof, hfo, rfl⟩ := hfile p hp a ha hcon
        have hsh := hwarn w (some f) block (fun f' hf' => by cases hf'; exact ⟨⟨txt, hof⟩, had⟩) hdsc
        rw [hpk] at hsh
        exact .warning f _ _ i _ _ hfo hinf hen hwa (denied_kinds _ _) hsh
  · obtain ⟨p, hp, rfl, rfl, ⟨txt, a1, a2⟩, a3, hcon⟩ := (findingOf_iff hF hl f _ _).mp hf
    have hmem := (mem_db hdb _).mpr ⟨.crates, txt, f, a1, a2, a3, rfl⟩
    have hv := (hcomp.vulnerabilities _).mpr ⟨p, hp, _, hmem, rfl, hcon, hi, fun f hf => by cases hf⟩
    obtain ⟨block, hb, hdsc⟩ := forall2_left h4 (a := .inl _) (List.mem_append_left _ (List.mem_map_of_mem hv))
    exact ⟨block, hb, hvuln f txt p block a2 hmem hdsc⟩
  · obtain ⟨p, hp, rfl, rfl, ⟨txt, a1, a2⟩, a3, hcon⟩ := (findingOf_iff hF hl f _ _).mp hf
    have hmem := (mem_db hdb _).mpr ⟨.crates, txt, f, a1, a2, a3, rfl⟩
    have hw := (hcomp.advisories ⟨kind, p, some _, _, some _⟩).mpr ⟨p, hp, _, hmem, i, hcon, hi, (fun f hf => by cases hf), he, hk,
      rfl, rfl, rfl, rfl⟩
    obtain ⟨block, hb, hdsc⟩ := forall2_left h4 (a := .inr _) (List.mem_append_right _ (List.mem_map_of_mem ((hin _).mpr hw.1)))
    exact ⟨block, hb, _, denied_kinds _ _, hwarn _ (some f) block (fun f' hf' => by cases hf'; exact ⟨⟨txt, a2⟩, rfl⟩) hdsc⟩
  · obtain ⟨p, hp, rfl, rfl, hsaid⟩ := (yankedOf_iff cmd.file hl _ _).mpr hy
    obtain ⟨w, hw, hk, e1, e2⟩ := hcomp.allYanked p hp hsaid
    obtain ⟨block, hb, hdsc⟩ := forall2_left h4 (a := .inr w) (List.mem_append_right _ (List.mem_map_of_mem ((hin _).mpr hw)))
    have hsh := hwarn w none block (fun f' hf' => by cases hf') hdsc
    rw [hk, e1, e2] at hsh
    exact ⟨block, hb, _, denied_kinds _ _, hsh⟩

end Verif.Props
