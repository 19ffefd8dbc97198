import Verif.Props.AuditJson

/-!
# The findings of a report with all fields
-/

namespace Verif.Props

open Verif.Semver Verif.Osv Verif.Lock Verif.Adv Verif.Db Verif.Rep Verif.RepJson Verif.Audit Verif.AuditJson Verif.Assign
  Verif.Spec
open Verif.AdminLint (Checkout)

/-- The report with all its fields has the findings of an audit, all of them and nothing else. -/
structure FullComplete (L : AdvLib) (sev : Cvss.Cvss → Severity) (env : Env) (c : AuditConfig) (ch : Checkout)
    (l : Lockfile) (format : Option Bin.BinaryFormat) {T : Type} (R : FullReport T) : Prop where
  vulnerabilities : ∀ v, v ∈ R.vulnerabilities.list ↔ ∃ f p, v = vulnerabilityOf (f, p) ∧ p ∈ l.packages ∧
    HasAdvisory L ch f ∧ Concerned c p (toAdvisory sev f) ∧ f.metadata.informational = none ∧
    Relevant format (toAdvisory sev f)
  filed : ∀ e ∈ R.warnings, ∀ w ∈ e.2, w.kind = e.1
  advisories : ∀ w, ((∃ e ∈ R.warnings, w ∈ e.2) ∧ w.kind ≠ .yanked) ↔ ∃ f p i, w = fullWarningOf w.kind (f, p) ∧
    p ∈ l.packages ∧ HasAdvisory L ch f ∧ Concerned c p (toAdvisory sev f) ∧
    Relevant format (toAdvisory sev f) ∧ f.metadata.informational = some i ∧ Enabled c i ∧ WarnsAs i w.kind
  yanked : ∀ e ∈ R.warnings, ∀ w ∈ e.2, w.kind = .yanked → w = fullYanked w.package ∧ w.package ∈ l.packages ∧
    SaidYanked env c w.package
  allYanked : ∀ p ∈ l.packages, SaidYanked env c p → ∃ e ∈ R.warnings, ∃ w ∈ e.2, w.kind = .yanked ∧
    w.package.name = p.name ∧ w.package.version = p.version
  settings : R.settings = c.reportSettings
  keys : (R.warnings.map Prod.fst).Nodup
  /-- Nothing is listed twice, unless a package is locked twice. -/
  once : l.packages.Nodup → R.vulnerabilities.list.Nodup ∧ ∀ e ∈ R.warnings, e.1 ≠ .yanked → e.2.Nodup

section
variable {L : ReportLib} {sev : Cvss.Cvss → Severity} {env : Env} {c : AuditConfig} {ch : Checkout} {db : Database}
  {l : Lockfile} {format : Option Bin.BinaryFormat} {r : Report}

theorem full_complete (h : Database.open (ch.tree L.adv sev) = .ok db) (hc : Complete env c db l format r)
    {commit : Option (Str × L.Time)} {R : FullReport L.Time}
    (hR : fullReport (loadedFiles L.adv ch) commit l r = .ok R) : FullComplete L.adv sev env c ch l format R := by
  obtain ⟨R', hR', -, -, -, sv, sw⟩ := C83_same_report h hc commit
  obtain rfl : R' = R := Outcome.ok.inj (hR'.symm.trans hR)
  have hkeys : (R'.warnings.map Prod.fst).Nodup := by
    have := (sw.map Prod.fst).nodup_iff.mpr hc.keys
    rw [List.map_map] at this
    exact this
  have honce : l.packages.Nodup → R'.vulnerabilities.list.Nodup ∧ ∀ e ∈ R'.warnings, e.1 ≠ .yanked → e.2.Nodup := by
    intro hn
    refine ⟨?_, fun e he hk => ?_⟩
    · have := (hc.once hn).1
      rw [← sv] at this
      exact List.Nodup.of_map _ this
    · have := (hc.once hn).2 _ _ (sw.mem_iff.mp (List.mem_map.mpr ⟨e, he, rfl⟩)) hk
      exact List.Nodup.of_map _ this
  clear hR' sv sw
  unfold fullReport at hR
  obtain ⟨vs, hvs, hR⟩ := bindOk hR
  obtain ⟨ws, hws, hR⟩ := bindOk hR
  cases hR
  have hin := inOrder_perm hc.keys
  have h2 := (mapList_iff _ _ _).mp hws
  have h1 := (mapList_iff _ _ _).mp hvs
  -- every entry of the full report comes from one of the report
  have down : ∀ e ∈ ws, ∀ w' ∈ e.2, ∃ w, InReport r w ∧ w.kind = e.1 ∧ fullWarning (loadedFiles L.adv ch) w = .ok w' := by
    intro e he w' hw'
    obtain ⟨⟨k, l'⟩, hm, hfe⟩ := forall2_right h2 e he
    unfold fullWarnings at hfe
    obtain ⟨full, hfull, hfe⟩ := bindOk hfe
    cases hfe
    obtain ⟨w, hw, hfw⟩ := forall2_right ((mapList_iff _ _ _).mp hfull) w' hw'
    have hm' := hin.mem_iff.mp hm
    exact ⟨w, ⟨k, l', hm', hw⟩, hc.filed k l' hm' w hw, hfw⟩
  have up : ∀ w, InReport r w → ∃ e ∈ ws, ∃ w' ∈ e.2, fullWarning (loadedFiles L.adv ch) w = .ok w' := by
    rintro w ⟨k, l', hm, hw⟩
    obtain ⟨e, he, hfe⟩ := forall2_left h2 (hin.mem_iff.mpr hm)
    unfold fullWarnings at hfe
    obtain ⟨full, hfull, hfe⟩ := bindOk hfe
    cases hfe
    obtain ⟨w', hw', hfw⟩ := forall2_left ((mapList_iff _ _ _).mp hfull) hw
    exact ⟨_, he, w', hw', hfw⟩
  have hkind : ∀ w w', fullWarning (loadedFiles L.adv ch) w = .ok w' → w'.kind = w.kind ∧ w'.package = w.package := by
    intro w w' hw
    unfold fullWarning at hw
    cases ha : w.advisory with
    | none => simp only [ha] at hw; cases hw; exact ⟨rfl, rfl⟩
    | some m =>
      simp only [ha] at hw
      cases hm : fullMetadata (loadedFiles L.adv ch) m with
      | err => simp only [hm] at hw; cases hw
      | panic => simp only [hm] at hw; cases hw
      | ok m' => simp only [hm] at hw; cases hw; exact ⟨rfl, rfl⟩
  refine ⟨fun v => ?_, fun e he w' hw' => ?_, fun w' => ?_, fun e he w' hw' hk => ?_, fun p hp hs => ?_, hc.settings, hkeys, honce⟩
  · constructor
    · intro hv
      obtain ⟨v', hv', hf⟩ := forall2_right h1 v hv
      obtain ⟨p, hp, a, ha, rfl, g1, g2, g3⟩ := (hc.vulnerabilities v').mp hv'
      obtain ⟨f, hfl, rfl⟩ := (iter_file h).mp ha
      rw [fullVulnerability_of h hfl] at hf
      cases hf
      exact ⟨f, p, rfl, hp, (mem_loadedFiles _ _ _).mp hfl, g1, g2, g3⟩
    · rintro ⟨f, p, rfl, hp, hfl, g1, g2, g3⟩
      rw [← mem_loadedFiles] at hfl
      have hv := (hc.vulnerabilities _).mpr ⟨p, hp, _, (iter_file h).mpr ⟨f, hfl, rfl⟩, rfl, g1, g2, g3⟩
      obtain ⟨v, hv, hf⟩ := forall2_left h1 hv
      rw [fullVulnerability_of h hfl] at hf
      cases hf
      exact hv
  · obtain ⟨w, -, hk, hf⟩ := down e he w' hw'
    rw [(hkind w w' hf).1, hk]
  · constructor
    · rintro ⟨⟨e, he, hw'⟩, hk⟩
      obtain ⟨w, hi, -, hf⟩ := down e he w' hw'
      have hkw := (hkind w w' hf).1
      rw [hkw] at hk
      obtain ⟨p, hp, a, ha, i, g1, g2, g3, g4, g5, e1, e2, e3, e4⟩ := (hc.advisories w).mp ⟨hi, hk⟩
      obtain ⟨f, hfl, rfl⟩ := (iter_file h).mp ha
      have hwe : w = warningAbout sev w.kind f p := by
        cases w
        cases e1; cases e2; cases e3; cases e4
        rfl
      rw [hwe, fullWarning_of h hfl] at hf
      refine ⟨f, p, i, ?_, hp, (mem_loadedFiles _ _ _).mp hfl, g1, g3, g2, g4, hkw ▸ g5⟩
      rw [hkw]
      exact (Outcome.ok.inj hf).symm
    · rintro ⟨f, p, i, he, hp, hfl, g1, g2, g3, g4, g5⟩
      rw [← mem_loadedFiles] at hfl
      have hk : w'.kind ≠ .yanked := by
        intro e
        rw [e] at g5
        cases g5
      have hi := ((hc.advisories (warningAbout sev w'.kind f p)).mpr
        ⟨p, hp, _, (iter_file h).mpr ⟨f, hfl, rfl⟩, i, g1, g3, g2, g4, g5, rfl, rfl, rfl, rfl⟩).1
      obtain ⟨e, hm, x, hx, hf⟩ := up _ hi
      rw [fullWarning_of h hfl] at hf
      have hx' : x = w' := (Outcome.ok.inj hf).symm.trans he.symm
      exact ⟨⟨e, hm, hx' ▸ hx⟩, hk⟩
  · obtain ⟨w, hi, -, hf⟩ := down e he w' hw'
    have hkw := hkind w w' hf
    rw [hkw.1] at hk
    obtain ⟨e1, e2, e3, e4, e5⟩ := hc.yanked w hi hk
    rw [hkw.2]
    refine ⟨?_, e4, e5⟩
    unfold fullWarning at hf
    simp only [e1] at hf
    cases hf
    cases w
    cases hk; cases e2; cases e3
    rfl
  · obtain ⟨w, hi, hk, hn, hv⟩ := hc.allYanked p hp hs
    obtain ⟨e, he, w', hw', hf⟩ := up w hi
    obtain ⟨q1, q2⟩ := hkind w w' hf
    exact ⟨e, he, w', hw', q1.trans hk, by rw [q2]; exact hn, by rw [q2]; exact hv⟩

end

end Verif.Props
