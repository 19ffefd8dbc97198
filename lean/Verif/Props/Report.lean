import Verif.Model.Report
import Verif.Props.Database

/-! # C15-C17: reports -/

namespace Verif.Props

open Verif.Semver Verif.Osv Verif.Lock Verif.Adv Verif.Db Verif.Rep Verif.Spec

/-- The pair (package, advisory) is something the settings ask about, informational or not according to `b`. -/
def Applies (s : Settings) (b : Bool) (p : Package) (a : Advisory) : Prop :=
  FromCratesIo p ∧ a.metadata.package = p.name ∧ Exposed a p.version ∧ SameRegistry a p ∧
  a.metadata.collection = some .crates ∧ a.metadata.withdrawn = none ∧
  (b = true ↔ a.metadata.informational ≠ none) ∧
  (∀ th sev, s.severity = some th → a.metadata.severity = some sev → th.rank ≤ sev.rank) ∧
  (∀ af, a.affected = some af → af.arch = [] ∨ s.targetArch = [] ∨ ∃ x ∈ s.targetArch, x ∈ af.arch) ∧
  (∀ af, a.affected = some af → af.os = [] ∨ s.targetOs = [] ∨ ∃ x ∈ s.targetOs, x ∈ af.os)

theorem settings_query_holds (s : Settings) (b : Bool) (a : Advisory) :
    QueryHolds { s.query with informational := some b, packageName := none, packageVersion := none, packageSource := none } a ↔
    a.metadata.collection = some .crates ∧ a.metadata.withdrawn = none ∧
    (b = true ↔ a.metadata.informational ≠ none) ∧
    (∀ th sev, s.severity = some th → a.metadata.severity = some sev → th.rank ≤ sev.rank) ∧
    (∀ af, a.affected = some af → af.arch = [] ∨ s.targetArch = [] ∨ ∃ x ∈ s.targetArch, x ∈ af.arch) ∧
    (∀ af, a.affected = some af → af.os = [] ∨ s.targetOs = [] ∨ ∃ x ∈ s.targetOs, x ∈ af.os) := by
  have e : { s.query with informational := some b, packageName := none, packageVersion := none, packageSource := none } =
      ({ collection := some .crates, withdrawn := some false, informational := some b, targetArch := s.targetArch,
         targetOs := s.targetOs, severity := s.severity } : Query) := by
    unfold Settings.query Query.crateScope Query.new
    cases s.severity <;> rfl
  rw [e]
  constructor
  · intro h
    refine ⟨h.collection _ rfl, ?_, h.informational b rfl, h.severity, h.arch, h.os⟩
    have := h.withdrawn false rfl; simpa using this
  · rintro ⟨h1, h2, h3, h4, h5, h6⟩
    refine ⟨?_, nofun, nofun, nofun, h4, h5, h6, nofun, ?_, ?_⟩
    · intro c hc; cases hc; exact h1
    · intro b hb; cases hb; simp [h2]
    · intro b' hb; cases hb; exact h3

theorem settings_scan (t : Tree) (db : Database) (h : Database.open t = .ok db)
    (hval : ∀ a ∈ db.iter, Validated a) (packages : List Package) (s : Settings) (b : Bool) :
    ∃ vs, db.queryVulnerabilities packages { s.query with informational := some b } = some vs ∧
      ∀ v, v ∈ vs ↔ ∃ p ∈ packages, ∃ a ∈ db.iter, v = Vulnerability.new a p ∧ Applies s b p a := by
  obtain ⟨vs, h1, h2⟩ := C13_scan_sound_complete t db h hval packages { s.query with informational := some b }
  refine ⟨vs, h1, fun v => ?_⟩
  rw [h2 v]
  have := settings_query_holds s b
  simp only [this, Applies]

theorem query_informational_false (s : Settings) : { s.query with informational := some false } = s.query := by
  unfold Settings.query Query.crateScope Query.new
  cases s.severity <;> rfl

/-- `out` has unique keys, warnings filed under their kind, and adds to `acc` what `vs` calls for. -/
def Collected (s : Settings) (vs : List Vulnerability) (acc out : WarningInfo) : Prop :=
  (out.map Prod.fst).Nodup ∧
  (∀ k ws, (k, ws) ∈ out → ws ≠ [] ∧ ∀ w ∈ ws, w.kind = k) ∧
  ∀ w, (∃ k ws, (k, ws) ∈ out ∧ w ∈ ws) ↔ (∃ k ws, (k, ws) ∈ acc ∧ w ∈ ws) ∨
    ∃ v ∈ vs, ∃ i k, v.advisory.informational = some i ∧ i.warningKind = some k ∧
      v.advisory.id ∉ s.ignore ∧ i ∈ s.informationalWarnings ∧
      w = { kind := k, package := v.package, advisory := some v.advisory, affected := v.affected,
            versions := some v.versions }

/-- `find_warnings`' fold never panics on informational matches, and collects exactly the wanted ones. -/
theorem warn_fold (s : Settings) : ∀ (vs : List Vulnerability) (acc : WarningInfo),
    (∀ v ∈ vs, v.advisory.informational ≠ none) →
    (acc.map Prod.fst).Nodup → (∀ k ws, (k, ws) ∈ acc → ws ≠ [] ∧ ∀ w ∈ ws, w.kind = k) →
    ∃ out, vs.foldlM (warnStep s) acc = some out ∧ Collected s vs acc out := by
  intro vs
  induction vs with
  | nil => intro acc _ h1 h2; exact ⟨acc, rfl, h1, h2, by simp⟩
  | cons v vs ih =>
    intro acc hinf h1 h2
    have hmem : ∀ (w : Warning) (acc : WarningInfo) (w' : Warning),
        (∃ k ws, (k, ws) ∈ acc.push w ∧ w' ∈ ws) ↔ (∃ k ws, (k, ws) ∈ acc ∧ w' ∈ ws) ∨ w' = w := by
      intro w acc w'
      induction acc with
      | nil => simp [WarningInfo.push]
      | cons x r ihr =>
        obtain ⟨k, ws⟩ := x
        unfold WarningInfo.push
        split
        · constructor
          · rintro ⟨k', ws', hm, hw⟩
            rcases List.mem_cons.mp hm with e | hm
            · cases e
              rcases List.mem_append.mp hw with hw | hw
              · exact Or.inl ⟨k, ws, by simp, hw⟩
              · exact Or.inr (by simpa using hw)
            · exact Or.inl ⟨k', ws', by simp [hm], hw⟩
          · rintro (⟨k', ws', hm, hw⟩ | rfl)
            · rcases List.mem_cons.mp hm with e | hm
              · cases e; exact ⟨k, ws ++ [w], by simp, by simp [hw]⟩
              · exact ⟨k', ws', by simp [hm], hw⟩
            · exact ⟨k, ws ++ [w'], by simp, by simp⟩
        · constructor
          · rintro ⟨k', ws', hm, hw⟩
            rcases List.mem_cons.mp hm with e | hm
            · cases e; exact Or.inl ⟨k, ws, by simp, hw⟩
            · rcases ihr.mp ⟨k', ws', hm, hw⟩ with ⟨k2, ws2, h, h'⟩ | h
              · exact Or.inl ⟨k2, ws2, by simp [h], h'⟩
              · exact Or.inr h
          · rintro (⟨k', ws', hm, hw⟩ | rfl)
            · rcases List.mem_cons.mp hm with e | hm
              · cases e; exact ⟨k, ws, by simp, hw⟩
              · obtain ⟨k2, ws2, h, h'⟩ := ihr.mpr (Or.inl ⟨k', ws', hm, hw⟩)
                exact ⟨k2, ws2, by simp [h], h'⟩
            · obtain ⟨k2, ws2, h, h'⟩ := ihr.mpr (Or.inr rfl)
              exact ⟨k2, ws2, by simp [h], h'⟩
    have hkeys : ∀ (w : Warning) (acc : WarningInfo) (k : WarningKind),
        k ∈ (acc.push w).map Prod.fst ↔ k ∈ acc.map Prod.fst ∨ k = w.kind := by
      intro w acc k
      induction acc with
      | nil => simp [WarningInfo.push]
      | cons x r ihr =>
        obtain ⟨k', ws⟩ := x
        unfold WarningInfo.push
        split
        · rename_i h; subst h; simp; grind
        · simp only [List.map_cons, List.mem_cons, ihr]; grind
    have hnd : ∀ (w : Warning) (acc : WarningInfo), (acc.map Prod.fst).Nodup → ((acc.push w).map Prod.fst).Nodup := by
      intro w acc
      induction acc with
      | nil => simp [WarningInfo.push]
      | cons x r ihr =>
        obtain ⟨k', ws⟩ := x
        intro hn
        unfold WarningInfo.push
        split
        · simpa using hn
        · rename_i hne
          simp only [List.map_cons, List.nodup_cons] at hn ⊢
          refine ⟨?_, ihr hn.2⟩
          rw [hkeys]
          rintro (h | h)
          · exact hn.1 h
          · exact hne h
    have hkind : ∀ (w : Warning) (acc : WarningInfo), (∀ k ws, (k, ws) ∈ acc → ws ≠ [] ∧ ∀ w ∈ ws, w.kind = k) →
        ∀ k ws, (k, ws) ∈ acc.push w → ws ≠ [] ∧ ∀ w ∈ ws, w.kind = k := by
      intro w acc
      induction acc with
      | nil => intro _ k ws hm; simp [WarningInfo.push] at hm; simp [hm]
      | cons x r ihr =>
        obtain ⟨k', ws'⟩ := x
        intro h k ws hm
        unfold WarningInfo.push at hm
        split at hm
        · rename_i he
          rcases List.mem_cons.mp hm with e | hm
          · cases e
            refine ⟨by simp, fun w' hw' => ?_⟩
            rcases List.mem_append.mp hw' with hw' | hw'
            · exact (h k' ws' (by simp)).2 w' hw'
            · simp only [List.mem_singleton] at hw'; rw [hw', he]
          · exact h k ws (by simp [hm])
        · rcases List.mem_cons.mp hm with e | hm
          · cases e; exact h k' ws' (by simp)
          · exact ihr (fun k ws hm => h k ws (by simp [hm])) k ws hm
    -- one step
    have hinf' : ∀ u ∈ vs, u.advisory.informational ≠ none := fun u hu => hinf u (by simp [hu])
    rw [List.foldlM_cons]
    have skip : ∀ (hstep : warnStep s acc v = some acc)
        (hno : ¬ ∃ i k, v.advisory.informational = some i ∧ i.warningKind = some k ∧ v.advisory.id ∉ s.ignore ∧
          i ∈ s.informationalWarnings),
        ∃ out, (warnStep s acc v >>= fun a => vs.foldlM (warnStep s) a) = some out ∧
          Collected s (v :: vs) acc out := fun hstep hno => by
      obtain ⟨out, o1, o2, o3, o4⟩ := ih acc hinf' h1 h2
      refine ⟨out, ?_, o2, o3, fun w => ?_⟩
      · rw [hstep]; exact o1
      · rw [o4 w]
        apply or_congr Iff.rfl
        constructor
        · rintro ⟨u, hu, r⟩; exact ⟨u, by simp [hu], r⟩
        · rintro ⟨u, hu, i, k, a1, a2, a3, a4, a5⟩
          rcases List.mem_cons.mp hu with rfl | hu
          · exact absurd ⟨i, k, a1, a2, a3, a4⟩ hno
          · exact ⟨u, hu, i, k, a1, a2, a3, a4, a5⟩
    by_cases hig : v.advisory.id ∈ s.ignore
    · exact skip (by simp [warnStep, hig]) (by rintro ⟨_, _, -, -, h, -⟩; exact h hig)
    · cases hi : v.advisory.informational with
      | none => exact absurd hi (hinf v (by simp))
      | some i =>
        by_cases hal : i ∈ s.informationalWarnings
        · cases hk : i.warningKind with
          | none =>
            refine skip ?_ (by rintro ⟨i', k', h1, h2, -⟩; rw [hi] at h1; cases h1; rw [hk] at h2; cases h2)
            simp [warnStep, hi, hk]
          | some k =>
            obtain ⟨out, o1, o2, o3, o4⟩ := ih _ hinf' (hnd { kind := k, package := v.package, advisory := some v.advisory, affected := v.affected, versions := some v.versions } acc h1) (hkind _ acc h2)
            refine ⟨out, ?_, o2, o3, fun w => ?_⟩
            · have : warnStep s acc v = some (acc.push { kind := k, package := v.package, advisory := some v.advisory, affected := v.affected, versions := some v.versions }) := by
                simp [warnStep, hig, hi, hk]
                exact fun h => absurd rfl (h i hal)
              rw [this]; exact o1
            · rw [o4 w, hmem]
              constructor
              · rintro ((h | h) | ⟨u, hu, r⟩)
                · exact Or.inl h
                · exact Or.inr ⟨v, by simp, i, k, hi, hk, hig, hal, h⟩
                · exact Or.inr ⟨u, by simp [hu], r⟩
              · rintro (h | ⟨u, hu, i', k', a1, a2, a3, a4, a5⟩)
                · exact Or.inl (Or.inl h)
                · rcases List.mem_cons.mp hu with rfl | hu
                  · rw [hi] at a1; cases a1; rw [hk] at a2; cases a2
                    exact Or.inl (Or.inr a5)
                  · exact Or.inr ⟨u, hu, i', k', a1, a2, a3, a4, a5⟩
        · refine skip ?_ (by rintro ⟨i', k', h1, -, -, h4⟩; rw [hi] at h1; cases h1; exact hal h4)
          have : s.informationalWarnings.any (fun j => decide (some j = some i)) = false := by
            rw [List.any_eq_false]
            intro j hj; simp; rintro rfl; exact hal hj
          simp [warnStep, hi]
          intro _ h; exact absurd h hal

/-- **C15.** `Report::generate` does not panic; a vulnerability is listed iff it applies to a locked package
under the settings, is not informational, and its ID is not ignored; `count` is the length of the list and
`found` says whether it is non-empty. -/
theorem C15_vulnerability_list (t : Tree) (db : Database) (h : Database.open t = .ok db)
    (hval : ∀ a ∈ db.iter, Validated a) (packages : List Package) (s : Settings) :
    ∃ r, Report.generate db packages s = some r ∧ r.settings = s ∧
      (∀ v, v ∈ r.vulnerabilities.list ↔ ∃ p ∈ packages, ∃ a ∈ db.iter, v = Vulnerability.new a p ∧
        Applies s false p a ∧ a.metadata.id ∉ s.ignore) ∧
      r.vulnerabilities.count = r.vulnerabilities.list.length ∧
      (r.vulnerabilities.found = true ↔ 0 < r.vulnerabilities.count) := by
  obtain ⟨vs, e1, m1⟩ := settings_scan t db h hval packages s false
  obtain ⟨ws, e2, m2⟩ := settings_scan t db h hval packages s true
  have hinf : ∀ v ∈ ws, v.advisory.informational ≠ none := by
    intro v hv
    obtain ⟨p, -, a, -, rfl, ha⟩ := (m2 v).mp hv
    exact ha.2.2.2.2.2.2.1.mp rfl
  obtain ⟨out, o1, -⟩ := warn_fold s ws [] hinf (by simp) (by simp)
  rw [query_informational_false] at e1
  refine ⟨⟨s, VulnerabilityInfo.new (vs.filter (fun v => !s.ignore.contains v.advisory.id)), out⟩,
    by rw [Report.generate, e1]; simp only [findWarnings, e2, o1], rfl, ?_, rfl, ?_⟩
  · intro v
    simp only [VulnerabilityInfo.new, List.mem_filter, m1]
    constructor
    · rintro ⟨⟨p, hp, a, ha, rfl, hap⟩, hig⟩
      exact ⟨p, hp, a, ha, rfl, hap, by simpa [Vulnerability.new] using hig⟩
    · rintro ⟨p, hp, a, ha, rfl, hap, hig⟩
      exact ⟨⟨p, hp, a, ha, rfl, hap⟩, by simpa [Vulnerability.new] using hig⟩
  · simp [VulnerabilityInfo.new, List.length_pos_iff]

/-- **C16.** The warnings of a report are grouped by kind (each kind once, no empty group) and are exactly
those of the applicable informational advisories whose category is enabled, is one of notice / unmaintained /
unsound, and whose ID is not ignored. -/
theorem C16_warnings (t : Tree) (db : Database) (h : Database.open t = .ok db)
    (hval : ∀ a ∈ db.iter, Validated a) (packages : List Package) (s : Settings) :
    ∃ r, Report.generate db packages s = some r ∧ (r.warnings.map Prod.fst).Nodup ∧
      (∀ k ws, (k, ws) ∈ r.warnings → ws ≠ [] ∧ ∀ w ∈ ws, w.kind = k) ∧
      ∀ w, (∃ k ws, (k, ws) ∈ r.warnings ∧ w ∈ ws) ↔
        ∃ p ∈ packages, ∃ a ∈ db.iter, ∃ i, Applies s true p a ∧ a.metadata.informational = some i ∧
          i ∈ s.informationalWarnings ∧ a.metadata.id ∉ s.ignore ∧
          ((i = .notice ∧ w.kind = .notice) ∨ (i = .unmaintained ∧ w.kind = .unmaintained) ∨
            (i = .unsound ∧ w.kind = .unsound)) ∧
          w.package = p ∧ w.advisory = some a.metadata ∧ w.affected = a.affected ∧ w.versions = some a.versions := by
  obtain ⟨vs, e1, m1⟩ := settings_scan t db h hval packages s false
  obtain ⟨ws, e2, m2⟩ := settings_scan t db h hval packages s true
  have hinf : ∀ v ∈ ws, v.advisory.informational ≠ none := by
    intro v hv
    obtain ⟨p, -, a, -, rfl, ha⟩ := (m2 v).mp hv
    exact ha.2.2.2.2.2.2.1.mp rfl
  obtain ⟨out, o1, o2, o3, o4⟩ := warn_fold s ws [] hinf (by simp) (by simp)
  rw [query_informational_false] at e1
  refine ⟨⟨s, VulnerabilityInfo.new (vs.filter (fun v => !s.ignore.contains v.advisory.id)), out⟩,
    by rw [Report.generate, e1]; simp only [findWarnings, e2, o1], o2, o3, ?_⟩
  intro w
  rw [o4 w]
  constructor
  · rintro (⟨_, _, h, -⟩ | ⟨v, hv, i, k, hi, hk, hig, hal, rfl⟩)
    · cases h
    · obtain ⟨p, hp, a, ha, rfl, hap⟩ := (m2 v).mp hv
      refine ⟨p, hp, a, ha, i, hap, hi, hal, hig, ?_, rfl, rfl, rfl, rfl⟩
      cases i <;> simp [Informational.warningKind] at hk <;> simp [hk]
  · rintro ⟨p, hp, a, ha, i, hap, hi, hal, hig, hk, h1, h2, h3, h4⟩
    refine Or.inr ⟨Vulnerability.new a p, (m2 _).mpr ⟨p, hp, a, ha, rfl, hap⟩, i, w.kind, hi, ?_, hig, hal, ?_⟩
    · rcases hk with ⟨rfl, h⟩ | ⟨rfl, h⟩ | ⟨rfl, h⟩ <;> rw [h] <;> rfl
    · cases w; simp only [Vulnerability.new] at *; subst h1 h2 h3 h4; rfl

/-- The levels, from the least to the most severe. -/
def severityLevels : List Severity := [.none, .low, .medium, .high, .critical]

/-- **C17 (order).** The comparison used for the threshold is the order of the five levels. -/
theorem C17_order (a b : Severity) : a.rank ≤ b.rank ↔ severityLevels.idxOf a ≤ severityLevels.idxOf b := by
  cases a <;> cases b <;> decide

/-- **C17 (threshold).** With a threshold set, everything reported (vulnerability or warning) either has no CVSS
severity or has at least that severity. -/
theorem C17_threshold (t : Tree) (db : Database) (h : Database.open t = .ok db)
    (hval : ∀ a ∈ db.iter, Validated a) (packages : List Package) (s : Settings) (th : Severity)
    (hth : s.severity = some th) (r : Report) (hr : Report.generate db packages s = some r) :
    (∀ v ∈ r.vulnerabilities.list, ∀ sev, v.advisory.severity = some sev → th.rank ≤ sev.rank) ∧
    (∀ k ws, (k, ws) ∈ r.warnings → ∀ w ∈ ws, ∃ m, w.advisory = some m ∧
      ∀ sev, m.severity = some sev → th.rank ≤ sev.rank) := by
  obtain ⟨r1, g1, -, m1, -⟩ := C15_vulnerability_list t db h hval packages s
  obtain ⟨r2, g2, -, -, m2⟩ := C16_warnings t db h hval packages s
  rw [hr] at g1 g2; cases g1; cases g2
  constructor
  · intro v hv sev hsev
    obtain ⟨p, -, a, -, rfl, hap, -⟩ := (m1 v).mp hv
    exact hap.2.2.2.2.2.2.2.1 th sev hth hsev
  · intro k ws hk w hw
    obtain ⟨p, -, a, -, i, hap, -, -, -, -, -, hadv, -⟩ := (m2 w).mp ⟨k, ws, hk, hw⟩
    exact ⟨a.metadata, hadv, fun sev hsev => hap.2.2.2.2.2.2.2.1 th sev hth hsev⟩

/-- **C17 (monotone).** Raising the threshold (or setting one) never adds a vulnerability. -/
theorem C17_raising_never_adds (t : Tree) (db : Database) (h : Database.open t = .ok db)
    (hval : ∀ a ∈ db.iter, Validated a) (packages : List Package) (s : Settings) (hi : Severity)
    (hle : ∀ lo, s.severity = some lo → lo.rank ≤ hi.rank) (r r' : Report)
    (hr : Report.generate db packages s = some r)
    (hr' : Report.generate db packages { s with severity := some hi } = some r') :
    ∀ v ∈ r'.vulnerabilities.list, v ∈ r.vulnerabilities.list := by
  obtain ⟨r1, g1, -, m1, -⟩ := C15_vulnerability_list t db h hval packages s
  obtain ⟨r2, g2, -, m2, -⟩ := C15_vulnerability_list t db h hval packages { s with severity := some hi }
  rw [hr] at g1; rw [hr'] at g2; cases g1; cases g2
  intro v hv
  obtain ⟨p, hp, a, ha, e, ⟨a1, a2, a3, a4, a5, a6, a7, a8, a9⟩, hig⟩ := (m2 v).mp hv
  refine (m1 v).mpr ⟨p, hp, a, ha, e, ⟨a1, a2, a3, a4, a5, a6, a7, ?_, a9⟩, hig⟩
  intro th sev hth hsev
  exact _root_.le_trans (hle th hth) (a8 hi sev rfl hsev)

/-- Summary of a report on the example checkout. -/
def exRun (s : Settings) : Option (Nat × Bool × List (WarningKind × Nat)) :=
  (Report.generate exDb [exPackage gitIndexSource] s).map
    (fun r => (r.vulnerabilities.count, r.vulnerabilities.found, r.warnings.map (fun x => (x.1, x.2.length))))

/-- A report on the example checkout: one vulnerability and one warning, then each ignored in turn, then the
vulnerability below the threshold. -/
example :
    exRun { informationalWarnings := [.unmaintained] } = some (1, true, [(.unmaintained, 1)]) ∧
    exRun { informationalWarnings := [.unmaintained], ignore := [exAdvisory.metadata.id] } =
      some (0, false, [(.unmaintained, 1)]) ∧
    exRun { informationalWarnings := [.unmaintained], ignore := [exInformational.metadata.id] } =
      some (1, true, []) ∧
    exRun {} = some (1, true, []) ∧
    exRun { severity := some .high } = some (1, true, []) ∧
    exRun { severity := some .critical } = some (0, false, []) :=
  ⟨by decide +kernel, by decide +kernel, by decide +kernel, by decide +kernel, by decide +kernel, by decide +kernel⟩

end Verif.Props
