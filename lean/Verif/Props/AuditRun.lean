import Verif.Props.Audit
import Verif.Props.ReportOnce

/-!
# Theorems: a run of `cargo audit` (C43, C65)
-/

namespace Verif.Props

open Verif.Audit Verif.Adv Verif.Lock Verif.Semver Verif.Rep Verif.Bin Verif.Spec Verif.Yank

/-! ## Lemmas -/

theorem applies_concerned (c : AuditConfig) (b : Bool) (p : Package) (a : Advisory) :
    (Applies c.reportSettings b p a ∧ a.metadata.id ∉ c.reportSettings.ignore) ↔
      Concerned c p a ∧ (b = true ↔ a.metadata.informational ≠ none) := by
  unfold Applies
  constructor
  · rintro ⟨⟨h1, h2, h3, h4, h5, h6, h7, h8, h9, h10⟩, h11⟩
    exact ⟨⟨h1, h2, h3, h4, h5, h6, h8, h9, h10, h11⟩, h7⟩
  · rintro ⟨⟨h1, h2, h3, h4, h5, h6, h8, h9, h10, h11⟩, h7⟩
    exact ⟨⟨h1, h2, h3, h4, h5, h6, h7, h8, h9, h10⟩, h11⟩

open Classical in
/-- The report before the yanked packages are added. -/
theorem generated_report (t : Db.Tree) (db : Db.Database) (h : Db.Database.open t = .ok db)
    (hval : ∀ a ∈ db.iter, Validated a) (c : AuditConfig) (l : Lockfile) (format : Option BinaryFormat) :
    ∃ r0 r, Report.generate db l.packages c.reportSettings = some r0 ∧
      filterFor format r0 = some r ∧
      (∀ v, v ∈ r.vulnerabilities.list ↔ ∃ p ∈ l.packages, ∃ a ∈ db.iter, v = Vulnerability.new a p ∧
        Concerned c p a ∧ a.metadata.informational = none ∧ Relevant format a) ∧
      r.vulnerabilities.count = r.vulnerabilities.list.length ∧
      (r.vulnerabilities.found = true ↔ r.vulnerabilities.list ≠ []) ∧
      (r.warnings.map Prod.fst).Nodup ∧
      (∀ k ws, (k, ws) ∈ r.warnings → ∀ w ∈ ws, w.kind = k) ∧
      (∀ w, InReport r w ↔ ∃ p ∈ l.packages, ∃ a ∈ db.iter, ∃ i,
        Concerned c p a ∧ a.metadata.informational = some i ∧ Relevant format a ∧ Enabled c i ∧ WarnsAs i w.kind ∧
        w.package = p ∧ w.advisory = some a.metadata ∧ w.affected = a.affected ∧ w.versions = some a.versions) ∧
      r.settings = c.reportSettings ∧
      (l.packages.Nodup → r.vulnerabilities.list.Nodup ∧ ∀ k ws, (k, ws) ∈ r.warnings → ws.Nodup) := by
  obtain ⟨r0, g0, gs, m0, c0, f0⟩ := C15_vulnerability_list t db h hval l.packages c.reportSettings
  obtain ⟨r0', g0', kn, kf, kw⟩ := C16_warnings t db h hval l.packages c.reportSettings
  rw [g0] at g0'; cases g0'
  have hm0 : ∀ v, v ∈ r0.vulnerabilities.list ↔ ∃ p ∈ l.packages, ∃ a ∈ db.iter, v = Vulnerability.new a p ∧
        Concerned c p a ∧ a.metadata.informational = none := by
    intro v
    rw [m0]
    simp only [applies_concerned, Bool.false_eq_true, false_iff, ne_eq, not_not]
  have hw0 : ∀ w, InReport r0 w ↔ ∃ p ∈ l.packages, ∃ a ∈ db.iter, ∃ i,
        Concerned c p a ∧ a.metadata.informational = some i ∧ Enabled c i ∧ WarnsAs i w.kind ∧
        w.package = p ∧ w.advisory = some a.metadata ∧ w.affected = a.affected ∧ w.versions = some a.versions := by
    intro w
    have hk : ∀ i : Informational, ((i = .notice ∧ w.kind = .notice) ∨ (i = .unmaintained ∧ w.kind = .unmaintained) ∨
            (i = .unsound ∧ w.kind = .unsound)) ↔ WarnsAs i w.kind := by
      intro i
      constructor
      · rintro (⟨rfl, e⟩ | ⟨rfl, e⟩ | ⟨rfl, e⟩) <;> rw [e] <;> constructor
      · intro h; cases hk : w.kind <;> rw [hk] at h <;> cases h <;> simp
    have hen : ∀ i, i ∈ c.reportSettings.informationalWarnings ↔ Enabled c i := (C44_report_settings c).2.2.2.2
    rw [InReport, kw]
    refine exists_congr fun p => and_congr_right fun _ => exists_congr fun a => and_congr_right fun _ =>
      exists_congr fun i => ?_
    rw [hk, hen]
    have := applies_concerned c true p a
    constructor
    · rintro ⟨h1, h2, h3, h4, h5⟩
      exact ⟨(this.mp ⟨h1, h4⟩).1, h2, h3, h5⟩
    · rintro ⟨h1, h2, h3, h5⟩
      obtain ⟨g1, g2⟩ := this.mpr ⟨h1, by simp [h2]⟩
      exact ⟨g1, h2, h3, g2, h5⟩
  have honce : l.packages.Nodup → r0.vulnerabilities.list.Nodup ∧ ∀ k ws, (k, ws) ∈ r0.warnings → ws.Nodup := by
    intro hn
    obtain ⟨n1, n2⟩ := C15_once t db h l.packages hn c.reportSettings r0 g0
    exact ⟨n1, fun k ws hk => (List.nodup_flatMap.mp n2).1 (k, ws) hk⟩
  cases format with
  | none =>
    refine ⟨r0, r0, g0, rfl, ?_, c0, ?_, kn, fun k ws hk => (kf k ws hk).2, ?_, gs, honce⟩
    · intro v; rw [hm0]; simp [Relevant]
    · rw [f0, c0, List.length_pos_iff]
    · intro w; rw [hw0]; simp [Relevant]
  | some f =>
    obtain ⟨r, hr, h1, h2, h3, h4, h5, -⟩ := C47_filter f r0 c0
    refine ⟨r0, r, g0, hr, ?_, h2, h3, ?_, ?_, ?_, h5.trans gs, fun hn => ⟨?_, fun k ws hk => ?_⟩⟩
    rotate_right 2
    · rw [h1]; exact (honce hn).1.filter _
    · rw [h4, List.mem_map] at hk
      obtain ⟨⟨k', ws'⟩, hm, e⟩ := hk
      cases e
      exact ((honce hn).2 _ _ hm).filter _
    · intro v
      rw [h1, List.mem_filter, hm0, decide_eq_true_iff]
      constructor
      · rintro ⟨⟨p, hp, a, ha, rfl, hc, hi⟩, hf⟩
        exact ⟨p, hp, a, ha, rfl, hc, hi, by intro f' hf'; cases hf'; exact hf⟩
      · rintro ⟨p, hp, a, ha, rfl, hc, hi, hf⟩
        exact ⟨⟨p, hp, a, ha, rfl, hc, hi⟩, hf f rfl⟩
    · rw [h4, List.map_map]; exact kn
    · intro k ws hk w hw
      rw [h4, List.mem_map] at hk
      obtain ⟨⟨k', ws'⟩, hm, e⟩ := hk
      cases e
      exact (kf _ _ hm).2 w (List.mem_of_mem_filter hw)
    · intro w
      have : InReport r w ↔ InReport r0 w ∧ Concerns f w.affected := by
        unfold InReport
        rw [h4]
        constructor
        · rintro ⟨k, ws, hk, hw⟩
          rw [List.mem_map] at hk
          obtain ⟨⟨k', ws'⟩, hm, e⟩ := hk
          cases e
          rw [List.mem_filter, decide_eq_true_iff] at hw
          exact ⟨⟨_, _, hm, hw.1⟩, hw.2⟩
        · rintro ⟨⟨k, ws, hk, hw⟩, hc⟩
          refine ⟨k, _, List.mem_map.mpr ⟨(k, ws), hk, rfl⟩, ?_⟩
          rw [List.mem_filter, decide_eq_true_iff]
          exact ⟨hw, hc⟩
      rw [this, hw0]
      constructor
      · rintro ⟨⟨p, hp, a, ha, i, q1, q2, q3, q4, q5, q6, q7, q8⟩, hc⟩
        refine ⟨p, hp, a, ha, i, q1, q2, ?_, q3, q4, q5, q6, q7, q8⟩
        intro f' hf'; cases hf'; rw [← q7]; exact hc
      · rintro ⟨p, hp, a, ha, i, q1, q2, qr, q3, q4, q5, q6, q7, q8⟩
        exact ⟨⟨p, hp, a, ha, i, q1, q2, q3, q4, q5, q6, q7, q8⟩, by rw [q7]; exact qr f rfl⟩

theorem appendYanked_other {ws : List Warning} {w : WarningInfo} {k : WarningKind} {l : List Warning}
    (h : (k, l) ∈ appendYanked ws w) (hk : k ≠ .yanked) : (k, l) ∈ w := by
  induction w with
  | nil =>
    rcases List.mem_singleton.mp h
    exact absurd rfl hk
  | cons e r ih =>
    obtain ⟨k', l'⟩ := e
    unfold appendYanked at h
    split at h
    · rename_i he
      rcases List.mem_cons.mp h with e | h
      · cases e; exact absurd he hk
      · exact List.mem_cons_of_mem _ h
    · rcases List.mem_cons.mp h with e | h
      · cases e; exact List.mem_cons_self
      · exact List.mem_cons_of_mem _ (ih h)

theorem appendYanked_spec (ws : List Warning) (w : WarningInfo) (hn : (w.map Prod.fst).Nodup)
    (hf : ∀ k l, (k, l) ∈ w → ∀ x ∈ l, x.kind = k) (hy : ∀ x ∈ ws, x.kind = .yanked) :
    ((appendYanked ws w).map Prod.fst).Nodup ∧
    (∀ k l, (k, l) ∈ appendYanked ws w → ∀ x ∈ l, x.kind = k) ∧
    (∀ k, k ∈ (appendYanked ws w).map Prod.fst ↔ k = .yanked ∨ k ∈ w.map Prod.fst) ∧
    ∀ x, (∃ k l, (k, l) ∈ appendYanked ws w ∧ x ∈ l) ↔ (∃ k l, (k, l) ∈ w ∧ x ∈ l) ∨ x ∈ ws := by
  induction w with
  | nil => 
    refine ⟨by simp [appendYanked], ?_, by simp [appendYanked], by simp [appendYanked]⟩
    intro k l h x hx
    simp only [appendYanked, List.mem_singleton, Prod.mk.injEq] at h
    obtain ⟨rfl, rfl⟩ := h
    exact hy x hx
  | cons e w ih =>
    obtain ⟨k0, l0⟩ := e
    rw [List.map_cons, List.nodup_cons] at hn
    obtain ⟨i1, i2, i3, i4⟩ := ih hn.2 (fun k l h => hf k l (by simp [h]))
    unfold appendYanked
    by_cases hk : k0 = .yanked
    · rw [if_pos hk]
      refine ⟨by rw [List.map_cons, List.nodup_cons]; exact hn, ?_, ?_, ?_⟩
      · intro k l h x hx
        rcases List.mem_cons.mp h with h | h
        · cases h
          rcases List.mem_append.mp hx with hx | hx
          · exact hf k0 l0 (by simp) x hx
          · rw [hy x hx, hk]
        · exact hf k l (by simp [h]) x hx
      · intro k; simp only [List.map_cons, List.mem_cons]; grind
      · intro x
        constructor
        · rintro ⟨k, l, h, hx⟩
          rcases List.mem_cons.mp h with h | h
          · cases h
            rcases List.mem_append.mp hx with hx | hx
            · exact Or.inl ⟨k0, l0, by simp, hx⟩
            · exact Or.inr hx
          · exact Or.inl ⟨k, l, by simp [h], hx⟩
        · rintro (⟨k, l, h, hx⟩ | hx)
          · rcases List.mem_cons.mp h with h | h
            · cases h; exact ⟨k0, l0 ++ ws, by simp, by simp [hx]⟩
            · exact ⟨k, l, by simp [h], hx⟩
          · exact ⟨k0, l0 ++ ws, by simp, by simp [hx]⟩
    · rw [if_neg hk]
      refine ⟨?_, ?_, ?_, ?_⟩
      · rw [List.map_cons, List.nodup_cons]
        refine ⟨?_, i1⟩
        rw [i3]; rintro (h | h)
        · exact hk h
        · exact hn.1 h
      · intro k l h x hx
        rcases List.mem_cons.mp h with h | h
        · cases h; exact hf k0 l0 (by simp) x hx
        · exact i2 k l h x hx
      · intro k; simp only [List.map_cons, List.mem_cons, i3]; grind
      · intro x
        constructor
        · rintro ⟨k, l, h, hx⟩
          rcases List.mem_cons.mp h with h | h
          · cases h; exact Or.inl ⟨k0, l0, by simp, hx⟩
          · rcases (i4 x).mp ⟨k, l, h, hx⟩ with ⟨k, l, h, hx⟩ | hx
            · exact Or.inl ⟨k, l, by simp [h], hx⟩
            · exact Or.inr hx
        · rintro (⟨k, l, h, hx⟩ | hx)
          · rcases List.mem_cons.mp h with h | h
            · cases h; exact ⟨k0, l0, by simp, hx⟩
            · obtain ⟨k, l, h, hx⟩ := (i4 x).mpr (Or.inl ⟨k, l, h, hx⟩)
              exact ⟨k, l, by simp [h], hx⟩
          · obtain ⟨k, l, h, hx⟩ := (i4 x).mpr (Or.inr hx)
            exact ⟨k, l, by simp [h], hx⟩

/-- What stays true of the auditor from one binary to the next. -/
structure Ready (env : Env) (c : AuditConfig) (db : Db.Database) (a : Auditor) : Prop where
  database : a.database = db
  settings : a.settings = c.reportSettings
  denyKinds : a.presenter.denyKinds = c.output.deny.flatMap DenyOption.warningKinds
  config : a.presenter.config = c.output
  displayed : ∀ d ∈ a.presenter.displayed, DepOk d
  noIndex : a.index = none → ¬ ∃ kind, IndexUsed env c kind
  index : ∀ ci, a.index = some ci → ∃ kind h, IndexUsed env c kind ∧ (∀ x ∈ h, x.1 = env.registry) ∧
    ci = CachedIndex.run env.codec ⟨kind, []⟩ h

theorem indexUsed_unique {env : Env} {c : AuditConfig} {k k' : IndexKind} (h : IndexUsed env c k)
    (h' : IndexUsed env c k') : k = k' := by
  obtain ⟨-, h | h⟩ := h <;> obtain ⟨-, h' | h'⟩ := h'
  · rw [h.2.2, h'.2.2]
  · exact absurd h.1 h'.1
  · exact absurd h'.1 h.1
  · rw [h.2.2, h'.2.2]

theorem openRegistry_spec (env : Env) (c : AuditConfig) :
    (env.openRegistry c = none → ¬ ∃ kind, IndexUsed env c kind) ∧
    ∀ ci, env.openRegistry c = some ci → ∃ kind, IndexUsed env c kind ∧ ci = ⟨kind, []⟩ := by
  unfold Env.openRegistry IndexUsed
  cases he : c.yanked.enabled
  · simp
  · by_cases hu : c.yanked.updateIndex = true ∧ c.database.fetch = true
    · rw [if_pos rfl, if_pos (by simpa using hu)]
      cases hf : env.fetchIndex <;> simp [hu]
    · rw [if_pos rfl, if_neg (by simpa using hu)]
      cases hf : env.openIndex <;> simp [hu]

theorem run_append (C : Codec) (ci : CachedIndex) (h : List (Registry × List Package)) (w : Registry) (ps : List Package) :
    CachedIndex.run C ci (h ++ [(w, ps)]) = ((CachedIndex.run C ci h).findYanked C w ps).1 := by
  induction h generalizing ci with
  | nil => rfl
  | cons x h ih => obtain ⟨w', ps'⟩ := x; exact ih _

theorem checkYanked_spec (env : Env) (c : AuditConfig) (db : Db.Database) (a : Auditor) (ha : Ready env c db a)
    (l : Lockfile) :
    ∃ i, (a.checkYanked env l).1 = { a with index := i } ∧ Ready env c db { a with index := i } ∧
      (∀ w ∈ (a.checkYanked env l).2, w.kind = .yanked ∧ w.advisory = none ∧ w.affected = none ∧ w.versions = none ∧
        w.package ∈ l.packages ∧ SaidYanked env c w.package) ∧
      (∀ p ∈ l.packages, SaidYanked env c p → ∃ w ∈ (a.checkYanked env l).2, w.package.name = p.name ∧
        w.package.version = p.version) := by
  unfold Auditor.checkYanked
  cases hi : a.index with
  | none =>
    have hno := ha.noIndex hi
    have hsame : ({ a with index := none } : Auditor) = a := by
      have : none = a.index := hi.symm
      rw [this]
    refine ⟨none, hsame.symm, ?_, by simp, ?_⟩
    · rw [hsame]; exact ha
    · rintro p - ⟨-, k, hk, -⟩; exact absurd ⟨k, hk⟩ hno
  | some ci =>
    obtain ⟨kind, h, hu, hreg, rfl⟩ := ha.index ci hi
    simp only
    set ps := l.packages.filter fun p => match p.source with | some s => s.isDefaultRegistry | none => false with hps
    have hmem : ∀ p, p ∈ ps ↔ p ∈ l.packages ∧ FromCratesIo p := by
      intro p
      rw [hps, List.mem_filter, ← scanned_iff]
      rfl
    have hconst : ∀ x ∈ h ++ [(env.registry, ps)], ∀ n, answerOf kind x.1 n = answerOf kind env.registry n := by
      intro x hx n
      rcases List.mem_append.mp hx with hx | hx
      · rw [hreg x hx]
      · rw [List.mem_singleton.mp hx]
    have hY := C54_cache_invisible env.codec kind (answerOf kind env.registry) h env.registry ps hconst
    obtain ⟨-, -, hsub, -⟩ := C54_find_yanked env.codec kind h env.registry ps _ rfl
    refine ⟨some _, rfl, ?_, ?_, ?_⟩
    · refine ⟨ha.database, ha.settings, ha.denyKinds, ha.config, ha.displayed, nofun, ?_⟩
      intro ci hci
      cases hci
      refine ⟨kind, h ++ [(env.registry, ps)], hu, ?_, (run_append _ _ _ _ _).symm⟩
      intro x hx
      rcases List.mem_append.mp hx with hx | hx
      · exact hreg x hx
      · rw [List.mem_singleton.mp hx]
    · intro w hw
      rw [List.mem_filterMap] at hw
      obtain ⟨o, ho, hw⟩ := hw
      cases o with
      | err => cases hw
      | panic => cases hw
      | ok q =>
        cases hw
        obtain ⟨-, vs, h1, h2⟩ := (hY q.name q.version).mp ⟨q, ho, rfl, rfl⟩
        have hq := (hmem q).mp (hsub q ho)
        exact ⟨rfl, rfl, rfl, rfl, hq.1, hq.2, kind, hu, vs, h1, h2⟩
    · rintro p hp ⟨hc, k', hk', vs, h1, h2⟩
      rw [indexUsed_unique hk' hu] at h1
      obtain ⟨q, hq, e1, e2⟩ := (hY p.name p.version).mpr ⟨⟨p, (hmem p).mpr ⟨hp, hc⟩, rfl, rfl⟩, vs, h1, h2⟩
      exact ⟨_, List.mem_filterMap.mpr ⟨.ok q, hq, rfl⟩, e1, e2⟩

theorem printReport_total (C : Codec) (c : AuditConfig) (p : Presenter) (hp : p.config = c.output)
    (hd : ∀ d ∈ p.displayed, DepOk d) (r : Report) (l : Lockfile) (hpr : Printable c l)
    (hv : ∀ v ∈ r.vulnerabilities.list, v.package ∈ l.packages)
    (hw : ∀ e ∈ r.warnings, ∀ w ∈ e.2, w.package ∈ l.packages) :
    ∃ p' out, p.printReport C r l = .ok (p', out) ∧ p' = { p with displayed := p'.displayed } ∧
      (∀ d ∈ p'.displayed, DepOk d) ∧ Shows c r out := by
  unfold Presenter.printReport
  cases hf : p.config.format with
  | json => exact ⟨p, _, rfl, rfl, hd, ⟨by rw [← hp]; exact hf, rfl⟩⟩
  | sarif => exact ⟨p, _, rfl, rfl, hd, ⟨by rw [← hp]; exact hf, rfl⟩⟩
  | terminal =>
    rw [hp] at hf
    obtain ⟨hpin, t, ht⟩ := hpr hf
    have hwp : ∀ w ∈ (inOrder r.warnings).flatMap (·.2), w.package ∈ l.packages := by
      intro w hm
      rw [List.mem_flatMap] at hm
      obtain ⟨e, he, hwe⟩ := hm
      unfold inOrder at he
      rw [List.mem_filterMap] at he
      obtain ⟨k, -, hk⟩ := he
      rw [Option.map_eq_some_iff] at hk
      obtain ⟨x, hx, rfl⟩ := hk
      have : (k, x) ∈ r.warnings := by
        obtain ⟨l1, l2, h, -⟩ := List.lookup_eq_some_iff.mp hx
        rw [h]; simp
      exact hw _ this w hwe
    have hfind : ∀ (es : List (Package × (Option Str → Item))) (items : List Item)
        (_ : items.length = es.length) (_ : ∀ (k : Nat) pkg mk, es[k]? = some (pkg, mk) → ∃ tree, items[k]? = some (mk tree))
        (g : (Package × (Option Str → Item)) → Vulnerability ⊕ Warning) (_ : ∀ e ∈ es, ∀ tr, (e.2 tr).finding = g e),
        items.map (·.finding) = es.map g := by
      intro es items h1 h2 g h3
      apply List.ext_getElem?
      intro k
      rw [List.getElem?_map, List.getElem?_map]
      cases hk : es[k]? with
      | none =>
        have : es.length ≤ k := List.getElem?_eq_none_iff.mp hk
        rw [List.getElem?_eq_none_iff.mpr (by omega)]; rfl
      | some e =>
        obtain ⟨pkg, mk⟩ := e
        obtain ⟨tree, g1⟩ := h2 k pkg mk hk
        rw [g1]
        exact congrArg some (h3 _ (List.mem_of_getElem? hk) tree)
    simp only [ht]
    rw [printVulns_eq]
    obtain ⟨p1, i1, e1, s1, d1, n1, t1⟩ := printItems_ok C l hpin t ht (r.vulnerabilities.list.map (vulnEntry p))
      (by intro e he; obtain ⟨v, h, rfl⟩ := List.mem_map.mp he; exact hv v h) p hd
    rw [e1]
    simp only
    rw [printWarnings_eq]
    obtain ⟨p2, i2, e2, s2, d2, n2, t2⟩ := printItems_ok C l hpin t ht
      (((inOrder r.warnings).flatMap (·.2)).map (warnEntry p1))
      (by intro e he; obtain ⟨v, h, rfl⟩ := List.mem_map.mp he; exact hwp v h) p1 d1
    rw [e2]
    refine ⟨p2, _, rfl, ?_, d2, hf, ?_, rfl, ?_⟩
    · rw [s2, s1]
    · rw [List.map_append]
      congr 1
      · have := hfind _ i1 n1 (fun k pkg mk h => (t1 k pkg mk h).imp fun _ h => h.1)
          (fun e => (e.2 none).finding) (by intro e he tr; obtain ⟨v, h, rfl⟩ := List.mem_map.mp he; rfl)
        rw [this, List.map_map]; rfl
      · have := hfind _ i2 n2 (fun k pkg mk h => (t2 k pkg mk h).imp fun _ h => h.1)
          (fun e => (e.2 none).finding) (by intro e he tr; obtain ⟨v, h, rfl⟩ := List.mem_map.mp he; rfl)
        rw [this, List.map_map]; rfl
    · rw [countWarnings_eq]
      simp only
      induction r.warnings with
      | nil => rfl
      | cons e w ih =>
        rw [List.filter_cons, List.filter_cons]
        cases p2.denyKinds.contains e.1 <;> simp only [Bool.not_true, Bool.not_false, if_true, Bool.false_eq_true, if_false,
          List.map_cons, List.sum_cons] <;> omega

theorem audit_core (env : Env) (c : AuditConfig) (t : Db.Tree) (db : Db.Database) (h : Db.Database.open t = .ok db)
    (hval : ∀ a ∈ db.iter, Validated a) (a : Auditor) (ha : Ready env c db a) (l : Lockfile)
    (format : Option BinaryFormat) :
    ∃ r i, Complete env c db l format r ∧ Ready env c db { a with index := i } ∧
      (∀ v ∈ r.vulnerabilities.list, v.package ∈ l.packages) ∧
      (∀ e ∈ r.warnings, ∀ w ∈ e.2, w.package ∈ l.packages) ∧
      (∀ p' : Presenter, p'.denyKinds = a.presenter.denyKinds →
        (p'.shouldExitWithFailure r = true ↔ Fails env c db l format)) ∧
      (∀ p' out, a.presenter.printReport env.codec r l = .ok (p', out) →
        a.audit env l format = .ok ({ a with index := i, presenter := p' }, r, out)) ∧
      ((∀ x, a.presenter.printReport env.codec r l ≠ .ok x) → a.audit env l format = .panic) := by
  obtain ⟨r0, r1, g0, g1, m1, c1, f1, k1, fl1, w1, st1, on1⟩ := generated_report t db h hval c l format
  obtain ⟨i, y1, y2, y3, y4⟩ := checkYanked_spec env c db a ha l
  have hyk : ∀ x ∈ (a.checkYanked env l).2, x.kind = .yanked := fun x hx => (y3 x hx).1
  have hk1 : ∀ w, InReport r1 w → w.kind ≠ .yanked := by
    intro w hw
    obtain ⟨p, -, ad, -, i, -, -, -, -, q, -⟩ := (w1 w).mp hw
    intro e; rw [e] at q; cases q
  set r := if (a.checkYanked env l).2.isEmpty then r1
    else { r1 with warnings := appendYanked (a.checkYanked env l).2 r1.warnings } with hr
  have hrv : r.vulnerabilities = r1.vulnerabilities := by rw [hr]; split <;> rfl
  have hrw : (r.warnings.map Prod.fst).Nodup ∧ (∀ k ws, (k, ws) ∈ r.warnings → ∀ w ∈ ws, w.kind = k) ∧
      ∀ w, InReport r w ↔ InReport r1 w ∨ w ∈ (a.checkYanked env l).2 := by
    rw [hr]
    split
    · rename_i he
      rw [List.isEmpty_iff.mp he]
      exact ⟨k1, fl1, by simp⟩
    · obtain ⟨q1, q2, -, q4⟩ := appendYanked_spec (a.checkYanked env l).2 r1.warnings k1 fl1 hyk
      exact ⟨q1, q2, q4⟩
  have hcomplete : Complete env c db l format r := by
    refine ⟨by rw [hrv]; exact m1, by rw [hrv]; exact c1, by rw [hrv]; exact f1, hrw.1, hrw.2.1, ?_, ?_, ?_, ?_, fun hn => ⟨?_, ?_⟩⟩
    rotate_right 3
    · rw [hr]; split <;> exact st1
    · rw [hrv]; exact (on1 hn).1
    · intro k ws hk hne
      rw [hr] at hk
      split at hk
      · exact (on1 hn).2 k ws hk
      · exact (on1 hn).2 k ws (appendYanked_other hk hne)
    · intro w
      rw [hrw.2.2, ← w1]
      constructor
      · rintro ⟨h | h, hk⟩
        · exact h
        · exact absurd (hyk w h) hk
      · intro h; exact ⟨Or.inl h, hk1 w h⟩
    · intro w hw hk
      rcases (hrw.2.2 w).mp hw with h | h
      · exact absurd hk (hk1 w h)
      · exact (y3 w h).2
    · intro p hp hs
      obtain ⟨w, hw, e1, e2⟩ := y4 p hp hs
      exact ⟨w, (hrw.2.2 w).mpr (Or.inr hw), (y3 w hw).1, e1, e2⟩
  have hpv : ∀ v ∈ r.vulnerabilities.list, v.package ∈ l.packages := by
    intro v hv
    obtain ⟨p, hp, ad, -, rfl, -⟩ := (hcomplete.vulnerabilities v).mp hv
    exact hp
  have hpw : ∀ e ∈ r.warnings, ∀ w ∈ e.2, w.package ∈ l.packages := by
    intro e he w hw
    have hin : InReport r w := ⟨e.1, e.2, he, hw⟩
    by_cases hk : w.kind = .yanked
    · exact (hcomplete.yanked w hin hk).2.2.2.1
    · obtain ⟨p, hp, ad, -, i, -, -, -, -, -, rfl, -⟩ := (hcomplete.advisories w).mp ⟨hin, hk⟩
      exact hp
  refine ⟨r, i, hcomplete, y2, hpv, hpw, ?_, ?_, ?_⟩
  rotate_left
  · intro p' out e1
    unfold Auditor.audit
    rw [ha.database, ha.settings, g0]
    simp only
    rw [g1]
    simp only
    rw [← hr, y1]
    simp only
    rw [e1]
    simp only [ha.database, ha.settings]
  · intro e1
    unfold Auditor.audit
    rw [ha.database, ha.settings, g0]
    simp only
    rw [g1]
    simp only
    rw [← hr, y1]
    simp only
    cases hp : a.presenter.printReport env.codec r l with
    | err => rfl
    | panic => rfl
    | ok x => exact absurd hp (e1 x)
  · intro p' hp'
    rw [shouldExit_iff, hcomplete.found, hp', ha.denyKinds]
    unfold Fails
    simp only [mem_denyKinds]
    have hwarn : (∃ k ws, (k, ws) ∈ r.warnings ∧ ws ≠ [] ∧ Denied c.output.deny k) ↔
        ∃ w, InReport r w ∧ Denied c.output.deny w.kind := by
      constructor
      · rintro ⟨k, ws, h1, h2, h3⟩
        obtain ⟨w, hw⟩ := List.exists_mem_of_ne_nil ws h2
        exact ⟨w, ⟨k, ws, h1, hw⟩, by rw [hcomplete.filed k ws h1 w hw]; exact h3⟩
      · rintro ⟨w, ⟨k, ws, h1, hw⟩, h3⟩
        exact ⟨k, ws, h1, List.ne_nil_of_mem hw, by rw [← hcomplete.filed k ws h1 w hw]; exact h3⟩
    rw [hwarn]
    refine or_congr ?_ ?_
    · constructor
      · intro hne
        obtain ⟨v, hv⟩ := List.exists_mem_of_ne_nil _ hne
        obtain ⟨p, hp, ad, had, -, hc⟩ := (hcomplete.vulnerabilities v).mp hv
        exact ⟨p, hp, ad, had, hc⟩
      · rintro ⟨p, hp, ad, had, hc⟩
        exact List.ne_nil_of_mem ((hcomplete.vulnerabilities _).mpr ⟨p, hp, ad, had, rfl, hc⟩)
    · constructor
      · rintro ⟨w, hw, hd⟩
        by_cases hk : w.kind = .yanked
        · obtain ⟨-, -, -, h1, h2⟩ := hcomplete.yanked w hw hk
          exact Or.inr ⟨by rw [← hk]; exact hd, _, h1, h2⟩
        · obtain ⟨p, hp, ad, had, i, h1, h2, h3, -, h5, -⟩ := (hcomplete.advisories w).mp ⟨hw, hk⟩
          exact Or.inl ⟨p, hp, ad, had, i, w.kind, h1, h2, h3, h5, hd⟩
      · rintro (⟨p, hp, ad, had, i, k, h1, h2, h3, h4, h5⟩ | ⟨hd, p, hp, hs⟩)
        · have hen : Enabled c i := by
            obtain ⟨d, hd, hdk, -⟩ := h5
            exact Or.inr ⟨d, hd, k, hdk, h4⟩
          refine ⟨⟨k, p, some ad.metadata, ad.affected, some ad.versions⟩, ?_, h5⟩
          exact ((hcomplete.advisories _).mpr ⟨p, hp, ad, had, i, h1, h2, h3, hen, h4, rfl, rfl, rfl, rfl⟩).1
        · obtain ⟨w, hw, hk, -⟩ := hcomplete.allYanked p hp hs
          exact ⟨w, hw, by rw [hk]; exact hd⟩

theorem audit_spec (env : Env) (c : AuditConfig) (t : Db.Tree) (db : Db.Database) (h : Db.Database.open t = .ok db)
    (hval : ∀ a ∈ db.iter, Validated a) (a : Auditor) (ha : Ready env c db a) (l : Lockfile)
    (format : Option BinaryFormat) (hpr : Printable c l) :
    ∃ a' r out, a.audit env l format = .ok (a', r, out) ∧ Ready env c db a' ∧
      a'.binaryLimit = a.binaryLimit ∧ a'.auditDataLimit = a.auditDataLimit ∧
      Complete env c db l format r ∧ Shows c r out ∧
      (a'.presenter.shouldExitWithFailure r = true ↔ Fails env c db l format) := by
  obtain ⟨r, i, h1, h2, h3, h4, h5, h6, -⟩ := audit_core env c t db h hval a ha l format
  obtain ⟨p', out, e1, e2, e3, e4⟩ := printReport_total env.codec c a.presenter ha.config ha.displayed r l hpr h3 h4
  refine ⟨_, r, out, h6 p' out e1, ⟨h2.database, h2.settings, ?_, ?_, e3, h2.noIndex, h2.index⟩, rfl, rfl, h1, e4,
    h5 p' (by rw [e2])⟩
  · simp only; rw [e2]; exact ha.denyKinds
  · simp only; rw [e2]; exact ha.config

theorem printItems_same (C : Codec) (t : Lock.Tree) (es : List (Package × (Option Str → Item))) (p p' : Presenter)
    (items : List Item) (h : printItems C t p es = .ok (p', items)) : p' = { p with displayed := p'.displayed } := by
  induction es generalizing p items with
  | nil => cases h; rfl
  | cons e es ih =>
    obtain ⟨pkg, mk⟩ := e
    unfold printItems at h
    cases h1 : p.printTree C pkg t with
    | err => rw [h1] at h; cases h
    | panic => rw [h1] at h; cases h
    | ok x =>
      obtain ⟨p1, tree⟩ := x
      rw [h1] at h
      simp only at h
      cases h2 : printItems C t p1 es with
      | err => rw [h2] at h; cases h
      | panic => rw [h2] at h; cases h
      | ok y =>
        obtain ⟨p2, its⟩ := y
        rw [h2] at h
        cases h
        rw [ih p1 its h2, printTree_same C p p1 pkg t tree h1]

theorem printReport_same (C : Codec) (p p' : Presenter) (r : Report) (l : Lockfile) (out : Printed)
    (h : p.printReport C r l = .ok (p', out)) : p' = { p with displayed := p'.displayed } := by
  unfold Presenter.printReport at h
  split at h
  · cases h; rfl
  · cases h; rfl
  · split at h
    · cases h
    · cases h
    · split at h
      · cases h
      · cases h
      · rename_i h1
        split at h
        · cases h
        · cases h
        · rename_i h2
          cases h
          rw [printVulns_eq] at h1
          rw [printWarnings_eq] at h2
          rw [printItems_same C _ _ _ _ _ h2, printItems_same C _ _ _ _ _ h1]

theorem selfAdvisories_spec (env : Env) (t : Db.Tree) (db : Db.Database) (h : Db.Database.open t = .ok db)
    (hval : ∀ a ∈ db.iter, Validated a) (a : Auditor) (ha : a.database = db) :
    ∃ self, a.selfAdvisories env = some self ∧ (self ≠ [] ↔ HasSelfAdvisory env db) := by
  unfold Auditor.selfAdvisories
  rw [ha, C11_query_eq_scan t db h, C11_query_eq_scan t db h]
  refine ⟨_, rfl, ?_⟩
  have key : ∀ (n : Str) (v : Version) (ad : Advisory), ad ∈ db.iter →
      (({ Db.Query.crateScope with packageName := some n, packageVersion := some v } : Db.Query).matches ad = true ↔
        ad.metadata.collection = some .crates ∧ ad.metadata.withdrawn = none ∧ ad.metadata.informational = none ∧
        ad.metadata.package = n ∧ Exposed ad v) := by
    intro n v ad had
    rw [C12_matches_iff]
    have hex : ad.versions.isVulnerable v = .ok true ↔ Exposed ad v := by
      obtain ⟨b, hb, hiff⟩ := C01_is_vulnerable_iff _ _ _ (hval ad had).1 (hval ad had).2 v
      rw [hb]
      unfold Exposed
      rw [← hiff]
      simp
    constructor
    · intro q
      refine ⟨q.collection _ rfl, ?_, ?_, q.name _ rfl, hex.mp (q.version _ rfl)⟩
      · have := q.withdrawn false rfl; simpa using this
      · have := q.informational false rfl; simpa using this
    · rintro ⟨h1, h2, h3, h4, h5⟩
      refine ⟨?_, ?_, ?_, nofun, nofun, ?_, ?_, nofun, ?_, ?_⟩
      · intro x hx; cases hx; exact h1
      · intro x hx; cases hx; exact h4
      · intro x hx; cases hx; exact hex.mpr h5
      · intro af _; exact Or.inr (Or.inl rfl)
      · intro af _; exact Or.inr (Or.inl rfl)
      · intro x hx; cases hx; simp [h2]
      · intro x hx; cases hx; simp [h3]
  constructor
  · intro hne
    obtain ⟨ad, had⟩ := List.exists_mem_of_ne_nil _ hne
    rcases List.mem_append.mp had with h1 | h1 <;> rw [List.mem_filter] at h1 <;>
      obtain ⟨q1, q2, q3, q4⟩ := (key _ _ ad h1.1).mp h1.2
    · exact ⟨ad, h1.1, q1, q2, q3, Or.inl q4⟩
    · exact ⟨ad, h1.1, q1, q2, q3, Or.inr q4⟩
  · rintro ⟨ad, had, q1, q2, q3, q4 | q4⟩
    · exact List.ne_nil_of_mem (List.mem_append_left _ (List.mem_filter.mpr ⟨had, (key _ _ ad had).mpr ⟨q1, q2, q3, q4⟩⟩))
    · exact List.ne_nil_of_mem (List.mem_append_right _ (List.mem_filter.mpr ⟨had, (key _ _ ad had).mpr ⟨q1, q2, q3, q4⟩⟩))

theorem new_ready (env : Env) (c : AuditConfig) (t : Db.Tree) (hco : env.checkout c = some t) (db : Db.Database)
    (h : Db.Database.open t = .ok db) :
    ∃ a, Auditor.new env c = .ok a ∧ Ready env c db a := by
  unfold Auditor.new
  rw [hco]
  simp only
  rw [h]
  refine ⟨_, rfl, rfl, rfl, rfl, rfl, by simp [Presenter.new], (openRegistry_spec env c).1, ?_⟩
  intro ci hci
  obtain ⟨kind, h1, h2⟩ := (openRegistry_spec env c).2 ci hci
  exact ⟨kind, [], h1, by simp, h2⟩

theorem failureDueToSelf_iff (p : Presenter) (c : AuditConfig) (hp : p.config = c.output) (self : List Advisory) :
    p.failureDueToSelf self = true ↔ DenyOption.warnings ∈ c.output.deny ∧ self ≠ [] := by
  unfold Presenter.failureDueToSelf
  rw [hp, Bool.and_eq_true, List.contains_iff_mem, and_comm]
  cases self <;> simp

/-! ## C43 and C65: a run -/

/-- **C43 and C65.**  When the lockfile is found and read, the advisory database loaded, and (on the terminal) the
dependency tree can be built, the run does not panic.  It prints a report that contains every finding and nothing
else, and exits with status 1 if there is a vulnerability, a warning of a denied kind, or (with `--deny warnings`) an
advisory about the tool itself, and with 0 otherwise. -/
theorem C43_exit_status (env : Env) (cmd : AuditCommand) (c : AuditConfig) (path : Str)
    (hloc : env.locate cmd.file = some path) (t : Db.Tree) (hco : env.checkout c = some t) (db : Db.Database)
    (h : Db.Database.open t = .ok db) (hval : ∀ a ∈ db.iter, Validated a) (l : Lockfile)
    (hl : env.loadLock path = some l) (hpr : Printable c l) :
    ∃ r out n, runAudit env cmd c = (some out, .code n) ∧ Complete env c db l none r ∧ Shows c r out ∧
      (n = 0 ∨ n = 1) ∧
      (n = 1 ↔ Fails env c db l none ∨ (DenyOption.warnings ∈ c.output.deny ∧ HasSelfAdvisory env db)) := by
  obtain ⟨a, e1, ha⟩ := new_ready env c t hco db h
  obtain ⟨a', r, out, e2, ha', -, -, hcomp, hsh, hex⟩ := audit_spec env c t db h hval a ha l none hpr
  obtain ⟨self, e3, hself⟩ := selfAdvisories_spec env t db h hval a' ha'.database
  have hs := failureDueToSelf_iff a'.presenter c ha'.config self
  unfold runAudit
  rw [hloc]
  simp only
  rw [e1]
  simp only
  rw [hl]
  simp only
  rw [e2]
  simp only
  rw [e3]
  by_cases hf : (a'.presenter.shouldExitWithFailure r || a'.presenter.failureDueToSelf self) = true
  · refine ⟨r, out, 1, by simp only [hf, if_true], hcomp, hsh, Or.inr rfl, ?_⟩
    rw [Bool.or_eq_true, hex, hs, hself] at hf
    simp only [true_iff]; exact hf
  · refine ⟨r, out, 0, by simp only [hf]; rfl, hcomp, hsh, Or.inl rfl, ?_⟩
    rw [Bool.or_eq_true, hex, hs, hself] at hf
    exact ⟨fun h => absurd h (by decide), fun h => absurd h hf⟩

/-- **C43, success.**  Whatever the environment answers: if the run exits with status 0, the lockfile was found and
read, the database loaded, and (its advisories being well-formed) there is no vulnerability, no warning of a denied
kind and, with `--deny warnings`, no advisory about the tool. -/
theorem C43_success_sound (env : Env) (cmd : AuditCommand) (c : AuditConfig) (h0 : (runAudit env cmd c).2 = .code 0) :
    ∃ path t db l, env.locate cmd.file = some path ∧ env.checkout c = some t ∧ Db.Database.open t = .ok db ∧
      env.loadLock path = some l ∧
      ((∀ a ∈ db.iter, Validated a) →
        ¬ Fails env c db l none ∧ ¬ (DenyOption.warnings ∈ c.output.deny ∧ HasSelfAdvisory env db)) := by
  cases hloc : env.locate cmd.file with
  | none => unfold runAudit at h0; rw [hloc] at h0; cases h0
  | some path =>
    cases hco : env.checkout c with
    | none =>
      unfold runAudit Auditor.new at h0; rw [hloc] at h0; simp only at h0; rw [hco] at h0; cases h0
    | some t =>
      cases ho : Db.Database.open t with
      | err => unfold runAudit Auditor.new at h0; rw [hloc] at h0; simp only at h0; rw [hco] at h0; simp only at h0; rw [ho] at h0; cases h0
      | panic => unfold runAudit Auditor.new at h0; rw [hloc] at h0; simp only at h0; rw [hco] at h0; simp only at h0; rw [ho] at h0; cases h0
      | ok db =>
        obtain ⟨a, e1, ha⟩ := new_ready env c t hco db ho
        cases hl : env.loadLock path with
        | none =>
          unfold runAudit at h0; rw [hloc] at h0; simp only at h0; rw [e1] at h0; simp only at h0; rw [hl] at h0
          cases h0
        | some l =>
          refine ⟨path, t, db, l, rfl, rfl, ho, hl, fun hval => ?_⟩
          obtain ⟨r, i, h1, h2, h3, h4, h5, h6, h7⟩ := audit_core env c t db ho hval a ha l none
          unfold runAudit at h0; rw [hloc] at h0; simp only at h0; rw [e1] at h0; simp only at h0; rw [hl] at h0
          simp only at h0
          by_cases hp : ∀ x, a.presenter.printReport env.codec r l ≠ .ok x
          · rw [h7 hp] at h0; cases h0
          · push Not at hp
            obtain ⟨⟨p', out⟩, hp⟩ := hp
            have hsame := printReport_same _ _ _ _ _ _ hp
            rw [h6 p' out hp] at h0
            simp only at h0
            obtain ⟨self, e3, hself⟩ := selfAdvisories_spec env t db ho hval { a with index := i, presenter := p' } ha.database
            rw [e3] at h0
            simp only at h0
            have hs := failureDueToSelf_iff p' c (by rw [hsame]; exact ha.config) self
            by_cases hf : (p'.shouldExitWithFailure r || p'.failureDueToSelf self) = true
            · rw [if_pos hf] at h0; cases h0
            · rw [Bool.or_eq_true, h5 p' (by rw [hsame]), hs, hself] at hf
              exact not_or.mp hf

/-- **C43, errors.**  Nothing is printed as a report and the status is not 0 when the lockfile is not found or cannot be
read (2) or the database cannot be fetched or loaded (1). -/
theorem C43_errors (env : Env) (cmd : AuditCommand) (c : AuditConfig) :
    (env.locate cmd.file = none → runAudit env cmd c = (none, .code 2)) ∧
    (∀ path, env.locate cmd.file = some path →
      (env.checkout c = none → runAudit env cmd c = (none, .code 1)) ∧
      (∀ t, env.checkout c = some t → Db.Database.open t = .err → runAudit env cmd c = (none, .code 1)) ∧
      (∀ t db, env.checkout c = some t → Db.Database.open t = .ok db → env.loadLock path = none →
        runAudit env cmd c = (none, .code 2))) := by
  refine ⟨fun h => by unfold runAudit; rw [h], fun path hp => ⟨fun h => ?_, fun t h h' => ?_, fun t db h h' h'' => ?_⟩⟩
  · unfold runAudit Auditor.new; rw [hp]; simp only; rw [h]
  · unfold runAudit Auditor.new; rw [hp]; simp only; rw [h]; simp only; rw [h']
  · unfold runAudit Auditor.new; rw [hp]; simp only; rw [h]; simp only; rw [h']; simp only; rw [h'']

/-! ## C50: the size limit -/

/-- **C50.**  A binary is read whole if it is not larger than the limit, and rejected otherwise (sizes and limits are
`u64`). -/
theorem C50_limit (limit : Nat) (content : List UInt8) (hl : limit < 2 ^ 64) (hc : content.length < 2 ^ 64) :
    readWithLimit limit content = if content.length ≤ limit then some content else none := by
  unfold readWithLimit saturatingSucc
  simp only [List.length_take]
  by_cases h : content.length ≤ limit
  · rw [if_pos h, if_neg (by omega), List.take_of_length_le (by omega)]
  · rw [if_neg h, if_pos (by omega)]

/-- **C50, bounded.**  Never more than one byte beyond the limit is read into memory. -/
theorem C50_bounded_read (limit : Nat) (content b : List UInt8) (h : readWithLimit limit content = some b) :
    b.length ≤ limit ∧ b <+: content := by
  unfold readWithLimit at h
  simp only at h
  split at h
  · cases h
  · cases h
    exact ⟨by omega, List.take_prefix _ _⟩

/-- **C50, unlimited (violation).**  `--max-binary-size` is documented as "0 for unlimited", but with 0 every
non-empty file is rejected, whatever the rest of the run. -/
theorem C50_zero_rejects (content : List UInt8) (h : content ≠ []) : readWithLimit 0 content = none := by
  cases content with
  | nil => exact absurd rfl h
  | cons b bs => simp [readWithLimit, saturatingSucc]

example : readWithLimit 3 [1, 2, 3] = some [1, 2, 3] ∧ readWithLimit 3 [1, 2, 3, 4] = none ∧
    readWithLimit (2 ^ 64 - 1) [1, 2, 3, 4] = some [1, 2, 3, 4] ∧ readWithLimit 0 [1] = none := by
  refine ⟨?_, ?_, ?_, ?_⟩ <;> decide +kernel

/-! ## C43: `cargo audit bin` -/

theorem auditBinary_spec (env : Env) (c : AuditConfig) (t : Db.Tree) (db : Db.Database) (h : Db.Database.open t = .ok db)
    (hval : ∀ a ∈ db.iter, Validated a) (ms ds : Option Nat) (hms : ms.getD (100 * 1024 * 1024) < 2 ^ 64)
    (a : Auditor) (ha : Ready env c db a) (hb : a.binaryLimit = some (ms.getD (100 * 1024 * 1024)))
    (hd : a.auditDataLimit = some (ds.getD (8 * 1024 * 1024))) (path : Str)
    (hsize : ∀ content, env.readBinary path = some content → content.length < 2 ^ 64)
    (hpr : ∀ f l, Scans env ms ds path f l → Printable c l) :
    ((¬ ∃ f l, Scans env ms ds path f l) → a.auditBinary env path = .err) ∧
    (∀ f l, Scans env ms ds path f l → ∃ a' r out, a.auditBinary env path = .ok (a', r, out) ∧
      Ready env c db a' ∧ a'.binaryLimit = a.binaryLimit ∧ a'.auditDataLimit = a.auditDataLimit ∧
      Complete env c db l (some f) r ∧ Shows c r out ∧
      (a'.presenter.shouldExitWithFailure r = true ↔ Fails env c db l (some f))) := by
  constructor
  · intro hno
    unfold Auditor.auditBinary
    cases hr : env.readBinary path with
    | none => rfl
    | some content =>
      simp only [hb, hd, Option.getD_some]
      rw [C50_limit _ _ hms (hsize content hr)]
      by_cases hlen : content.length ≤ ms.getD (100 * 1024 * 1024)
      · rw [if_pos hlen]
        simp only
        cases hl : env.loadDeps content (some (ds.getD (8 * 1024 * 1024))) with
        | none => rfl
        | some x =>
          obtain ⟨f, d⟩ := x
          cases d with
          | none => rfl
          | some l => exact absurd ⟨f, l, content, hr, hlen, hl⟩ hno
      · rw [if_neg hlen]
  · intro f l hs
    have hp := hpr f l hs
    obtain ⟨content, hr, hlen, hl⟩ := hs
    have ha' : Ready env c db { a with presenter := { a.presenter with symbols := env.symbolsOf content } } :=
      ⟨ha.database, ha.settings, ha.denyKinds, ha.config, ha.displayed, ha.noIndex, ha.index⟩
    obtain ⟨a', r, out, e1, e2⟩ := audit_spec env c t db h hval _ ha' l (some f) hp
    refine ⟨a', r, out, ?_, e2⟩
    unfold Auditor.auditBinary
    rw [hr]
    simp only [hb, hd, Option.getD_some]
    rw [C50_limit _ _ hms (hsize content hr), if_pos hlen]
    simp only
    rw [hl]
    simp only [hb, hd] at e1
    exact e1

theorem binariesLoop_spec (env : Env) (c : AuditConfig) (t : Db.Tree) (db : Db.Database)
    (h : Db.Database.open t = .ok db) (hval : ∀ a ∈ db.iter, Validated a) (ms ds : Option Nat)
    (hms : ms.getD (100 * 1024 * 1024) < 2 ^ 64) (paths : List Str)
    (hsize : ∀ path ∈ paths, ∀ content, env.readBinary path = some content → content.length < 2 ^ 64)
    (hpr : ∀ path ∈ paths, ∀ f l, Scans env ms ds path f l → Printable c l)
    (a : Auditor) (ha : Ready env c db a) (hb : a.binaryLimit = some (ms.getD (100 * 1024 * 1024)))
    (hd : a.auditDataLimit = some (ds.getD (8 * 1024 * 1024))) :
    ∃ a' v e out, a.binariesLoop env paths = .ok (a', v, e, out) ∧ Ready env c db a' ∧
      (v = true ↔ ∃ path ∈ paths, ∃ f l, Scans env ms ds path f l ∧ Fails env c db l (some f)) ∧
      (e = true ↔ ∃ path ∈ paths, ¬ ∃ f l, Scans env ms ds path f l) ∧
      List.Forall₂ (fun path o =>
        ((¬ ∃ f l, Scans env ms ds path f l) → o = none) ∧
        ∀ f l, Scans env ms ds path f l → ∃ r p, o = some p ∧ Complete env c db l (some f) r ∧ Shows c r p) paths out := by
  induction paths generalizing a with
  | nil => exact ⟨a, false, false, [], rfl, ha, by simp, by simp, .nil⟩
  | cons path paths ih =>
    have hspec := auditBinary_spec env c t db h hval ms ds hms a ha hb hd path (hsize path (by simp)) (hpr path (by simp))
    have ih' := ih (fun p hp => hsize p (by simp [hp])) (fun p hp => hpr p (by simp [hp]))
    unfold Auditor.binariesLoop
    by_cases hs : ∃ f l, Scans env ms ds path f l
    · obtain ⟨f, l, hs⟩ := hs
      obtain ⟨a1, r, p, e1, ha1, b1, d1, c1, s1, x1⟩ := hspec.2 f l hs
      obtain ⟨a2, v, e, out, e2, ha2, v2, er2, f2⟩ := ih' a1 ha1 (by rw [b1, hb]) (by rw [d1, hd])
      rw [e1]
      simp only
      rw [e2]
      have hfun : ∀ f' l', Scans env ms ds path f' l' → f' = f ∧ l' = l := by
        rintro f' l' ⟨x, g1, -, g2⟩
        obtain ⟨y, g3, -, g4⟩ := hs
        rw [g1] at g3; cases g3
        rw [g2] at g4; cases g4; exact ⟨rfl, rfl⟩
      refine ⟨a2, _, e, _, rfl, ha2, ?_, ?_, .cons ⟨fun hno => absurd ⟨f, l, hs⟩ hno, ?_⟩ f2⟩
      · rw [Bool.or_eq_true, x1, v2]
        simp only [List.mem_cons, exists_eq_or_imp]
        refine or_congr ?_ Iff.rfl
        constructor
        · intro hf; exact ⟨f, l, hs, hf⟩
        · rintro ⟨f', l', hs', hf⟩
          obtain ⟨rfl, rfl⟩ := hfun f' l' hs'
          exact hf
      · rw [er2]
        simp only [List.mem_cons, exists_eq_or_imp]
        exact ⟨Or.inr, fun hh => hh.elim (fun hno => absurd ⟨f, l, hs⟩ hno) id⟩
      · intro f' l' hs'
        obtain ⟨rfl, rfl⟩ := hfun f' l' hs'
        exact ⟨r, p, rfl, c1, s1⟩
    · obtain ⟨a2, v, e, out, e2, ha2, v2, er2, f2⟩ := ih' a ha hb hd
      rw [hspec.1 hs]
      simp only
      rw [e2]
      refine ⟨a2, v, true, _, rfl, ha2, ?_, ?_, .cons ⟨fun _ => rfl, fun f l h => absurd ⟨f, l, h⟩ hs⟩ f2⟩
      · rw [v2]
        simp only [List.mem_cons, exists_eq_or_imp]
        exact ⟨Or.inr, fun hh => hh.elim (fun ⟨f, l, h, _⟩ => absurd ⟨f, l, h⟩ hs) id⟩
      · simp only [List.mem_cons, exists_eq_or_imp, true_iff]
        exact Or.inl hs

/-- **C43, binaries.**  `cargo audit bin` audits every binary, also after one that cannot be scanned; for each it prints
a complete report, or none if it cannot be scanned.  It exits with 1 if some binary has findings that fail, else with 2
if some binary could not be scanned or (with `--deny warnings`) there is an advisory about the tool, else with 0. -/
theorem C43_bin_exit_status (env : Env) (c : AuditConfig) (t : Db.Tree) (hco : env.checkout c = some t)
    (db : Db.Database) (h : Db.Database.open t = .ok db) (hval : ∀ a ∈ db.iter, Validated a) (ms ds : Option Nat)
    (hms : ms.getD (100 * 1024 * 1024) < 2 ^ 64) (paths : List Str)
    (hsize : ∀ path ∈ paths, ∀ content, env.readBinary path = some content → content.length < 2 ^ 64)
    (hpr : ∀ path ∈ paths, ∀ f l, Scans env ms ds path f l → Printable c l) :
    ∃ out n, runBin env ms ds paths c = (out, .code n) ∧ n ≤ 2 ∧
      List.Forall₂ (fun path o =>
        ((¬ ∃ f l, Scans env ms ds path f l) → o = none) ∧
        ∀ f l, Scans env ms ds path f l → ∃ r p, o = some p ∧ Complete env c db l (some f) r ∧ Shows c r p) paths out ∧
      (n = 1 ↔ ∃ path ∈ paths, ∃ f l, Scans env ms ds path f l ∧ Fails env c db l (some f)) ∧
      (n = 0 ↔ (∀ path ∈ paths, ∃ f l, Scans env ms ds path f l ∧ ¬ Fails env c db l (some f)) ∧
        ¬ (DenyOption.warnings ∈ c.output.deny ∧ HasSelfAdvisory env db)) := by
  obtain ⟨a, e1, ha⟩ := new_ready env c t hco db h
  have ha' : Ready env c db (a.setLimits ms ds) :=
    ⟨ha.database, ha.settings, ha.denyKinds, ha.config, ha.displayed, ha.noIndex, ha.index⟩
  obtain ⟨a', v, e, out, e2, ha2, v2, er2, f2⟩ :=
    binariesLoop_spec env c t db h hval ms ds hms paths hsize hpr (a.setLimits ms ds) ha' rfl rfl
  obtain ⟨self, e3, hself⟩ := selfAdvisories_spec env t db h hval a' ha2.database
  have hs := failureDueToSelf_iff a'.presenter c ha2.config self
  unfold runBin
  rw [e1]
  simp only
  rw [e2]
  simp only
  rw [e3]
  simp only
  have hfun : ∀ path f f' l l', Scans env ms ds path f l → Scans env ms ds path f' l' → f' = f ∧ l' = l := by
    rintro path f f' l l' ⟨y, g3, -, g4⟩ ⟨x, g1, -, g2⟩
    rw [g1] at g3; cases g3
    rw [g2] at g4; cases g4; exact ⟨rfl, rfl⟩
  have hall : (∀ path ∈ paths, ∃ f l, Scans env ms ds path f l ∧ ¬ Fails env c db l (some f)) ↔ v = false ∧ e = false := by
    rw [← Bool.not_eq_true v, ← Bool.not_eq_true e, v2, er2]
    push Not
    constructor
    · intro hh
      refine ⟨fun path hp f l hs hf => ?_, fun path hp => ?_⟩
      · obtain ⟨f', l', h1, h2⟩ := hh path hp
        obtain ⟨rfl, rfl⟩ := hfun path f f' l l' hs h1
        exact h2 hf
      · obtain ⟨f', l', h1, -⟩ := hh path hp
        exact ⟨f', l', h1⟩
    · rintro ⟨h1, h2⟩ path hp
      obtain ⟨f, l, hs⟩ := h2 path hp
      exact ⟨f, l, hs, h1 path hp f l hs⟩
  rw [← v2, hall, ← hself, ← hs]
  refine ⟨out, if v = true then 1 else if (e || a'.presenter.failureDueToSelf self) = true then 2 else 0, ?_, ?_⟩
  · cases v <;> cases (e || a'.presenter.failureDueToSelf self) <;> rfl
  cases v
  · cases e
    · cases a'.presenter.failureDueToSelf self <;> exact ⟨by simp, f2, by simp⟩
    · cases a'.presenter.failureDueToSelf self <;> exact ⟨by simp, f2, by simp⟩
  · exact ⟨by simp, f2, by simp⟩

end Verif.Props
