import Verif.Model.Sarif
import Verif.Props.AuditRun
import Mathlib.Data.List.Perm.Basic

/-!
# C45: SARIF output
-/

namespace Verif.Props

open Verif.Audit Verif.Adv Verif.Lock Verif.Semver Verif.Rep Verif.Spec

/-! ## The warnings in order -/

theorem lookup_iff {w : WarningInfo} (hn : (w.map Prod.fst).Nodup) (k : WarningKind) (ws : List Warning) :
    w.lookup k = some ws ↔ (k, ws) ∈ w := by
  induction w with
  | nil => simp
  | cons e w ih =>
    obtain ⟨k0, w0⟩ := e
    rw [List.map_cons, List.nodup_cons] at hn
    by_cases h : k = k0
    · subst h
      simp only [List.lookup_cons_self, Option.some.injEq, List.mem_cons, Prod.mk.injEq, true_and]
      constructor
      · exact fun h => Or.inl h.symm
      · rintro (h | h)
        · exact h.symm
        · exact absurd (List.mem_map.mpr ⟨_, h, rfl⟩) hn.1
    · rw [List.lookup_cons, show (k == k0) = false by simpa using h, ih hn.2]
      simp [h]

/-- Iterating over the `BTreeMap` visits every entry once. -/
theorem inOrder_perm {w : WarningInfo} (hn : (w.map Prod.fst).Nodup) : (inOrder w).Perm w := by
  have hkeys : (inOrder w).map Prod.fst = [.notice, .unmaintained, .unsound, .yanked].filter fun k => (w.lookup k).isSome := by
    unfold inOrder
    generalize [WarningKind.notice, .unmaintained, .unsound, .yanked] = ks
    induction ks with
    | nil => rfl
    | cons k ks ih =>
      rw [List.filterMap_cons, List.filter_cons]
      cases h : w.lookup k <;> simpa using ih
  have h1 : (inOrder w).Nodup := by
    apply List.Nodup.of_map Prod.fst
    rw [hkeys]
    exact List.Nodup.filter _ (by decide)
  have h2 : w.Nodup := List.Nodup.of_map Prod.fst hn
  rw [List.perm_ext_iff_of_nodup h1 h2]
  rintro ⟨k, ws⟩
  unfold inOrder
  rw [List.mem_filterMap]
  constructor
  · rintro ⟨k', -, h⟩
    rw [Option.map_eq_some_iff] at h
    obtain ⟨x, hx, e⟩ := h
    cases e
    exact (lookup_iff hn _ _).mp hx
  · intro h
    exact ⟨k, by cases k <;> simp, by rw [(lookup_iff hn k ws).mpr h]; rfl⟩

/-- What is printed on the terminal, or listed as a SARIF result, are the warnings of the report. -/
theorem mem_inOrder {r : Report} (hn : (r.warnings.map Prod.fst).Nodup) (w : Warning) :
    w ∈ (inOrder r.warnings).flatMap (·.2) ↔ InReport r w := by
  rw [List.mem_flatMap]
  constructor
  · rintro ⟨⟨k, ws⟩, h, hw⟩
    exact ⟨k, ws, (inOrder_perm hn).mem_iff.mp h, hw⟩
  · rintro ⟨k, ws, h, hw⟩
    exact ⟨(k, ws), (inOrder_perm hn).mem_iff.mpr h, hw⟩

/-! ## The loop -/

/-- The loop over a list of (rule ID, rule, result). -/
def pushAll (s : SarifAcc) (ts : List (Str × Rule × SarifResult)) : SarifAcc :=
  ts.foldl (fun s t => s.push t.1 t.2.1 t.2.2) s

theorem pushAll_results (ts : List (Str × Rule × SarifResult)) (s : SarifAcc) :
    (pushAll s ts).results = s.results ++ ts.map (·.2.2) := by
  induction ts generalizing s with
  | nil => simp [pushAll]
  | cons t ts ih =>
    show (pushAll (s.push t.1 t.2.1 t.2.2) ts).results = _
    rw [ih]
    unfold SarifAcc.push
    split <;> simp

/-- The rules are the first ones for each ID. -/
theorem pushAll_rules (ts : List (Str × Rule × SarifResult)) (hid : ∀ t ∈ ts, t.2.1.id = t.1) (s : SarifAcc)
    (hs : ∀ x, x ∈ s.seen ↔ x ∈ s.rules.map (·.id)) (hn : (s.rules.map (·.id)).Nodup) :
    ((pushAll s ts).rules.map (·.id)).Nodup ∧
    (∀ x, x ∈ (pushAll s ts).rules.map (·.id) ↔ x ∈ s.rules.map (·.id) ∨ ∃ t ∈ ts, t.1 = x) ∧
    (∀ rule ∈ (pushAll s ts).rules, rule ∈ s.rules ∨ ∃ t ∈ ts, t.2.1 = rule) := by
  induction ts generalizing s with
  | nil => exact ⟨hn, by simp [pushAll], fun rule h => Or.inl h⟩
  | cons t ts ih =>
    have hid0 := hid t (by simp)
    show ((pushAll (s.push t.1 t.2.1 t.2.2) ts).rules.map (·.id)).Nodup ∧
      (∀ x, x ∈ (pushAll (s.push t.1 t.2.1 t.2.2) ts).rules.map (·.id) ↔ _) ∧
      (∀ rule ∈ (pushAll (s.push t.1 t.2.1 t.2.2) ts).rules, _)
    by_cases hc : t.1 ∈ s.seen
    · have e : s.push t.1 t.2.1 t.2.2 = { s with results := s.results ++ [t.2.2] } := by
        unfold SarifAcc.push; rw [if_pos (by simpa using hc)]
      rw [e]
      obtain ⟨i1, i2, i3⟩ := ih (fun t ht => hid t (by simp [ht])) { s with results := s.results ++ [t.2.2] } hs hn
      refine ⟨i1, fun x => ?_, fun rule hr => ?_⟩
      · rw [i2]
        simp only [List.mem_cons, exists_eq_or_imp]
        constructor
        · rintro (h | h)
          · exact Or.inl h
          · exact Or.inr (Or.inr h)
        · rintro (h | rfl | h)
          · exact Or.inl h
          · exact Or.inl ((hs _).mp hc)
          · exact Or.inr h
      · rcases i3 rule hr with h | ⟨t', h, e⟩
        · exact Or.inl h
        · exact Or.inr ⟨t', by simp [h], e⟩
    · have e : s.push t.1 t.2.1 t.2.2 =
          { rules := s.rules ++ [t.2.1], seen := t.1 :: s.seen, results := s.results ++ [t.2.2] } := by
        unfold SarifAcc.push; rw [if_neg (by simpa using hc)]
      rw [e]
      obtain ⟨i1, i2, i3⟩ := ih (fun t ht => hid t (by simp [ht]))
        { rules := s.rules ++ [t.2.1], seen := t.1 :: s.seen, results := s.results ++ [t.2.2] }
        (by intro x; simp only [List.mem_cons, List.map_append, List.mem_append, List.map_cons, List.map_nil,
              List.not_mem_nil, or_false, hs, hid0]; exact or_comm)
        (by
          simp only [List.map_append, List.map_cons, List.map_nil, hid0]
          rw [List.nodup_append]
          refine ⟨hn, by simp, ?_⟩
          intro a ha b hb
          rw [List.mem_singleton] at hb
          subst hb
          rintro rfl
          exact hc ((hs _).mpr ha))
      refine ⟨i1, fun x => ?_, fun rule hr => ?_⟩
      · rw [i2]
        simp only [List.map_append, List.mem_append, List.map_cons, List.map_nil, hid0,
          List.mem_cons, exists_eq_or_imp]
        grind
      · rcases i3 rule hr with h | ⟨t', h, e⟩
        · rcases List.mem_append.mp h with h | h
          · exact Or.inl h
          · exact Or.inr ⟨t, by simp, (List.mem_singleton.mp h).symm⟩
        · exact Or.inr ⟨t', by simp [h], e⟩

/-- The entries of the two loops. -/
def sarifEntries (C : Codec) (r : Report) (path : Str) : List (Str × Rule × SarifResult) :=
  r.vulnerabilities.list.map (fun v =>
    (v.advisory.id.display, Rule.ofAdvisory v.advisory true, SarifResult.ofVulnerability C v path)) ++
  (inOrder r.warnings).flatMap (fun e => e.2.map fun w =>
    (warningRuleId e.1 w, warningRule e.1 w,
      SarifResult.ofWarning C w path))

theorem sarifRun_eq (C : Codec) (r : Report) (path : Str) :
    sarifRun C r path = ((pushAll {} (sarifEntries C r path)).rules, (pushAll {} (sarifEntries C r path)).results) := by
  unfold sarifRun sarifEntries pushAll
  simp only [List.foldl_append, List.foldl_map, List.foldl_flatMap]

/-! ## C45 -/

/-- **C45.**  Every vulnerability and every warning gives exactly one result, in order; no two rules have the same ID;
the rule IDs are exactly those the results refer to.  Needed: the report files warnings under their kinds, and every notice
comes from an advisory. -/
theorem C45_sarif (C : Codec) (r : Report) (path : Str) (hkeys : (r.warnings.map Prod.fst).Nodup)
    (hfiled : ∀ k ws, (k, ws) ∈ r.warnings → ∀ w ∈ ws, w.kind = k)
    (hnotice : ∀ w, InReport r w → w.advisory = none → w.kind ≠ .notice) :
    (sarifRun C r path).2 = r.vulnerabilities.list.map (SarifResult.ofVulnerability C · path) ++
      ((inOrder r.warnings).flatMap (·.2)).map (SarifResult.ofWarning C · path) ∧
    ((sarifRun C r path).1.map (·.id)).Nodup ∧
    (∀ id, id ∈ (sarifRun C r path).1.map (·.id) ↔ ∃ res ∈ (sarifRun C r path).2, res.ruleId = id) := by
  rw [sarifRun_eq]
  have hmem : ∀ e ∈ inOrder r.warnings, ∀ w ∈ e.2, InReport r w ∧ w.kind = e.1 := by
    rintro ⟨k, ws⟩ he w hw
    have := (inOrder_perm hkeys).mem_iff.mp he
    exact ⟨⟨k, ws, this, hw⟩, hfiled k ws this w hw⟩
  have hid : ∀ t ∈ sarifEntries C r path, t.2.1.id = t.1 ∧ t.2.2.ruleId = t.1 := by
    intro t ht
    unfold sarifEntries at ht
    rcases List.mem_append.mp ht with ht | ht
    · obtain ⟨v, -, rfl⟩ := List.mem_map.mp ht
      exact ⟨rfl, rfl⟩
    · obtain ⟨e, he, ht⟩ := List.mem_flatMap.mp ht
      obtain ⟨w, hw, rfl⟩ := List.mem_map.mp ht
      obtain ⟨h1, h2⟩ := hmem e he w hw
      simp only [SarifResult.ofWarning, warningRuleId, warningRule, h2]
      cases ha : w.advisory with
      | some m => exact ⟨by trivial, by trivial⟩
      | none =>
        have := hnotice w h1 ha
        rw [h2] at this
        refine ⟨?_, by trivial⟩
        cases hk : e.1 <;> rw [hk] at this <;> first | rfl | exact absurd rfl this
  obtain ⟨h1, h2, -⟩ := pushAll_rules (sarifEntries C r path) (fun t ht => (hid t ht).1) {} (by simp) (by simp)
  have hres : (pushAll {} (sarifEntries C r path)).results = (sarifEntries C r path).map (·.2.2) := by
    rw [pushAll_results]; rfl
  refine ⟨?_, h1, ?_⟩
  · simp only
    rw [hres]
    unfold sarifEntries
    rw [List.map_append, List.map_map]
    congr 1
    induction inOrder r.warnings with
    | nil => rfl
    | cons e l ih => simp only [List.flatMap_cons, List.map_append, List.map_map, ih]; rfl
  · intro id
    simp only
    rw [h2, hres]
    simp only [List.map_nil, List.not_mem_nil, false_or, List.mem_map, exists_exists_and_eq_and]
    constructor
    · rintro ⟨t, ht, rfl⟩; exact ⟨t, ht, (hid t ht).2⟩
    · rintro ⟨t, ht, rfl⟩; exact ⟨t, ht, (hid t ht).2.symm⟩

/-- **C45, in an audit.**  For the report of an audit, C45 applies; and if the database's IDs are what their texts parse
to and none reads "yanked", every result has the level of its rule: error for vulnerabilities, warning otherwise. -/
theorem C45_audit (env : Env) (c : AuditConfig) (t : Db.Tree) (db : Db.Database) (h : Db.Database.open t = .ok db)
    (l : Lockfile) (format : Option Bin.BinaryFormat) (r : Report) (hr : Complete env c db l format r) (path : Str) :
    (∀ w, InReport r w → w.advisory = none → w.kind ≠ .notice) ∧
    ((∀ a ∈ db.iter, Id.fromStr a.metadata.id.display = .ok a.metadata.id ∧ a.metadata.id.display ≠ kindStr .yanked) →
      ∀ res ∈ (sarifRun env.codec r path).2, ∀ rule ∈ (sarifRun env.codec r path).1, rule.id = res.ruleId →
        rule.level = res.level) := by
  have hnot : ∀ w, InReport r w → w.advisory = none → w.kind ≠ .notice := by
    intro w hw hn hk
    obtain ⟨p, -, a, -, i, -, -, -, -, -, -, h7, -⟩ := (hr.advisories w).mp ⟨hw, by rw [hk]; decide⟩
    rw [hn] at h7; cases h7
  refine ⟨hnot, fun hdb res hres rule hrule hid => ?_⟩
  rw [sarifRun_eq] at hres hrule
  have hmem : ∀ e ∈ inOrder r.warnings, ∀ w ∈ e.2, InReport r w ∧ w.kind = e.1 := by
    rintro ⟨k, ws⟩ he w hw
    have := (inOrder_perm hr.keys).mem_iff.mp he
    exact ⟨⟨k, ws, this, hw⟩, hr.filed k ws this w hw⟩
  -- every entry is of one of three kinds
  have hent : ∀ e ∈ sarifEntries env.codec r path,
      (∃ a ∈ db.iter, a.metadata.informational = none ∧ e.1 = a.metadata.id.display ∧ e.2.1.id = e.1 ∧ e.2.2.ruleId = e.1 ∧
        e.2.1.level = .error ∧ e.2.2.level = .error) ∨
      (∃ a ∈ db.iter, a.metadata.informational ≠ none ∧ e.1 = a.metadata.id.display ∧ e.2.1.id = e.1 ∧ e.2.2.ruleId = e.1 ∧
        e.2.1.level = .warning ∧ e.2.2.level = .warning) ∨
      (e.1 = kindStr .yanked ∧ e.2.1.id = e.1 ∧ e.2.2.ruleId = e.1 ∧ e.2.1.level = .warning ∧ e.2.2.level = .warning) := by
    intro e he
    unfold sarifEntries at he
    rcases List.mem_append.mp he with he | he
    · obtain ⟨v, hv, rfl⟩ := List.mem_map.mp he
      obtain ⟨p, -, a, ha, rfl, -, hi, -⟩ := (hr.vulnerabilities v).mp hv
      exact Or.inl ⟨a, ha, hi, rfl, rfl, rfl, rfl, rfl⟩
    · obtain ⟨e', he', he⟩ := List.mem_flatMap.mp he
      obtain ⟨w, hw, rfl⟩ := List.mem_map.mp he
      obtain ⟨h1, h2⟩ := hmem e' he' w hw
      by_cases hk : w.kind = .yanked
      · have hadv := (hr.yanked w h1 hk).1
        rw [hk] at h2
        simp only [SarifResult.ofWarning, warningRuleId, warningRule, hadv, ← h2, hk]
        exact Or.inr (Or.inr ⟨by trivial, by trivial, by trivial, by trivial, by trivial⟩)
      · obtain ⟨p, -, a, ha, i, -, hi, -, -, -, -, h7, -⟩ := (hr.advisories w).mp ⟨h1, hk⟩
        simp only [SarifResult.ofWarning, warningRuleId, warningRule, h7]
        exact Or.inr (Or.inl ⟨a, ha, by simp [hi], by trivial, by trivial, by trivial, by trivial, by trivial⟩)
  have hidOf : ∀ a ∈ db.iter, ∀ b ∈ db.iter, a.metadata.id.display = b.metadata.id.display → a = b := by
    intro a ha b hb e
    have h1 := (hdb a ha).1
    rw [e, (hdb b hb).1] at h1
    exact (List.inj_on_of_nodup_map (C10_ids_unique t db h)) ha hb (Outcome.ok.inj h1).symm
  have hids : ∀ t ∈ sarifEntries env.codec r path, t.2.1.id = t.1 := by
    intro t ht
    rcases hent t ht with ⟨_, _, _, _, h, _⟩ | ⟨_, _, _, _, h, _⟩ | ⟨_, h, _⟩ <;> exact h
  obtain ⟨-, -, h3⟩ := pushAll_rules (sarifEntries env.codec r path) hids {} (by simp) (by simp)
  rcases h3 rule hrule with h0 | ⟨e1, he1, rfl⟩
  · cases h0
  · simp only [pushAll_results] at hres
    obtain ⟨e2, he2, rfl⟩ := List.mem_map.mp (by simpa using hres : res ∈ (sarifEntries env.codec r path).map (·.2.2))
    rcases hent e1 he1 with ⟨a, ha, hi, x1, x2, x3, x4, x5⟩ | ⟨a, ha, hi, x1, x2, x3, x4, x5⟩ | ⟨x1, x2, x3, x4, x5⟩ <;>
    rcases hent e2 he2 with ⟨b, hb, hj, y1, y2, y3, y4, y5⟩ | ⟨b, hb, hj, y1, y2, y3, y4, y5⟩ | ⟨y1, y2, y3, y4, y5⟩ <;>
    rw [x2, y3] at hid
    · rw [x4, y5]
    · rw [x1, y1] at hid
      have := hidOf a ha b hb hid
      subst this
      exact absurd hi hj
    · rw [x1, y1] at hid
      exact absurd hid (hdb a ha).2
    · rw [x1, y1] at hid
      have := hidOf a ha b hb hid
      subst this
      exact absurd hj hi
    · rw [x4, y5]
    · rw [x4, y5]
    · rw [x1, y1] at hid
      exact absurd hid.symm (hdb b hb).2
    · rw [x4, y5]
    · rw [x4, y5]

end Verif.Props
