import Verif.Lemmas.OsvReq

/-! # Order of the affected ranges and evaluation of the exported events -/

set_option linter.unusedSimpArgs false
set_option linter.unnecessarySeqFocus false

namespace Verif.Osv

open Verif.Semver Verif.Spec

/-- Where the affected versions before a bound stop. -/
def startPt : Bound → Option Version
  | .unbounded => none
  | .exclusive v => some (increment v)
  | .inclusive v => some v

/-- Where the affected versions after a bound begin. -/
def endPt : Bound → Option Version
  | .unbounded => none
  | .exclusive v => some v
  | .inclusive v => some (increment v)

theorem startPt_build {b : Bound} (h : b.BF) {v : Version} (hv : startPt b = some v) : v.build = [] := by
  cases b <;> simp_all [startPt, Bound.BF] <;> (subst hv; simp [h])

theorem endPt_build {b : Bound} (h : b.BF) {v : Version} (hv : endPt b = some v) : v.build = [] := by
  cases b <;> simp_all [endPt, Bound.BF] <;> (subst hv; simp [h])

theorem increment_gt {v : Version} (hv : v.build = []) : v < increment v :=
  (increment_le hv (increment_build v)).mp (le_refl _)

theorem startPt_le_endPt {r : URange} (h : r.Valid) {s e : Version} (hs : startPt r.start = some s)
    (he : endPt r.fin = some e) : s ≤ e := by
  obtain ⟨a, b⟩ := r
  obtain ⟨hle, h1, h2⟩ := h
  cases a <;> cases b <;>
    simp only [startPt, endPt, Bound.BF, Option.some.injEq, reduceCtorEq, loe_ii, loe_ie, loe_ei, loe_ee] at * <;>
    subst hs <;> subst he
  · exact (increment_le h1 h2).mpr hle
  · have : _ := increment_gt h2
    exact (increment_le h1 (increment_build _)).mpr (by order)
  · exact le_of_lt hle
  · have : _ := increment_gt h2
    order

theorem endPt_le_startPt {a b : URange} (ha : a.Valid) (hb : b.Valid) (h : Before a b) :
    ∃ e s, endPt a.fin = some e ∧ startPt b.start = some s ∧ e ≤ s := by
  obtain ⟨as, af⟩ := a
  obtain ⟨bs, bf⟩ := b
  have h1 := ha.bff
  have h2 := hb.bfs
  rw [Before, ← Bool.not_eq_true] at h
  cases af <;> cases bs <;>
    simp only [startPt, endPt, Bound.BF, Option.some.injEq, reduceCtorEq, loe_ii, loe_ie, loe_ei, loe_ee,
      loe_unb_left, loe_unb_right, not_true_eq_false, _root_.not_le, _root_.not_lt] at *
  · refine ⟨_, _, rfl, rfl, ?_⟩; have := increment_gt h2; order
  · exact ⟨_, _, rfl, rfl, h⟩
  · refine ⟨_, _, rfl, rfl, ?_⟩
    exact (increment_le h1 (increment_build _)).mpr (lt_of_le_of_lt h (increment_gt h2))
  · exact ⟨_, _, rfl, rfl, (increment_le h1 h2).mpr h⟩

theorem between_eq {a b : URange} {e s : Version} (h1 : endPt a.fin = some e) (h2 : startPt b.start = some s) :
    between a b = some { introduced := some e, fixed := some s } := by
  obtain ⟨as, af⟩ := a
  obtain ⟨bs, bf⟩ := b
  cases af <;> cases bs <;> simp_all [between, startPt, endPt]

theorem leading_eq (a : URange) :
    leading a = match startPt a.start with | none => [] | some s => [{ introduced := none, fixed := some s }] := by
  obtain ⟨as, af⟩ := a
  cases as <;> rfl

theorem trailing_eq (a : URange) :
    trailing a = match endPt a.fin with | none => [] | some s => [{ introduced := some s, fixed := none }] := by
  obtain ⟨as, af⟩ := a
  cases af <;> rfl

/-- Shape of the ranges produced. -/
structure RangesOK (rs : List OsvRange) : Prop where
  pw : rs.Pairwise (fun a b => ∃ e s, a.fixed = some e ∧ b.introduced = some s ∧ e ≤ s)
  ordered : ∀ r ∈ rs, ∀ s e, r.introduced = some s → r.fixed = some e → s ≤ e
  bfi : ∀ r ∈ rs, ∀ s, r.introduced = some s → s.build = []
  bff : ∀ r ∈ rs, ∀ s, r.fixed = some s → s.build = []

theorem complementFrom_ok (a : URange) (rest : List URange) (hv : ∀ r ∈ a :: rest, r.Valid)
    (hs : (a :: rest).Pairwise Before) {rs : List OsvRange} (h : complementFrom a rest = .ok rs) :
    RangesOK rs ∧ ∀ r ∈ rs, ∃ e s, endPt a.fin = some e ∧ r.introduced = some s ∧ e ≤ s := by
  induction rest generalizing a rs with
  | nil =>
    simp only [complementFrom, Outcome.ok.injEq] at h
    subst h
    rw [trailing_eq]
    cases he : endPt a.fin with
    | none => exact ⟨⟨by simp, by simp, by simp, by simp⟩, by simp⟩
    | some e =>
      have := endPt_build (hv a (by simp)).bff he
      refine ⟨⟨by simp, by simp, ?_, by simp⟩, ?_⟩
      · intro r hr s hs; simp at hr; subst hr; simp at hs; subst hs; exact this
      · intro r hr; simp at hr; subst hr; exact ⟨e, e, rfl, rfl, le_refl _⟩
  | cons b rest ih =>
    have hav := hv a (by simp)
    have hbv := hv b (by simp)
    have hbefore := (List.pairwise_cons.mp hs).1 b (by simp)
    obtain ⟨e, s, he, hsp, hle⟩ := endPt_le_startPt hav hbv hbefore
    rw [complementFrom, between_eq he hsp] at h
    simp only at h
    cases hc : complementFrom b rest with
    | ok rs' =>
      rw [hc, Outcome.bind_ok, Outcome.ok.injEq] at h
      subst h
      obtain ⟨hok, hfirst⟩ := ih b (fun r hr => hv r (by simp_all)) (List.pairwise_cons.mp hs).2 hc
      have later : ∀ r ∈ rs', ∃ s', r.introduced = some s' ∧ s ≤ s' := by
        intro r hr
        obtain ⟨e', s', he', hs', hle'⟩ := hfirst r hr
        exact ⟨s', hs', le_trans (startPt_le_endPt hbv hsp he') hle'⟩
      refine ⟨⟨List.pairwise_cons.mpr ⟨?_, hok.pw⟩, ?_, ?_, ?_⟩, ?_⟩
      · intro r hr
        obtain ⟨s', h1, h2⟩ := later r hr
        exact ⟨s, s', rfl, h1, h2⟩
      · intro r hr s' e' h1 h2
        rcases List.mem_cons.mp hr with rfl | hr
        · simp at h1 h2; subst h1; subst h2; exact hle
        · exact hok.ordered r hr s' e' h1 h2
      · intro r hr s' h1
        rcases List.mem_cons.mp hr with rfl | hr
        · simp at h1; subst h1; exact endPt_build hav.bff he
        · exact hok.bfi r hr s' h1
      · intro r hr s' h1
        rcases List.mem_cons.mp hr with rfl | hr
        · simp at h1; subst h1; exact startPt_build hbv.bfs hsp
        · exact hok.bff r hr s' h1
      · intro r hr
        rcases List.mem_cons.mp hr with rfl | hr
        · exact ⟨e, e, he, rfl, le_refl _⟩
        · obtain ⟨s', h1, h2⟩ := later r hr
          exact ⟨e, s', he, h1, le_trans hle h2⟩
    | err => rw [hc] at h; cases h
    | panic => rw [hc] at h; cases h

theorem complement_ok (l : List URange) (hv : ∀ r ∈ l, r.Valid)
    (hs : l.Pairwise Before) {rs : List OsvRange} (h : complement l = .ok rs) : RangesOK rs := by
  cases l with
  | nil =>
    simp only [complement, Outcome.ok.injEq] at h
    subst h
    exact ⟨by simp, by simp, by simp, by simp⟩
  | cons a rest =>
    have hav := hv a (by simp)
    rw [complement] at h
    cases hc : complementFrom a rest with
    | ok rs' =>
      rw [hc, Outcome.bind_ok, Outcome.ok.injEq] at h
      subst h
      obtain ⟨hok, hfirst⟩ := complementFrom_ok a rest hv hs hc
      rw [leading_eq]
      cases hsp : startPt a.start with
      | none => exact hok
      | some s =>
        refine ⟨List.pairwise_cons.mpr ⟨?_, hok.pw⟩, ?_, ?_, ?_⟩
        · intro r hr
          obtain ⟨e', s', he', hs', hle'⟩ := hfirst r hr
          exact ⟨s, s', rfl, hs', le_trans (startPt_le_endPt hav hsp he') hle'⟩
        · intro r hr s' e' h1 h2
          rcases List.mem_cons.mp hr with rfl | hr
          · simp at h1
          · exact hok.ordered r hr s' e' h1 h2
        · intro r hr s' h1
          rcases List.mem_cons.mp hr with rfl | hr
          · simp at h1
          · exact hok.bfi r hr s' h1
        · intro r hr s' h1
          rcases List.mem_cons.mp hr with rfl | hr
          · simp at h1; subst h1; exact startPt_build hav.bfs hsp
          · exact hok.bff r hr s' h1
    | err => rw [hc] at h; cases h
    | panic => rw [hc] at h; cases h

theorem RangesOK.tail {r : OsvRange} {rs : List OsvRange} (h : RangesOK (r :: rs)) : RangesOK rs :=
  ⟨(List.pairwise_cons.mp h.pw).2, fun r hr => h.ordered r (by simp [hr]), fun r hr => h.bfi r (by simp [hr]),
    fun r hr => h.bff r (by simp [hr])⟩

/-! ### Evaluation -/

theorem evalEvents_append (w : Version) (es fs : List TimelineEvent) (acc : Bool) :
    evalEvents w (es ++ fs) acc = evalEvents w fs (evalEvents w es acc) := by
  induction es generalizing acc with
  | nil => rfl
  | cons e es ih => cases e <;> exact ih _

theorem affects_strip {r : OsvRange} (h1 : ∀ s, r.introduced = some s → s.build = [])
    (h2 : ∀ s, r.fixed = some s → s.build = []) (w : Version) : r.affects w = r.affects w.strip := by
  obtain ⟨i, f⟩ := r
  cases i <;> cases f <;> simp_all [OsvRange.affects]
  · rw [Version.lt_iff_strip h2]
  · rw [Version.le_iff_strip h1]
  · rw [decide_eq_decide.mpr (Version.lt_iff_strip h2), decide_eq_decide.mpr (Version.le_iff_strip h1)]

/-- `0.0.0-0` is the lowest version. -/
theorem zero_le (w : Version) : w.cmpPrec { major := 0, minor := 0, patch := 0, pre := preZero } ≠ .lt := by
  have h : (Version.cmpPrec { major := 0, minor := 0, patch := 0, pre := preZero } w).isLE := by
    simp only [Version.cmpPrec]
    have hz := Pre.cmp_preZero_isLE w.pre
    rcases Nat.eq_zero_or_pos w.major with h1 | h1
    · rcases Nat.eq_zero_or_pos w.minor with h2 | h2
      · rcases Nat.eq_zero_or_pos w.patch with h3 | h3
        · simpa [h1, h2, h3] using hz
        · simp [h1, h2, Nat.compare_eq_lt.mpr h3]
      · simp [h1, Nat.compare_eq_lt.mpr h2]
    · simp [Nat.compare_eq_lt.mpr h1]
  rw [Version.cmpPrec_swap]
  revert h
  cases Version.cmpPrec { major := 0, minor := 0, patch := 0, pre := preZero } w <;> simp

theorem cmpPrec_lt_iff {w v : Version} (hv : v.build = []) : w.cmpPrec v = .lt ↔ w.strip < v := by
  rw [← Version.strip_lt_strip, Version.strip_eq hv]

/-- One range at a time. -/
theorem eval_range {r : OsvRange} (h1 : ∀ s, r.introduced = some s → s.build = [])
    (h2 : ∀ s, r.fixed = some s → s.build = []) (w : Version)
    (hord : ∀ s e, r.introduced = some s → r.fixed = some e → s ≤ e) :
    evalEvents w (rangeEvents r) false = r.affects w := by
  rw [affects_strip h1 h2]
  obtain ⟨i, f⟩ := r
  cases i with
  | none =>
    cases f with
    | none => simp [rangeEvents, evalEvents, OsvRange.affects, zero_le]
    | some e =>
      have he := h2 e rfl
      simp only [rangeEvents, List.cons_append, List.nil_append, evalEvents, zero_le, if_false, OsvRange.affects,
        cmpPrec_lt_iff he, Bool.true_and]
      split <;> simp_all
  | some s =>
    have hs := h1 s rfl
    cases f with
    | none =>
      simp only [rangeEvents, List.append_nil, evalEvents, OsvRange.affects,
        cmpPrec_lt_iff hs, Bool.and_true, ge_iff_le]
      split <;> simp_all
    | some e =>
      have he := h2 e rfl
      have := hord s e rfl rfl
      simp only [rangeEvents, List.cons_append, List.nil_append, evalEvents, OsvRange.affects,
        cmpPrec_lt_iff hs, cmpPrec_lt_iff he, ge_iff_le]
      by_cases ha : w.strip < s
      · have hb : w.strip < e := lt_of_lt_of_le ha this
        simp [ha, hb]
      · by_cases hb : w.strip < e <;> simp [ha, hb, _root_.not_lt.mp ha]

/-- Events that all lie above `w` change nothing. -/
theorem eval_above (w : Version) (es : List TimelineEvent) (acc : Bool)
    (h : ∀ e ∈ es, w.cmpPrec (eventVersion e) = .lt) : evalEvents w es acc = acc := by
  induction es generalizing acc with
  | nil => rfl
  | cons e es ih =>
    have h0 := h e (by simp)
    have ih := ih acc (fun e he => h e (by simp [he]))
    cases e <;> simp only [eventVersion] at h0 <;> simp [evalEvents, h0, ih]

theorem eval_ranges (w : Version) (rs : List OsvRange) (h : RangesOK rs) :
    evalEvents w (rs.flatMap rangeEvents) false = rs.any (fun r => r.affects w) := by
  induction rs with
  | nil => rfl
  | cons r rs ih =>
    have hb1 := h.bfi r (by simp)
    have hb2 := h.bff r (by simp)
    rw [List.flatMap_cons, evalEvents_append, eval_range hb1 hb2 w (h.ordered r (by simp)), List.any_cons]
    cases ha : r.affects w with
    | false => rw [ih h.tail]; rfl
    | true =>
      rw [Bool.true_or]
      apply eval_above
      intro ev hev
      obtain ⟨q, hq, hev⟩ := List.mem_flatMap.mp hev
      obtain ⟨e, s, hfe, his, hle⟩ := (List.pairwise_cons.mp h.pw).1 q hq
      have hse := h.bfi q (by simp [hq]) s his
      have hlt : w.strip < e := by
        rw [affects_strip hb1 hb2] at ha
        simp [OsvRange.affects, hfe] at ha
        exact ha.2
      have hls : w.strip < s := lt_of_lt_of_le hlt hle
      simp only [rangeEvents, his, List.cons_append, List.nil_append, List.mem_cons] at hev
      rcases hev with rfl | hev
      · exact (cmpPrec_lt_iff hse).mpr hls
      · cases hf : q.fixed with
        | none => rw [hf] at hev; cases hev
        | some f =>
          rw [hf] at hev
          simp at hev
          subst hev
          exact (cmpPrec_lt_iff (h.bff q (by simp [hq]) f hf)).mpr
            (lt_of_lt_of_le hls (h.ordered q (by simp [hq]) s f his hf))

/-- The events are in non-decreasing version order. -/
theorem events_sorted (rs : List OsvRange) (h : RangesOK rs) :
    (rs.flatMap rangeEvents).Pairwise (fun a b => PrecLE (eventVersion a) (eventVersion b)) := by
  have hz : ∀ v : Version, PrecLE { major := 0, minor := 0, patch := 0, pre := preZero } v := by
    intro v
    rw [PrecLE, Version.cmpPrec_swap]
    have := zero_le v
    revert this
    cases v.cmpPrec { major := 0, minor := 0, patch := 0, pre := preZero } <;> simp
  induction rs with
  | nil => simp
  | cons r rs ih =>
    rw [List.flatMap_cons, List.pairwise_append]
    refine ⟨?_, ih h.tail, ?_⟩
    · have ho := h.ordered r (by simp)
      have hb1 := h.bfi r (by simp)
      have hb2 := h.bff r (by simp)
      cases hi : r.introduced <;> cases hf : r.fixed <;> simp [rangeEvents, hi, hf, eventVersion, hz]
      rw [precLE_iff, Version.strip_eq (hb1 _ hi), Version.strip_eq (hb2 _ hf)]
      exact ho _ _ hi hf
    · intro x hx y hy
      obtain ⟨q, hq, hy⟩ := List.mem_flatMap.mp hy
      obtain ⟨e, s, hfe, his, hle⟩ := (List.pairwise_cons.mp h.pw).1 q hq
      have hbe := h.bff r (by simp) e hfe
      have hbs := h.bfi q (by simp [hq]) s his
      have hx' : PrecLE (eventVersion x) e := by
        cases hi : r.introduced with
        | none =>
          simp [rangeEvents, hi, hfe] at hx
          rcases hx with rfl | rfl
          · exact hz _
          · rw [precLE_iff]; exact le_refl _
        | some i =>
          simp [rangeEvents, hi, hfe] at hx
          rcases hx with rfl | rfl
          · rw [precLE_iff]
            simp only [eventVersion]
            rw [Version.strip_eq (h.bfi r (by simp) i hi), Version.strip_eq hbe]
            exact h.ordered r (by simp) i e hi hfe
          · rw [precLE_iff]; exact le_refl _
      have hy' : PrecLE s (eventVersion y) := by
        cases hf : q.fixed with
        | none =>
          simp [rangeEvents, his, hf] at hy
          subst hy; rw [precLE_iff]; exact le_refl _
        | some f =>
          simp [rangeEvents, his, hf] at hy
          rcases hy with rfl | rfl
          · rw [precLE_iff]; exact le_refl _
          · rw [precLE_iff]
            simp only [eventVersion]
            rw [Version.strip_eq (h.bff q (by simp [hq]) f hf), Version.strip_eq hbs]
            exact h.ordered q (by simp [hq]) s f his hf
      rw [precLE_iff] at hx' hy' ⊢
      rw [Version.strip_eq hbe] at hx'
      rw [Version.strip_eq hbs] at hy'
      exact le_trans hx' (le_trans hle hy')

end Verif.Osv
