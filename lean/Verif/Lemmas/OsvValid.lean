import Verif.Model.Osv
import Verif.Spec.SemverText
import Verif.Spec.Versions
import Verif.Props.ReportJson

/-!
# The versions of OSV events can be written
-/

namespace Verif.Props

open Verif Verif.Semver Verif.Osv Verif.Spec

/-- A comparator whose numbers have room for one more. -/
structure RoomC (c : Comparator) : Prop where
  valid : c.Valid
  major : c.major + 1 < 2 ^ 64
  minor : ∀ n, c.minor = some n → n + 1 < 2 ^ 64
  patch : ∀ n, c.patch = some n → n + 1 < 2 ^ 64

/-- A version that can be written, and so can its successor. -/
def RoomV (v : Version) : Prop := v.Valid ∧ v.patch + 1 < 2 ^ 64

theorem compToVer_room {c : Comparator} (h : RoomC c) : RoomV (compToVer c) := by
  have hp : (c.patch.getD 0) + 1 < 2 ^ 64 := by
    cases hc : c.patch with
    | none => simp
    | some n => exact h.patch n hc
  have hm : (c.minor.getD 0) + 1 < 2 ^ 64 := by
    cases hc : c.minor with
    | none => simp
    | some n => exact h.minor n hc
  refine ⟨⟨h.valid.major, ?_, ?_, h.valid.pre, ?_⟩, ?_⟩
  · show c.minor.getD 0 < 2 ^ 64; omega
  · show c.patch.getD 0 < 2 ^ 64; omega
  · intro i hi; cases hi
  · exact hp

theorem preZero_valid : ∀ i ∈ preZero, i.Valid := by
  intro i hi
  simp only [preZero, List.mem_singleton] at hi
  subst hi
  trivial

theorem limit_valid {a b c : Nat} (ha : a < 2 ^ 64) (hb : b < 2 ^ 64) (hc : c < 2 ^ 64) :
    ({ Version.release a b c with pre := preZero } : Version).Valid :=
  ⟨ha, hb, hc, preZero_valid, by intro i hi; cases hi⟩

theorem caretEnd_valid {c : Comparator} (h : RoomC c) {v : Version} (hv : caretEnd c = some v) : v.Valid := by
  unfold caretEnd at hv
  simp only [Option.map_eq_some_iff] at hv
  obtain ⟨w, hw, rfl⟩ := hv
  split at hw
  · split at hw
    · next p _ hp => cases hw; exact limit_valid (by decide) (by decide) (h.patch _ hp)
    · next m hm _ => cases hw; exact limit_valid (by decide) (h.minor _ hm) (by decide)
    · cases hw; exact limit_valid (by decide) (by decide) (by decide)
    · cases hw
  · cases hw; exact limit_valid h.major (by decide) (by decide)

theorem tildeEnd_valid {c : Comparator} (h : RoomC c) {v : Version} (hv : tildeEnd c = some v) : v.Valid := by
  unfold tildeEnd at hv
  simp only [Option.map_eq_some_iff] at hv
  obtain ⟨w, hw, rfl⟩ := hv
  split at hw
  · cases hw; exact limit_valid h.major (by decide) (by decide)
  · next m _ hm => cases hw; exact limit_valid h.valid.major (h.minor _ hm) (by decide)
  · cases hw

/-- The start of an unaffected range. -/
def StartOk : Bound → Prop
  | .unbounded => True
  | .exclusive v => RoomV v
  | .inclusive v => RoomV v

/-- The end of an unaffected range. -/
def FinOk : Bound → Prop
  | .unbounded => True
  | .exclusive v => v.Valid
  | .inclusive v => RoomV v

theorem step_ok {n : Nat} {st st' : Bound × Bound} {c : Comparator} (hc : RoomC c) (h : StartOk st.1 ∧ FinOk st.2)
    (hs : tryFromStep n st c = .ok st') : StartOk st'.1 ∧ FinOk st'.2 := by
  have hv := compToVer_room hc
  unfold tryFromStep at hs
  split at hs
  · split at hs
    · cases hs
    · cases hs; exact ⟨hv, h.2⟩
  · split at hs
    · cases hs
    · cases hs; exact ⟨hv, h.2⟩
  · split at hs
    · cases hs
    · cases hs; exact ⟨h.1, hv.1⟩
  · split at hs
    · cases hs
    · cases hs; exact ⟨h.1, hv⟩
  · split at hs
    · cases hs
    · cases hs; exact ⟨hv, hv⟩
  · split at hs
    · cases hs
    · split at hs
      · next e he => cases hs; exact ⟨hv, caretEnd_valid hc he⟩
      · cases hs
  · split at hs
    · cases hs
    · split at hs
      · next e he => cases hs; exact ⟨hv, tildeEnd_valid hc he⟩
      · cases hs
  · cases hs

theorem loop_ok {n : Nat} : ∀ {cs : List Comparator} {st st' : Bound × Bound}, (∀ c ∈ cs, RoomC c) →
    StartOk st.1 ∧ FinOk st.2 → tryFromLoop n st cs = .ok st' → StartOk st'.1 ∧ FinOk st'.2
  | [], st, st', _, h, hs => by cases hs; exact h
  | c :: cs, st, st', hc, h, hs => by
    unfold tryFromLoop at hs
    cases he : tryFromStep n st c with
    | err => rw [he] at hs; cases hs
    | panic => rw [he] at hs; cases hs
    | ok s1 =>
      rw [he] at hs
      exact loop_ok (fun x hx => hc x (by simp [hx])) (step_ok (hc c (by simp)) h he) hs

theorem tryFrom_ok {r : VersionReq} {u : URange} (hr : ∀ c ∈ r.comparators, RoomC c) (h : URange.tryFrom r = .ok u) :
    StartOk u.start ∧ FinOk u.fin := by
  unfold URange.tryFrom at h
  split at h
  · cases h
  · cases hl : tryFromLoop r.comparators.length (.unbounded, .unbounded) r.comparators with
    | err => rw [hl] at h; cases h
    | panic => rw [hl] at h; cases h
    | ok st =>
      rw [hl] at h
      have := loop_ok (st := (.unbounded, .unbounded)) hr ⟨trivial, trivial⟩ hl
      change URange.new st.1 st.2 = .ok u at h
      unfold URange.new at h
      split at h
      · cases h; exact this
      · cases h

/-- Both ends of an OSV range can be written. -/
def RangeOk (r : OsvRange) : Prop := (∀ v, r.introduced = some v → v.Valid) ∧ ∀ v, r.fixed = some v → v.Valid

theorem increment_valid {v : Version} (h : RoomV v) : (increment v).Valid := by
  obtain ⟨h, hp⟩ := h
  unfold increment
  split
  · exact ⟨h.major, h.minor, hp, preZero_valid, by intro i hi; cases hi⟩
  · refine ⟨h.major, h.minor, h.patch, ?_, by intro i hi; cases hi⟩
    intro i hi
    rcases List.mem_append.mp hi with hi | hi
    · exact h.pre i hi
    · exact preZero_valid i hi

theorem leading_ok {u : URange} (h : StartOk u.start) : ∀ r ∈ leading u, RangeOk r := by
  intro r hr
  unfold leading at hr
  split at hr
  · cases hr
  · next v hv => rw [hv] at h; simp at hr; subst hr; exact ⟨by simp, by simpa using increment_valid h⟩
  · next v hv => rw [hv] at h; simp at hr; subst hr; exact ⟨by simp, by simpa using h.1⟩

theorem trailing_ok {u : URange} (h : FinOk u.fin) : ∀ r ∈ trailing u, RangeOk r := by
  intro r hr
  unfold trailing at hr
  split at hr
  · cases hr
  · next v hv => rw [hv] at h; simp at hr; subst hr; exact ⟨fun _ e => by cases e; exact h, by simp⟩
  · next v hv => rw [hv] at h; simp at hr; subst hr; exact ⟨by simpa using increment_valid h, by simp⟩

theorem between_ok {a b : URange} (ha : FinOk a.fin) (hb : StartOk b.start) {r : OsvRange} (h : between a b = some r) :
    RangeOk r := by
  unfold between at h
  cases h1 : a.fin with
  | unbounded => rw [h1] at h; cases h2 : b.start <;> rw [h2] at h <;> cases h
  | exclusive v =>
    rw [h1] at h ha
    cases h2 : b.start with
    | unbounded => rw [h2] at h; cases h
    | exclusive w =>
      rw [h2] at h hb; cases h
      exact ⟨fun _ e => by cases e; exact ha, fun _ e => by cases e; exact increment_valid hb⟩
    | inclusive w =>
      rw [h2] at h hb; cases h
      exact ⟨fun _ e => by cases e; exact ha, fun _ e => by cases e; exact hb.1⟩
  | inclusive v =>
    rw [h1] at h ha
    cases h2 : b.start with
    | unbounded => rw [h2] at h; cases h
    | exclusive w =>
      rw [h2] at h hb; cases h
      exact ⟨fun _ e => by cases e; exact increment_valid ha, fun _ e => by cases e; exact increment_valid hb⟩
    | inclusive w =>
      rw [h2] at h hb; cases h
      exact ⟨fun _ e => by cases e; exact increment_valid ha, fun _ e => by cases e; exact hb.1⟩

theorem complementFrom_ok : ∀ {l : List URange} {a : URange} {rs : List OsvRange},
    (∀ u ∈ a :: l, StartOk u.start ∧ FinOk u.fin) → complementFrom a l = .ok rs → ∀ r ∈ rs, RangeOk r
  | [], a, rs, h, hs => by cases hs; exact trailing_ok (h a (by simp)).2
  | b :: l, a, rs, h, hs => by
    unfold complementFrom at hs
    cases hb : between a b with
    | none => rw [hb] at hs; cases hs
    | some x =>
      rw [hb] at hs
      cases hc : complementFrom b l with
      | err => simp only [hc] at hs; cases hs
      | panic => simp only [hc] at hs; cases hs
      | ok ys =>
        simp only [hc] at hs
        cases hs
        intro r hr
        rcases List.mem_cons.mp hr with rfl | hr
        · exact between_ok (h a (by simp)).2 (h b (by simp)).1 hb
        · exact complementFrom_ok (fun u hu => h u (by simp [List.mem_cons.mp hu])) hc r hr

theorem complement_valid {l : List URange} {rs : List OsvRange} (h : ∀ u ∈ l, StartOk u.start ∧ FinOk u.fin)
    (hs : complement l = .ok rs) : ∀ r ∈ rs, RangeOk r := by
  cases l with
  | nil => cases hs; intro r hr; simp at hr; subst hr; exact ⟨by simp, by simp⟩
  | cons a l =>
    rw [complement] at hs
    cases hc : complementFrom a l with
    | err => rw [hc] at hs; cases hs
    | panic => rw [hc] at hs; cases hs
    | ok ys =>
      rw [hc] at hs
      cases hs
      intro r hr
      rcases List.mem_append.mp hr with hr | hr
      · exact leading_ok (h a (by simp)).1 r hr
      · exact complementFrom_ok h hc r hr

/-- Every event has a version that can be written. -/
theorem timeline_valid {vs : Versions} (h : ∀ r ∈ vs.patched ++ vs.unaffected, ∀ c ∈ r.comparators, RoomC c)
    {events : List TimelineEvent} (he : osvTimeline vs = .ok events) : ∀ e ∈ events, (eventVersion e).Valid := by
  unfold osvTimeline at he
  cases hr : rangesForAdvisory vs with
  | err => rw [hr] at he; cases he
  | panic => rw [hr] at he; cases he
  | ok rs =>
    rw [hr] at he
    have hrs : ∀ r ∈ rs, RangeOk r := by
      unfold rangesForAdvisory at hr
      split at hr
      · next rs' hu =>
        cases hr
        unfold unaffectedToOsvRanges at hu
        cases hm : Outcome.mapList URange.tryFrom (vs.unaffected ++ vs.patched) with
        | err => rw [hm] at hu; cases hu
        | panic => rw [hm] at hu; cases hu
        | ok us =>
          rw [hm] at hu
          have hus : ∀ u ∈ us, StartOk u.start ∧ FinOk u.fin := by
            have h' : ∀ r ∈ vs.unaffected ++ vs.patched, ∀ c ∈ r.comparators, RoomC c := by
              intro r hr
              exact h r (by simp only [List.mem_append] at hr ⊢; exact hr.symm)
            intro u hu
            obtain ⟨x, hx, hxu⟩ := forall2_right ((mapList_iff _ _ _).mp hm) u hu
            exact tryFrom_ok (h' x hx) hxu
          change (if us.isEmpty then _ else _) = _ at hu
          split at hu
          · cases hu; intro r hr; simp at hr; subst hr; exact ⟨by simp, by simp⟩
          · split at hu
            · cases hu
            · unfold sortRanges at hu
              split at hu
              · cases hu
              · refine complement_valid (fun u h => hus u ?_) hu
                exact (List.perm_insertionSort _ _).mem_iff.mp h
      · cases hr
      · cases hr
    change (if rs.isEmpty then _ else _) = _ at he
    split at he
    · cases he
    · cases he
      intro e hee
      obtain ⟨r, hr, her⟩ := List.mem_flatMap.mp hee
      have := hrs r hr
      unfold rangeEvents at her
      rcases List.mem_append.mp her with h1 | h1
      · split at h1
        · next v hv => simp at h1; subst h1; exact this.1 v hv
        · simp at h1; subst h1
          exact limit_valid (by decide) (by decide) (by decide)
      · split at h1
        · next v hv => simp at h1; subst h1; exact this.2 v hv
        · cases h1

end Verif.Props
