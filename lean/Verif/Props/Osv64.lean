import Verif.Spec.Osv64
import Verif.Props.Versions
import Verif.Props.ReportJson

/-!
# C98: with numbers of 64 bits
-/

namespace Verif.Props

open Verif Verif.Semver Verif.Osv Verif.Spec
open Verif.Osv64 (Build)

/-- Either the same result, or a panic where that is allowed. -/
def Same {α : Type} (P : Prop) (a b : Outcome α) : Prop := a = b ∨ (P ∧ a = .panic)

variable {P : Prop}

theorem Same.rfl' {α : Type} {a : Outcome α} : Same P a a := .inl rfl

theorem Same.bind {α β : Type} {a b : Outcome α} {f g : α → Outcome β} (h : Same P a b)
    (hf : ∀ x, b = .ok x → Same P (f x) (g x)) : Same P (a >>= f) (b >>= g) := by
  rcases h with rfl | ⟨hp, rfl⟩
  · cases a with
    | ok x => exact hf x rfl
    | err => exact .inl rfl
    | panic => exact .inl rfl
  · exact .inr ⟨hp, rfl⟩

/-- Adding one to the number is as it should be, or panics where that is allowed. -/
def Adds (P : Prop) (B : Build) (n : Nat) : Prop := Same P (B n) (.ok (n + 1))

/-- The same for the numbers of a comparator. -/
structure AddsC (P : Prop) (B : Build) (c : Comparator) : Prop where
  major : Adds P B c.major
  minor : ∀ n, c.minor = some n → Adds P B n
  patch : ∀ n, c.patch = some n → Adds P B n
  zero : Adds P B 0

variable {B : Build}

theorem adds_bind {n : Nat} (h : Adds P B n) {β : Type} (f : Nat → Outcome β) : Same P (B n >>= f) (f (n + 1)) := by
  have := Same.bind (f := f) (g := f) h (fun _ _ => .inl rfl)
  exact this

/-- `Option` as an outcome: `none` stands for `unreachable!`. -/
def orPanic {α : Type} : Option α → Outcome α
  | some a => .ok a
  | none => .panic

theorem caretEnd_same {c : Comparator} (h : AddsC P B c) : Same P (Osv64.caretEnd B c) (orPanic (Osv.caretEnd c)) := by
  unfold Osv64.caretEnd Osv.caretEnd
  by_cases h0 : (compToVer c).major = 0
  · simp only [if_pos h0]
    cases hmi : c.minor with
    | none =>
      cases hpa : c.patch with
      | none => exact .inl rfl
      | some p => exact .inl rfl
    | some m =>
      cases m with
      | zero =>
        cases hpa : c.patch with
        | none => exact Same.bind (adds_bind (h.minor 0 hmi) _) (fun _ _ => .inl rfl)
        | some p => exact Same.bind (adds_bind (h.patch p hpa) _) (fun _ _ => .inl rfl)
      | succ m =>
        exact Same.bind (adds_bind (h.minor _ hmi) _) (fun _ _ => .inl rfl)
  · simp only [if_neg h0]
    exact Same.bind (adds_bind h.major _) (fun _ _ => .inl rfl)

theorem tildeEnd_same {c : Comparator} (h : AddsC P B c) : Same P (Osv64.tildeEnd B c) (orPanic (Osv.tildeEnd c)) := by
  unfold Osv64.tildeEnd Osv.tildeEnd
  cases hmi : c.minor with
  | none =>
    cases hpa : c.patch with
    | none => exact Same.bind (adds_bind h.major _) (fun _ _ => .inl rfl)
    | some p => exact .inl rfl
  | some m => exact Same.bind (adds_bind (h.minor _ hmi) _) (fun _ _ => .inl rfl)

theorem step_same {n : Nat} {st : Bound × Bound} {c : Comparator} (h : AddsC P B c) :
    Same P (Osv64.tryFromStep B n st c) (Osv.tryFromStep n st c) := by
  unfold Osv64.tryFromStep Osv.tryFromStep
  cases c.op with
  | caret =>
    dsimp only
    by_cases hn : n ≠ 1
    · rw [if_pos hn, if_pos hn]; exact .inl rfl
    · rw [if_neg hn, if_neg hn]
      have := Same.bind (f := fun e => Outcome.ok (Bound.inclusive (compToVer c), Bound.exclusive e)) (caretEnd_same h)
        (fun _ _ => .inl rfl)
      cases hc : Osv.caretEnd c with
      | none => rw [hc] at this; exact this
      | some e => rw [hc] at this; exact this
  | tilde =>
    dsimp only
    by_cases hn : n ≠ 1
    · rw [if_pos hn, if_pos hn]; exact .inl rfl
    · rw [if_neg hn, if_neg hn]
      have := Same.bind (f := fun e => Outcome.ok (Bound.inclusive (compToVer c), Bound.exclusive e)) (tildeEnd_same h)
        (fun _ _ => .inl rfl)
      cases hc : Osv.tildeEnd c with
      | none => rw [hc] at this; exact this
      | some e => rw [hc] at this; exact this
  | _ => exact .inl rfl

theorem loop_same {n : Nat} : ∀ {cs : List Comparator} {st : Bound × Bound}, (∀ c ∈ cs, AddsC P B c) →
    Same P (Osv64.tryFromLoop B n st cs) (Osv.tryFromLoop n st cs)
  | [], _, _ => .inl rfl
  | c :: cs, st, h => by
    unfold Osv64.tryFromLoop Osv.tryFromLoop
    exact Same.bind (step_same (h c (by simp))) fun x _ => loop_same fun c hc => h c (by simp [hc])

theorem tryFrom_same {r : VersionReq} (h : ∀ c ∈ r.comparators, AddsC P B c) :
    Same P (Osv64.tryFrom B r) (URange.tryFrom r) := by
  unfold Osv64.tryFrom URange.tryFrom
  split
  · exact .inl rfl
  · exact Same.bind (loop_same h) fun _ _ => .inl rfl

/-! ### Where the ranges begin and end -/

/-- The start of an unaffected range. -/
def StartAdds (P : Prop) (B : Build) : Bound → Prop
  | .exclusive v => Adds P B v.patch
  | _ => True

/-- The end of an unaffected range. -/
def FinAdds (P : Prop) (B : Build) : Bound → Prop
  | .inclusive v => Adds P B v.patch
  | _ => True

theorem compToVer_adds {c : Comparator} (h : AddsC P B c) : Adds P B (compToVer c).patch := by
  show Adds P B (c.patch.getD 0)
  cases hp : c.patch with
  | none => exact h.zero
  | some n => exact h.patch n hp

theorem step_adds {n : Nat} {st st' : Bound × Bound} {c : Comparator} (hc : AddsC P B c)
    (h : StartAdds P B st.1 ∧ FinAdds P B st.2) (hs : Osv.tryFromStep n st c = .ok st') :
    StartAdds P B st'.1 ∧ FinAdds P B st'.2 := by
  have hv := compToVer_adds hc
  unfold Osv.tryFromStep at hs
  split at hs
  · split at hs
    · cases hs
    · cases hs; exact ⟨hv, h.2⟩
  · split at hs
    · cases hs
    · cases hs; exact ⟨trivial, h.2⟩
  · split at hs
    · cases hs
    · cases hs; exact ⟨h.1, trivial⟩
  · split at hs
    · cases hs
    · cases hs; exact ⟨h.1, hv⟩
  · split at hs
    · cases hs
    · cases hs; exact ⟨trivial, hv⟩
  · split at hs
    · cases hs
    · split at hs
      · cases hs; exact ⟨trivial, trivial⟩
      · cases hs
  · split at hs
    · cases hs
    · split at hs
      · cases hs; exact ⟨trivial, trivial⟩
      · cases hs
  · cases hs

theorem loop_adds {n : Nat} : ∀ {cs : List Comparator} {st st' : Bound × Bound}, (∀ c ∈ cs, AddsC P B c) →
    StartAdds P B st.1 ∧ FinAdds P B st.2 → Osv.tryFromLoop n st cs = .ok st' → StartAdds P B st'.1 ∧ FinAdds P B st'.2
  | [], st, st', _, h, hs => by cases hs; exact h
  | c :: cs, st, st', hc, h, hs => by
    unfold Osv.tryFromLoop at hs
    obtain ⟨s1, he, hs⟩ := bindOk hs
    exact loop_adds (fun x hx => hc x (by simp [hx])) (step_adds (hc c (by simp)) h he) hs

theorem tryFrom_adds {r : VersionReq} {u : URange} (hr : ∀ c ∈ r.comparators, AddsC P B c) (h : URange.tryFrom r = .ok u) :
    StartAdds P B u.start ∧ FinAdds P B u.fin := by
  unfold URange.tryFrom at h
  split at h
  · cases h
  · obtain ⟨st, hl, h⟩ := bindOk h
    have := loop_adds (st := (.unbounded, .unbounded)) hr ⟨trivial, trivial⟩ hl
    unfold URange.new at h
    split at h
    · cases h; exact this
    · cases h

theorem increment_same {v : Version} (h : Adds P B v.patch) : Same P (Osv64.increment B v) (.ok (Osv.increment v)) := by
  unfold Osv64.increment Osv.increment
  by_cases hp : v.pre.isEmpty = true
  · rw [if_pos hp, if_pos hp]
    exact adds_bind h _
  · rw [if_neg hp, if_neg hp]
    exact .inl rfl

theorem leading_same {u : URange} (h : StartAdds P B u.start) : Same P (Osv64.leading B u) (.ok (Osv.leading u)) := by
  unfold Osv64.leading Osv.leading
  cases hs : u.start with
  | unbounded => exact .inl rfl
  | inclusive v => exact .inl rfl
  | exclusive v =>
    rw [hs] at h
    exact Same.bind (f := fun w => Outcome.ok [({ introduced := none, fixed := some w } : OsvRange)]) (increment_same h)
      (fun _ _ => .inl rfl)

theorem trailing_same {u : URange} (h : FinAdds P B u.fin) : Same P (Osv64.trailing B u) (.ok (Osv.trailing u)) := by
  unfold Osv64.trailing Osv.trailing
  cases hs : u.fin with
  | unbounded => exact .inl rfl
  | exclusive v => exact .inl rfl
  | inclusive v =>
    rw [hs] at h
    exact Same.bind (f := fun w => Outcome.ok [({ introduced := some w, fixed := none } : OsvRange)]) (increment_same h)
      (fun _ _ => .inl rfl)

theorem between_same {a b : URange} (ha : FinAdds P B a.fin) (hb : StartAdds P B b.start) :
    Same P (Osv64.between B a b) (orPanic (Osv.between a b)) := by
  unfold Osv64.between Osv.between
  cases h1 : a.fin with
  | unbounded => cases h2 : b.start <;> exact .inl rfl
  | exclusive v =>
    cases h2 : b.start with
    | unbounded => exact .inl rfl
    | inclusive w => exact .inl rfl
    | exclusive w =>
      rw [h2] at hb
      exact Same.bind (f := fun e => Outcome.ok ({ introduced := some v, fixed := some e } : OsvRange)) (increment_same hb)
        (fun _ _ => .inl rfl)
  | inclusive v =>
    rw [h1] at ha
    cases h2 : b.start with
    | unbounded =>
      rcases increment_same ha with h | ⟨hp, h⟩
      · show Same P (Osv64.increment B v >>= _) _
        rw [h]; exact .inl rfl
      · show Same P (Osv64.increment B v >>= _) _
        rw [h]; exact .inr ⟨hp, rfl⟩
    | inclusive w =>
      exact Same.bind (f := fun s => Outcome.ok ({ introduced := some s, fixed := some w } : OsvRange)) (increment_same ha)
        (fun _ _ => .inl rfl)
    | exclusive w =>
      rw [h2] at hb
      exact Same.bind (g := fun s => Outcome.ok ({ introduced := some s, fixed := some (Osv.increment w) } : OsvRange))
        (increment_same ha) (fun s _ =>
          Same.bind (f := fun e => Outcome.ok ({ introduced := some s, fixed := some e } : OsvRange)) (increment_same hb)
            (fun _ _ => .inl rfl))

theorem complementFrom_same : ∀ {l : List URange} {a : URange},
    (∀ u ∈ a :: l, StartAdds P B u.start ∧ FinAdds P B u.fin) →
    Same P (Osv64.complementFrom B a l) (Osv.complementFrom a l)
  | [], a, h => trailing_same (h a (by simp)).2
  | b :: l, a, h => by
    unfold Osv64.complementFrom Osv.complementFrom
    have hb := between_same (h a (by simp)).2 (h b (by simp)).1
    have ih := complementFrom_same (l := l) (a := b) (fun u hu => h u (by simp [List.mem_cons.mp hu]))
    have := Same.bind (f := fun r => Osv64.complementFrom B b l >>= fun rs => .ok (r :: rs))
      (g := fun r => Osv.complementFrom b l >>= fun rs => .ok (r :: rs)) hb
      (fun r _ => Same.bind ih fun _ _ => .inl rfl)
    cases hc : Osv.between a b with
    | none => rw [hc] at this; exact this
    | some r => rw [hc] at this; exact this

theorem complement_same {l : List URange} (h : ∀ u ∈ l, StartAdds P B u.start ∧ FinAdds P B u.fin) :
    Same P (Osv64.complement B l) (Osv.complement l) := by
  cases l with
  | nil => exact .inl rfl
  | cons a l =>
    rw [Osv64.complement, Osv.complement]
    exact Same.bind (g := fun x => Osv.complementFrom a l >>= fun rs => .ok (x ++ rs)) (leading_same (h a (by simp)).1)
      (fun _ _ => Same.bind (complementFrom_same h) fun _ _ => .inl rfl)

theorem mapList_same {α β : Type} {f g : α → Outcome β} : ∀ {l : List α}, (∀ x ∈ l, Same P (f x) (g x)) →
    Same P (Outcome.mapList f l) (Outcome.mapList g l)
  | [], _ => .inl rfl
  | x :: l, h => by
    unfold Outcome.mapList
    rcases h x (by simp) with h1 | ⟨hp, h1⟩
    · rw [h1]
      cases g x with
      | err => exact .inl rfl
      | panic => exact .inl rfl
      | ok y =>
        rcases mapList_same (l := l) (fun z hz => h z (by simp [hz])) with h2 | ⟨hp, h2⟩
        · rw [h2]; exact .inl rfl
        · rw [h2]; exact .inr ⟨hp, rfl⟩
    · rw [h1]; exact .inr ⟨hp, rfl⟩

theorem ranges_same {unaffected patched : List VersionReq}
    (h : ∀ r ∈ patched ++ unaffected, ∀ c ∈ r.comparators, AddsC P B c) :
    Same P (Osv64.unaffectedToOsvRanges B unaffected patched) (Osv.unaffectedToOsvRanges unaffected patched) := by
  have h' : ∀ r ∈ unaffected ++ patched, ∀ c ∈ r.comparators, AddsC P B c := by
    intro r hr
    exact h r (by simp only [List.mem_append] at hr ⊢; exact hr.symm)
  unfold Osv64.unaffectedToOsvRanges Osv.unaffectedToOsvRanges
  refine Same.bind (mapList_same fun r hr => tryFrom_same (h' r hr)) fun us hus => ?_
  have hall : ∀ u ∈ us, StartAdds P B u.start ∧ FinAdds P B u.fin := by
    intro u hu
    obtain ⟨x, hx, hxu⟩ := forall2_right ((mapList_iff _ _ _).mp hus) u hu
    exact tryFrom_adds (h' x hx) hxu
  split
  · exact .inl rfl
  · split
    · exact .inl rfl
    · refine Same.bind (.inl rfl) fun l hl => complement_same fun u hu => hall u ?_
      unfold sortRanges at hl
      split at hl
      · cases hl
      · cases hl
        exact (List.perm_insertionSort _ _).mem_iff.mp hu

theorem all_same {patched unaffected : List VersionReq}
    (h : ∀ r ∈ patched ++ unaffected, ∀ c ∈ r.comparators, AddsC P B c) :
    Same P (Osv64.Versions.new B patched unaffected) (Versions.new patched unaffected) ∧
    (∀ v, Same P (Osv64.isVulnerable B ⟨patched, unaffected⟩ v) (Versions.isVulnerable ⟨patched, unaffected⟩ v)) ∧
    Same P (Osv64.osvTimeline B ⟨patched, unaffected⟩) (osvTimeline ⟨patched, unaffected⟩) := by
  have hr := ranges_same h
  have hra : Same P (Osv64.rangesForAdvisory B ⟨patched, unaffected⟩) (rangesForAdvisory ⟨patched, unaffected⟩) := by
    unfold Osv64.rangesForAdvisory rangesForAdvisory
    rcases hr with e | ⟨hp, e⟩
    · rw [e]; exact .inl rfl
    · rw [e]; exact .inr ⟨hp, rfl⟩
  exact ⟨Same.bind hr fun _ _ => .inl rfl, fun v => Same.bind hra fun _ _ => .inl rfl, Same.bind hra fun _ _ => .inl rfl⟩

/-! ### The two builds -/

theorem small_adds (hB : IsBuild B) {n : Nat} (h : n < 2 ^ 64 - 1) : Adds False B n := by
  left
  rcases hB with rfl | rfl
  · unfold Osv64.debug
    rw [if_pos (by omega)]
  · unfold Osv64.release
    rw [Nat.mod_eq_of_lt (by omega)]

theorem debug_adds (n : Nat) : Adds True Osv64.debug n := by
  unfold Adds Osv64.debug
  split
  · exact .inl rfl
  · exact .inr ⟨trivial, rfl⟩

/-- **C98, small numbers.**  If one can be added to every number of the requirements, both builds of the program compute what
the model with unbounded numbers computes: whether the requirements are accepted, which versions are vulnerable, and the OSV
events. -/
theorem C98_same (hB : IsBuild B) (patched unaffected : List VersionReq) (h : ∀ r ∈ patched ++ unaffected, SmallReq r) :
    Osv64.Versions.new B patched unaffected = Versions.new patched unaffected ∧
    (∀ v, Osv64.isVulnerable B ⟨patched, unaffected⟩ v = Versions.isVulnerable ⟨patched, unaffected⟩ v) ∧
    Osv64.osvTimeline B ⟨patched, unaffected⟩ = osvTimeline ⟨patched, unaffected⟩ := by
  have := all_same (P := False) (B := B) (patched := patched) (unaffected := unaffected) (fun r hr c hc =>
    ⟨small_adds hB (h r hr c hc).1, fun n hn => small_adds hB ((h r hr c hc).2.1 n hn),
      fun n hn => small_adds hB ((h r hr c hc).2.2 n hn), small_adds hB (by decide)⟩)
  simpa [Same] using this

/-- **C98, what users rely on.**  In both builds, if one can be added to every number: accepted requirements tell for every
version whether it is vulnerable, and it is exactly if no requirement covers it. -/
theorem C98_vulnerable (hB : IsBuild B) (patched unaffected : List VersionReq) (h : ∀ r ∈ patched ++ unaffected, SmallReq r)
    (hwf : ∀ r ∈ patched ++ unaffected, ReqWF r) (vs : Versions) (hvs : Osv64.Versions.new B patched unaffected = .ok vs)
    (v : Version) :
    ∃ b, Osv64.isVulnerable B vs v = .ok b ∧ (b = true ↔ ∀ r ∈ patched ++ unaffected, ¬ Covers r v) := by
  obtain ⟨h1, h2, -⟩ := C98_same hB patched unaffected h
  rw [h1] at hvs
  obtain ⟨b, hb, hc⟩ := C01_is_vulnerable_iff patched unaffected vs hwf hvs v
  obtain ⟨_, -, e⟩ := bindOk hvs
  cases e
  exact ⟨b, by rw [h2]; exact hb, hc⟩

/-- **C98, debug builds are never wrong.**  Whatever the numbers, a debug build either panics or computes what the model with
unbounded numbers computes. -/
theorem C98_debug (patched unaffected : List VersionReq) :
    (Osv64.Versions.new Osv64.debug patched unaffected = .panic ∨
      Osv64.Versions.new Osv64.debug patched unaffected = Versions.new patched unaffected) ∧
    (∀ v, Osv64.isVulnerable Osv64.debug ⟨patched, unaffected⟩ v = .panic ∨
      Osv64.isVulnerable Osv64.debug ⟨patched, unaffected⟩ v = Versions.isVulnerable ⟨patched, unaffected⟩ v) ∧
    (Osv64.osvTimeline Osv64.debug ⟨patched, unaffected⟩ = .panic ∨
      Osv64.osvTimeline Osv64.debug ⟨patched, unaffected⟩ = osvTimeline ⟨patched, unaffected⟩) := by
  have := all_same (P := True) (B := Osv64.debug) (patched := patched) (unaffected := unaffected) (fun r hr c hc =>
    ⟨debug_adds _, fun n _ => debug_adds n, fun n _ => debug_adds n, debug_adds _⟩)
  simp only [Same, true_and] at this
  exact ⟨this.1.symm, fun v => (this.2.1 v).symm, this.2.2.symm⟩

/-! ### The greatest number -/

/-- `u64::MAX`. -/
def maxU64 : Nat := 2 ^ 64 - 1

/-- **C98, violation.**  In a release build `patched = ["<= 1.0.18446744073709551615"]` is accepted, but reports 1.0.5, which
is patched, as vulnerable. -/
theorem C98_release_false_alarm :
    Osv64.Versions.new Osv64.release [req .lessEq 1 0 maxU64] [] = .ok ⟨[req .lessEq 1 0 maxU64], []⟩ ∧
    Osv64.isVulnerable Osv64.release ⟨[req .lessEq 1 0 maxU64], []⟩ (.release 1 0 5) = .ok true ∧
    Covers (req .lessEq 1 0 maxU64) (.release 1 0 5) := by
  decide +kernel

/-- **C98, violation.**  In a release build `patched = ["> 1.0.18446744073709551615"]` is accepted, but does not report
1.0.5, which is not patched, as vulnerable. -/
theorem C98_release_missed :
    Osv64.Versions.new Osv64.release [req .greater 1 0 maxU64] [] = .ok ⟨[req .greater 1 0 maxU64], []⟩ ∧
    Osv64.isVulnerable Osv64.release ⟨[req .greater 1 0 maxU64], []⟩ (.release 1 0 5) = .ok false ∧
    ¬ Covers (req .greater 1 0 maxU64) (.release 1 0 5) := by
  decide +kernel

/-- **C98, violation.**  A debug build panics on them, and a release build refuses `^18446744073709551615.0.0`. -/
theorem C98_max_refused :
    Osv64.Versions.new Osv64.debug [req .lessEq 1 0 maxU64] [] = .panic ∧
    Osv64.Versions.new Osv64.release [req .caret maxU64 0 0] [] = .err ∧
    Versions.new [req .caret maxU64 0 0] [] = .ok ⟨[req .caret maxU64 0 0], []⟩ := by
  decide +kernel

/-- The hypotheses of `C98_same` are met by requirements that are accepted, and one below the greatest number suffices. -/
example : (∀ r ∈ [req .greaterEq 1 2 3] ++ [req .lessEq 0 5 (maxU64 - 1), req .caret 0 9 1], SmallReq r) ∧
    Osv64.Versions.new Osv64.release [req .greaterEq 1 2 3] [req .lessEq 0 5 (maxU64 - 1), req .caret 0 9 1] =
      .ok ⟨[req .greaterEq 1 2 3], [req .lessEq 0 5 (maxU64 - 1), req .caret 0 9 1]⟩ := by
  refine ⟨?_, by decide +kernel⟩
  intro r hr c hc
  simp only [List.cons_append, List.nil_append, List.mem_cons, List.not_mem_nil, or_false] at hr
  rcases hr with rfl | rfl | rfl <;>
  · simp only [req, List.mem_singleton] at hc
    subst hc
    refine ⟨by decide, fun n hn => ?_, fun n hn => ?_⟩ <;> cases hn <;> decide

end Verif.Props
