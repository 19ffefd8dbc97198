import Verif.Spec.ModTimes
import Verif.Props.AdvisoryFile
import Mathlib.Data.List.Dedup

/-!
# Modification times of files in git (C55)
-/

namespace Verif.Props

open Verif.Adv Verif.Git Verif.Spec

theorem le_iff (a b : Time) : a.le b = true ↔ NotLater a b := by
  unfold Time.le NotLater
  simp

theorem notLater_refl (a : Time) : NotLater a a := .inr ⟨rfl, Int.le_refl _⟩

theorem notLater_trans {a b c : Time} (h : NotLater a b) (h' : NotLater b c) : NotLater a c := by
  unfold NotLater at *; omega

theorem notLater_total (a b : Time) : NotLater a b ∨ NotLater b a := by
  unfold NotLater; omega

theorem notLater_antisymm {a b : Time} (h : NotLater a b) (h' : NotLater b a) : a = b := by
  obtain ⟨s, o⟩ := a
  obtain ⟨s', o'⟩ := b
  unfold NotLater at *
  simp only at h h'
  have : s = s' ∧ o = o' := by omega
  rw [this.1, this.2]

/-- `t` is the extreme one of the times in `S`. -/
def Extreme (R : Time → Time → Prop) (S : Time → Prop) (t : Time) : Prop := S t ∧ ∀ t', S t' → R t' t

/-- What is needed of `max` and `min`. -/
structure Picks (f : Time → Time → Time) (R : Time → Time → Prop) : Prop where
  refl : ∀ a, R a a
  trans : ∀ {a b c}, R a b → R b c → R a c
  left : ∀ a b, R a (f a b)
  right : ∀ a b, R b (f a b)
  one : ∀ a b, f a b = a ∨ f a b = b

theorem max_picks : Picks Time.max NotLater where
  refl := notLater_refl
  trans := notLater_trans
  left a b := by
    unfold Time.max; split
    · rename_i h; exact (le_iff a b).mp h
    · exact notLater_refl a
  right a b := by
    unfold Time.max; split
    · exact notLater_refl b
    · rename_i h
      exact (notLater_total b a).resolve_right fun h' => h ((le_iff a b).mpr h')
  one a b := by unfold Time.max; split <;> simp

theorem min_picks : Picks Time.min (fun a b => NotLater b a) where
  refl := notLater_refl
  trans h h' := notLater_trans h' h
  left a b := by
    unfold Time.min; split
    · exact notLater_refl a
    · rename_i h
      exact (notLater_total b a).resolve_right fun h' => h ((le_iff a b).mpr h')
  right a b := by
    unfold Time.min; split
    · rename_i h; exact (le_iff a b).mp h
    · exact notLater_refl b
  one a b := by unfold Time.min; split <;> simp

/-- The map holds, for every path, the extreme one of the times in `S path`. -/
def Holds (R : Time → Time → Prop) (S : Str → Time → Prop) (m : TimeMap) : Prop :=
  ∀ p, match m.lookup p with
    | some t => Extreme R (S p) t
    | none => ∀ t, ¬ S p t

theorem lookup_filter_path (m : TimeMap) {p q : Str} (hne : p ≠ q) :
    (m.filter fun e => !decide (e.1 = q)).lookup p = m.lookup p := by
  induction m with
  | nil => rfl
  | cons e t ih =>
    obtain ⟨k, v⟩ := e
    by_cases hk : k = q
    · rw [List.filter_cons_of_neg (by simp [hk]), ih, List.lookup_cons]
      have : (p == k) = false := by simpa [hk] using hne
      rw [this]
    · rw [List.filter_cons_of_pos (by simp [hk]), List.lookup_cons, List.lookup_cons, ih]

theorem holds_update {f : Time → Time → Time} {R : Time → Time → Prop} (hf : Picks f R)
    {S : Str → Time → Prop} {m : TimeMap} (h : Holds R S m) (q : Str) (t : Time) :
    Holds R (fun p t' => S p t' ∨ (p = q ∧ t' = t)) (m.update f q t) := by
  intro p
  have hp := h p
  by_cases e : p = q
  · subst e
    unfold TimeMap.update
    cases hl : m.lookup p with
    | none =>
      rw [hl] at hp
      simp only [List.lookup_cons, beq_self_eq_true]
      refine ⟨.inr (by simp), fun t' ht' => ?_⟩
      rcases ht' with h | ⟨-, rfl⟩
      · exact absurd h (hp t')
      · exact hf.refl _
    | some old =>
      rw [hl] at hp
      simp only [List.lookup_cons, beq_self_eq_true]
      constructor
      · rcases hf.one old t with h | h
        · rw [h]; exact .inl hp.1
        · rw [h]; exact .inr (by simp)
      · intro t' ht'
        rcases ht' with h | ⟨-, rfl⟩
        · exact hf.trans (hp.2 t' h) (hf.left old t)
        · exact hf.right old t'
  · have hne : (p == q) = false := by simpa using e
    have hl : (m.update f q t).lookup p = m.lookup p := by
      unfold TimeMap.update
      cases m.lookup q with
      | none => simp only [List.lookup_cons, hne]
      | some old => simp only [List.lookup_cons, hne]; exact lookup_filter_path m e
    simp only [hl]
    cases hl : m.lookup p with
    | none =>
      rw [hl] at hp
      intro t' ht'
      rcases ht' with h | ⟨h, -⟩
      · exact hp t' h
      · exact e h
    | some x =>
      rw [hl] at hp
      refine ⟨.inl hp.1, fun t' ht' => ?_⟩
      rcases ht' with h | ⟨h, -⟩
      · exact hp.2 t' h
      · exact absurd h e

theorem holds_congr {R : Time → Time → Prop} {S S' : Str → Time → Prop} {m : TimeMap} (h : Holds R S m)
    (e : ∀ p t, S p t ↔ S' p t) : Holds R S' m := by
  have : S = S' := funext fun p => funext fun t => propext (e p t)
  exact this ▸ h

/-- Both maps of the state. -/
def HoldsBoth (S : Str → Time → Prop) (m : ModTimes) : Prop :=
  Holds NotLater S m.mtimes ∧ Holds (fun a b => NotLater b a) S m.ctimes

theorem holds_record (paths : List Str) (t : Time) : ∀ {S : Str → Time → Prop} {m : ModTimes}, HoldsBoth S m →
    HoldsBoth (fun p t' => S p t' ∨ (p ∈ paths ∧ t' = t)) (paths.foldl (ModTimes.record t) m) := by
  induction paths with
  | nil =>
    intro S m h
    exact ⟨holds_congr h.1 (by simp), holds_congr h.2 (by simp)⟩
  | cons q paths ih =>
    intro S m h
    rw [List.foldl_cons]
    have := ih (S := fun p t' => S p t' ∨ (p = q ∧ t' = t)) (m := m.record t q)
      ⟨holds_update max_picks h.1 q t, holds_update min_picks h.2 q t⟩
    have e : ∀ p t', ((S p t' ∨ (p = q ∧ t' = t)) ∨ (p ∈ paths ∧ t' = t)) ↔
        (S p t' ∨ (p ∈ q :: paths ∧ t' = t)) := by
      intro p t'
      rw [List.mem_cons]
      grind
    exact ⟨holds_congr this.1 e, holds_congr this.2 e⟩

theorem lookup_none_of_not_mem {m : Files} {p : Str} (h : p ∉ m.map Prod.fst) : m.lookup p = none := by
  induction m with
  | nil => rfl
  | cons e t ih =>
    obtain ⟨k, v⟩ := e
    rw [List.map_cons, List.mem_cons, not_or] at h
    rw [List.lookup_cons]
    have : (p == k) = false := by simpa using h.1
    rw [this]
    exact ih h.2

theorem mem_diff (a b : Files) (p : Str) : p ∈ diff a b ↔ a.lookup p ≠ b.lookup p := by
  unfold diff
  rw [List.mem_filter, List.mem_dedup, decide_eq_true_iff]
  constructor
  · exact fun h => h.2
  · intro h
    refine ⟨?_, h⟩
    by_contra hm
    rw [List.map_append, List.mem_append, not_or] at hm
    exact h (by rw [lookup_none_of_not_mem hm.1, lookup_none_of_not_mem hm.2])

theorem previousTree_iff (db : Objects) (c : GitCommit) :
    (previousTree db c = none ↔ ¬ c.parents.length ≤ 1) ∧
    (∀ prev, previousTree db c = some prev → ∀ p, prev.lookup p = before db c p) := by
  unfold previousTree before
  cases hp : c.parents with
  | nil => exact ⟨by simp, fun prev h p => by cases h; rfl⟩
  | cons a t =>
    cases t with
    | nil =>
      refine ⟨by simp, fun prev h p => ?_⟩
      cases h
      simp only [List.head?_cons, Option.bind_some]
      cases db.lookup a <;> rfl
    | cons b t => exact ⟨by simp, fun prev h => by cases h⟩

theorem walk_holds (db : Objects) (ids : List Nat) : ∀ {S : Str → Time → Prop} {m m' : ModTimes},
    HoldsBoth S m → ModTimes.walk db m ids = .ok m' →
    HoldsBoth (fun p t => S p t ∨ TouchedAt db ids p t) m' := by
  induction ids with
  | nil =>
    intro S m m' h e
    cases e
    have : ∀ p t, S p t ↔ (S p t ∨ TouchedAt db [] p t) := by
      intro p t; simp [TouchedAt]
    exact ⟨holds_congr h.1 this, holds_congr h.2 this⟩
  | cons id ids ih =>
    intro S m m' h e
    rw [ModTimes.walk] at e
    cases hl : db.lookup id with
    | none => rw [hl] at e; cases e
    | some c =>
      rw [hl] at e
      simp only at e
      obtain ⟨hm, hb⟩ := previousTree_iff db c
      have hcons : ∀ p t, TouchedAt db (id :: ids) p t ↔
          (c.parents.length ≤ 1 ∧ c.time = t ∧ before db c p ≠ c.tree.lookup p) ∨ TouchedAt db ids p t := by
        intro p t
        unfold TouchedAt
        constructor
        · rintro ⟨i, hi, c', hc', rest⟩
          rcases List.mem_cons.mp hi with rfl | hi
          · rw [hl] at hc'; cases hc'; exact .inl rest
          · exact .inr ⟨i, hi, c', hc', rest⟩
        · rintro (h | ⟨i, hi, rest⟩)
          · exact ⟨id, by simp, c, hl, h⟩
          · exact ⟨i, List.mem_cons_of_mem _ hi, rest⟩
      cases hp : previousTree db c with
      | none =>
        rw [hp] at e
        have := ih h e
        have hmerge : ¬ c.parents.length ≤ 1 := hm.mp hp
        have e2 : ∀ p t, (S p t ∨ TouchedAt db ids p t) ↔ (S p t ∨ TouchedAt db (id :: ids) p t) := by
          intro p t
          rw [hcons p t]
          grind
        exact ⟨holds_congr this.1 e2, holds_congr this.2 e2⟩
      | some prev =>
        rw [hp] at e
        have := ih (holds_record (diff prev c.tree) c.time h) e
        have hsingle : c.parents.length ≤ 1 := by
          by_contra hn
          rw [hm.mpr hn] at hp; cases hp
        have e2 : ∀ p t, ((S p t ∨ (p ∈ diff prev c.tree ∧ t = c.time)) ∨ TouchedAt db ids p t) ↔
            (S p t ∨ TouchedAt db (id :: ids) p t) := by
          intro p t
          rw [hcons p t, mem_diff, hb prev hp p]
          grind
        exact ⟨holds_congr this.1 e2, holds_congr this.2 e2⟩

theorem new_holds {db : Objects} {ids : List Nat} {m : ModTimes} (h : ModTimes.new db ids = .ok m) :
    HoldsBoth (TouchedAt db ids) m := by
  have h0 : HoldsBoth (fun _ _ => False) {} := ⟨fun p t => id, fun p t => id⟩
  have := walk_holds db ids h0 h
  exact ⟨holds_congr this.1 (by simp), holds_congr this.2 (by simp)⟩

/-- **C55.**  For every history: the recorded modification time of a file is the latest time of a commit, not
a merge, that changed it; the recorded creation time the earliest; nothing is recorded for a file that no
such commit changed. -/
theorem C55_times (db : Objects) (ids : List Nat) (m : ModTimes) (h : ModTimes.new db ids = .ok m) (p : Str) :
    (∀ t, m.mtimes.lookup p = some t ↔
      TouchedAt db ids p t ∧ ∀ t', TouchedAt db ids p t' → NotLater t' t) ∧
    (∀ t, m.ctimes.lookup p = some t ↔
      TouchedAt db ids p t ∧ ∀ t', TouchedAt db ids p t' → NotLater t t') ∧
    (m.mtimes.lookup p = none ↔ ∀ t, ¬ TouchedAt db ids p t) := by
  obtain ⟨h1, h2⟩ := new_holds h
  have h1 := h1 p
  have h2 := h2 p
  refine ⟨fun t => ?_, fun t => ?_, ?_⟩
  · cases hl : m.mtimes.lookup p with
    | none =>
      rw [hl] at h1
      exact ⟨fun h => (by cases h), fun h => absurd h.1 (h1 t)⟩
    | some x =>
      rw [hl] at h1
      constructor
      · intro e; cases e; exact h1
      · rintro ⟨ht, hmax⟩
        rw [notLater_antisymm (h1.2 t ht) (hmax x h1.1)]
  · cases hl : m.ctimes.lookup p with
    | none =>
      rw [hl] at h2
      exact ⟨fun h => (by cases h), fun h => absurd h.1 (h2 t)⟩
    | some x =>
      rw [hl] at h2
      constructor
      · intro e; cases e; exact h2
      · rintro ⟨ht, hmin⟩
        rw [notLater_antisymm (h2.2 t ht) (hmin x h2.1)]
  · cases hl : m.mtimes.lookup p with
    | none => rw [hl] at h1; simpa using h1
    | some x =>
      rw [hl] at h1
      simp only [reduceCtorEq, false_iff, not_forall, not_not]
      exact ⟨x, h1.1⟩

theorem walk_ok_iff (db : Objects) (ids : List Nat) : ∀ m,
    (∃ m', ModTimes.walk db m ids = .ok m') ↔ ∀ id ∈ ids, db.lookup id ≠ none := by
  induction ids with
  | nil => intro m; exact ⟨fun _ => by simp, fun _ => ⟨m, rfl⟩⟩
  | cons id ids ih =>
    intro m
    rw [ModTimes.walk]
    cases hl : db.lookup id with
    | none =>
      refine ⟨fun ⟨_, h⟩ => (by cases h), fun h => absurd hl (h id (by simp))⟩
    | some c =>
      have hc : (∀ i ∈ id :: ids, db.lookup i ≠ none) ↔ ∀ i ∈ ids, db.lookup i ≠ none := by
        refine ⟨fun h i hi => h i (List.mem_cons_of_mem _ hi), fun h i hi => ?_⟩
        rcases List.mem_cons.mp hi with rfl | hi
        · rw [hl]; exact Option.some_ne_none c
        · exact h i hi
      rw [hc]
      simp only
      cases previousTree db c with
      | none => exact ih m
      | some prev => exact ih _

/-- **C55 (order).**  The order in which the history is walked, and repetitions in it, do not matter. -/
theorem C55_order_independent (db : Objects) (ids ids' : List Nat) (hs : ∀ id, id ∈ ids ↔ id ∈ ids')
    (m : ModTimes) (h : ModTimes.new db ids = .ok m) :
    ∃ m', ModTimes.new db ids' = .ok m' ∧ ∀ p, m'.mtimes.lookup p = m.mtimes.lookup p ∧
      m'.ctimes.lookup p = m.ctimes.lookup p := by
  obtain ⟨m', h'⟩ := (walk_ok_iff db ids' {}).mpr fun id hid =>
    (walk_ok_iff db ids {}).mp ⟨m, h⟩ id ((hs id).mpr hid)
  refine ⟨m', h', fun p => ?_⟩
  have et : ∀ t, TouchedAt db ids p t ↔ TouchedAt db ids' p t := by
    intro t
    unfold TouchedAt
    simp only [hs]
  obtain ⟨a1, a2, -⟩ := C55_times db ids m h p
  obtain ⟨b1, b2, -⟩ := C55_times db ids' m' h' p
  constructor
  · apply Option.ext
    intro t
    rw [a1 t, b1 t]
    simp only [et]
  · apply Option.ext
    intro t
    rw [a2 t, b2 t]
    simp only [et]

theorem showNatPad_width {w n : Nat} (hw : 1 ≤ w) (h : n < 10 ^ w) : (showNatPad w n).length = w := by
  have : (showNat n).length ≤ w := by
    unfold showNat
    rw [Nat.length_toDigits_le_iff (by omega) hw]
    exact h
  unfold showNatPad
  simp only [List.length_append, List.length_replicate]
  omega

theorem isoFormat_iso {y m d : Nat} (h : CalendarDay y m d) (hy : y ≤ 9999) :
    IsoText (isoFormat (y : Int) m d) y m d := by
  obtain ⟨h1, h2, h3, h4⟩ := h
  have h5 : d ≤ 31 := Nat.le_trans h4 (by unfold monthDays; split <;> (try split) <;> omega)
  refine ⟨showNatPad 4 y, showNatPad 2 m, showNatPad 2 d, ?_, showNatPad_width (by omega) (by omega),
    showNatPad_width (by omega) (by omega), showNatPad_width (by omega) (by omega), ?_,
    (ofDigitChars_showNatPad 4 y).symm, (ofDigitChars_showNatPad 2 m).symm, (ofDigitChars_showNatPad 2 d).symm⟩
  · unfold isoFormat
    rw [if_pos (by omega)]
    rfl
  · intro c hc
    simp only [List.mem_append] at hc
    rcases hc with (hc | hc) | hc <;> exact isDigit_of_mem_showNatPad hc

/-- **C55 (dates).**  For a file that some non-merge commit changed, with commit times in the years 2000 to
2100 (in the committer's time zone), the creation and modification dates are valid dates: the
calendar days, in the committers' time zones, of the first and the last such commit. -/
theorem C55_dates (cal : Int → Int × Nat × Nat) (civil : Str → Option (Int × Nat × Nat)) (hcal : CalLaw cal)
    (hciv : IsoLaw civil) (t : Time) (y : Int) (mo d : Nat)
    (hs : -377705116800 ≤ t.seconds ∧ t.seconds ≤ 253402300799)
    (hoff : -93599 ≤ t.offset ∧ t.offset ≤ 93599)
    (hc : cal ((t.seconds + t.offset) / 86400) = (y, mo, d)) (h1 : 0 ≤ y) (h2 : y ≤ 9999) :
    (2000 ≤ y → y ≤ 2100 → ∃ D, dateOfTime cal civil t = .ok D ∧ IsoText D.text y.toNat mo d ∧
      D.year = .ok y.toNat ∧ D.month = .ok mo ∧ D.day = .ok d) ∧
    (y < 2000 ∨ 2100 < y → dateOfTime cal civil t = .panic) := by
  have hday := hcal _ y mo d hc h1 h2
  have hy : y = (y.toNat : Int) := by omega
  have hiso := isoFormat_iso hday (by omega)
  rw [← hy] at hiso
  have hC := (C20_date civil hciv (isoFormat y mo d)).1 _ _ _ hiso
  have hl : localSeconds t = .ok (t.seconds + t.offset) := by
    unfold localSeconds; rw [if_pos hs, if_pos hoff]
  constructor
  · intro a b
    have hok := hC.1.mpr ⟨hday, by omega, by omega⟩
    refine ⟨⟨isoFormat y mo d⟩, ?_, hiso, hC.2⟩
    unfold dateOfTime
    rw [hl]
    simp only [hc, hok]
  · intro hr
    have hno : ∀ D, DateText.fromStr civil (isoFormat y mo d) ≠ .ok D := by
      intro D hD
      have e := ((C20_date civil hciv (isoFormat y mo d)).2.1 D hD).1
      have : D = ⟨isoFormat y mo d⟩ := by cases D; simp only at e; rw [e]
      rw [this] at hD
      have := (hC.1.mp hD).2
      omega
    unfold dateOfTime
    rw [hl]
    simp only [hc]
    cases hD : DateText.fromStr civil (isoFormat y mo d) with
    | ok D => exact absurd hD (hno D)
    | err => rfl
    | panic => rfl

/-- **C55 (lookup).**  The lookups panic exactly when no non-merge commit changed the file (even if it is in
the current tree, because a merge commit brought it in), or when its time cannot be shown. -/
theorem C55_for_path (db : Objects) (ids : List Nat) (m : ModTimes) (h : ModTimes.new db ids = .ok m)
    (p : Str) :
    ((∀ t, ¬ TouchedAt db ids p t) → m.forPath p = .panic) ∧
    (∀ t, TouchedAt db ids p t → (∀ t', TouchedAt db ids p t' → NotLater t' t) →
      -377705116800 ≤ t.seconds → t.seconds ≤ 253402300799 → -93599 ≤ t.offset → t.offset ≤ 93599 →
      m.forPath p = .ok t.seconds) := by
  obtain ⟨h1, -, h3⟩ := C55_times db ids m h p
  constructor
  · intro hn
    unfold ModTimes.forPath
    rw [h3.mpr hn]
  · intro t ht hmax a b c d
    unfold ModTimes.forPath
    rw [(h1 t).mpr ⟨ht, hmax⟩]
    simp only
    unfold localSeconds
    rw [if_pos ⟨a, b⟩, if_pos ⟨c, d⟩]

/-- The date shown for a commit time: the calendar day in the committer's time zone. -/
def ShowsDay (cal : Int → Int × Nat × Nat) (t : Time) (r : Outcome DateText) : Prop :=
  ∀ (y : Int) (mo d : Nat), (-377705116800 ≤ t.seconds ∧ t.seconds ≤ 253402300799) →
    (-93599 ≤ t.offset ∧ t.offset ≤ 93599) → cal ((t.seconds + t.offset) / 86400) = (y, mo, d) → 0 ≤ y → y ≤ 9999 →
    (2000 ≤ y → y ≤ 2100 → ∃ D, r = .ok D ∧ IsoText D.text y.toNat mo d) ∧
    (y < 2000 ∨ 2100 < y → r = .panic)

/-- **C55 (dates of a file).**  `mdate_for_path` is the day of the last commit, other than a merge, that changed
the file, and `cdate_for_path` the day of the first one; both panic if there is none. -/
theorem C55_dates_for_path (cal : Int → Int × Nat × Nat) (civil : Str → Option (Int × Nat × Nat)) (hcal : CalLaw cal)
    (hciv : IsoLaw civil) (db : Objects) (ids : List Nat) (m : ModTimes) (h : ModTimes.new db ids = .ok m) (p : Str) :
    (∀ t, TouchedAt db ids p t → (∀ t', TouchedAt db ids p t' → NotLater t' t) →
      ShowsDay cal t (m.mdateForPath cal civil p)) ∧
    (∀ t, TouchedAt db ids p t → (∀ t', TouchedAt db ids p t' → NotLater t t') →
      ShowsDay cal t (m.cdateForPath cal civil p)) ∧
    ((∀ t, ¬ TouchedAt db ids p t) →
      m.mdateForPath cal civil p = .panic ∧ m.cdateForPath cal civil p = .panic) := by
  obtain ⟨h1, h2, h3⟩ := C55_times db ids m h p
  refine ⟨fun t ht hmax => ?_, fun t ht hmin => ?_, fun hn => ?_⟩
  · intro y mo d hs ho hc a b
    have := C55_dates cal civil hcal hciv t y mo d hs ho hc a b
    unfold ModTimes.mdateForPath
    rw [(h1 t).mpr ⟨ht, hmax⟩]
    exact ⟨fun u v => (this.1 u v).imp fun D hD => ⟨hD.1, hD.2.1⟩, this.2⟩
  · intro y mo d hs ho hc a b
    have := C55_dates cal civil hcal hciv t y mo d hs ho hc a b
    unfold ModTimes.cdateForPath
    rw [(h2 t).mpr ⟨ht, hmin⟩]
    exact ⟨fun u v => (this.1 u v).imp fun D hD => ⟨hD.1, hD.2.1⟩, this.2⟩
  · have e1 := h3.mpr hn
    have e2 : m.ctimes.lookup p = none := by
      cases hl : m.ctimes.lookup p with
      | none => rfl
      | some t => exact absurd ((h2 t).mp hl).1 (hn t)
    unfold ModTimes.mdateForPath ModTimes.cdateForPath
    rw [e1, e2]
    exact ⟨rfl, rfl⟩

/-! ### Examples -/

/-- Two branches and a merge; the file `c` appears in the merge only. -/
def exObjects : Objects :=
  [(0, ⟨[], ⟨1000, 0⟩, [("a".toList, 1)]⟩),
   (1, ⟨[0], ⟨2000, 3600⟩, [("a".toList, 2)]⟩),
   (2, ⟨[0], ⟨3000, 0⟩, [("a".toList, 1), ("b".toList, 5)]⟩),
   (3, ⟨[1, 2], ⟨4000, 0⟩, [("a".toList, 2), ("b".toList, 5), ("c".toList, 6)]⟩)]

/-- The modification times of a result. -/
def mtimesOf : Outcome ModTimes → Str → Option Time
  | .ok m, p => m.mtimes.lookup p
  | _, _ => none

/-- The hypotheses of `C55_times` are met, and the times are as expected. -/
example : (ModTimes.new exObjects [3, 2, 1, 0]).isOk = true ∧
    mtimesOf (ModTimes.new exObjects [3, 2, 1, 0]) "a".toList = some ⟨2000, 3600⟩ ∧
    mtimesOf (ModTimes.new exObjects [0, 1, 2, 3]) "a".toList = some ⟨2000, 3600⟩ ∧
    mtimesOf (ModTimes.new exObjects [3, 2, 1, 0]) "b".toList = some ⟨3000, 0⟩ := by
  refine ⟨?_, ?_, ?_, ?_⟩ <;> decide +kernel

/-- **C55, violation.**  A file of the current tree whose content came in with a merge commit has no time, and
looking it up panics. -/
theorem C55_merged_file_panics :
    ∃ (db : Objects) (ids : List Nat) (m : ModTimes) (head : GitCommit) (p : Str),
      ModTimes.new db ids = .ok m ∧ db.lookup 3 = some head ∧ head.tree.lookup p ≠ none ∧
      m.forPath p = .panic := by
  have h : (match ModTimes.new exObjects [3, 2, 1, 0] with
    | .ok m => decide (m.forPath "c".toList = .panic)
    | _ => false) = true := by decide +kernel
  cases hn : ModTimes.new exObjects [3, 2, 1, 0] with
  | err => rw [hn] at h; cases h
  | panic => rw [hn] at h; cases h
  | ok m =>
    rw [hn] at h
    exact ⟨exObjects, [3, 2, 1, 0], m, ⟨[1, 2], ⟨4000, 0⟩, [("a".toList, 2), ("b".toList, 5), ("c".toList, 6)]⟩,
      "c".toList, hn, rfl, by decide +kernel, of_decide_eq_true h⟩

/-- A calendar with two days: day 18691 is 2021-03-05 and day 18692 the day after. -/
def twoDays : Int → Int × Nat × Nat := fun n =>
  if n = 18691 then (2021, 3, 5) else if n = 18692 then (2021, 3, 6) else (10000, 1, 1)

/-- The hypotheses of `C55_dates_for_path` are met: a file created on one day, and changed at 23:30 of
that day in UTC, by a committer for whom it was the next day. -/
example : CalLaw twoDays ∧
    (match ModTimes.new [(0, ⟨[], ⟨18691 * 86400 + 100, 0⟩, [("a".toList, 1)]⟩),
        (1, ⟨[0], ⟨18691 * 86400 + 84600, 3600⟩, [("a".toList, 2)]⟩)] [1, 0] with
      | .ok m => (m.cdateForPath twoDays refCivil "a".toList, m.mdateForPath twoDays refCivil "a".toList)
      | _ => (.err, .err)) = (.ok ⟨"2021-03-05".toList⟩, .ok ⟨"2021-03-06".toList⟩) := by
  refine ⟨fun n y mo d h h1 h2 => ?_, by decide +kernel⟩
  unfold twoDays at h
  split at h
  · cases h; decide
  · split at h
    · cases h; decide
    · cases h; omega

end Verif.Props
