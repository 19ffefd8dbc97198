import Verif.Spec.Assigner
import Verif.Props.Database
import Verif.Props.Id
import Verif.Props.LinterGate
import Mathlib.Data.List.Forall2

/-!
# The IDs that `assign-id` gives (C51)
-/

namespace Verif.Props

open Verif.Adv Verif.Db Verif.Assign Verif.Spec

/-! ### The text of a new ID -/

theorem showNatPad_length (w n : Nat) : w ≤ (showNatPad w n).length := by
  unfold showNatPad
  simp only [List.length_append, List.length_replicate]
  omega

theorem ofDigitChars_showNat (n : Nat) : Nat.ofDigitChars 10 (showNat n) 0 = n :=
  Nat.ofDigitChars_ten_toDigits

theorem newId_eq (y n : Nat) : newId y n = "RUSTSEC".toList ++ '-' :: (showNat y ++ '-' :: showNatPad 4 n) := by
  unfold newId
  rw [show "RUSTSEC-".toList = "RUSTSEC".toList ++ ['-'] by decide, show "-".toList = ['-'] by decide]
  simp only [List.append_assoc, List.cons_append, List.nil_append]

theorem newId_shape (y n : Nat) : RustSecId (newId y n) y n := by
  refine ⟨showNat y, showNatPad 4 n, ?_, ?_, showNat_ne_nil y, showNatPad_length 4 n, ofDigitChars_showNat y,
    ofDigitChars_showNatPad 4 n⟩
  · unfold newId
    rw [show "-".toList = ['-'] by decide]
    simp only [List.append_assoc, List.singleton_append]
  · intro c hc
    rcases List.mem_append.mp hc with h | h
    · exact isDigit_of_mem_showNat h
    · exact isDigit_of_mem_showNatPad h

theorem splitC_newId (y n : Nat) : splitC '-' (newId y n) = ["RUSTSEC".toList, showNat y, showNatPad 4 n] := by
  rw [newId_eq, splitC_append (by decide), splitC_append (dash_not_mem_showNat y),
    splitC_of_not_mem (dash_not_mem_showNatPad 4 n)]

theorem newId_inj {y n y' n' : Nat} (h : newId y n = newId y' n') : y = y' ∧ n = n' := by
  have e := congrArg (splitC '-') h
  rw [splitC_newId, splitC_newId] at e
  simp only [List.cons.injEq, and_true, true_and] at e
  constructor
  · rw [← ofDigitChars_showNat y, e.1, ofDigitChars_showNat]
  · rw [← ofDigitChars_showNatPad 4 n, e.2, ofDigitChars_showNatPad]

/-- A new ID is not the name of a draft. -/
theorem newId_not_draft (y n : Nat) (t : Str) : ¬ "RUSTSEC-0000-0000.".toList <+: newId y n ++ t := by
  rintro ⟨r, hr⟩
  rw [newId_eq, show "RUSTSEC-0000-0000.".toList = "RUSTSEC".toList ++ '-' :: ("0000".toList ++ '-' :: "0000.".toList)
    by decide] at hr
  have e := congrArg (splitC '-') hr
  simp only [List.append_assoc, List.cons_append] at e
  rw [splitC_append (by decide), splitC_append (by decide), splitC_append (by decide),
    splitC_append (dash_not_mem_showNat y)] at e
  simp only [List.cons.injEq, true_and] at e
  have h0 : y = 0 := by
    rw [← ofDigitChars_showNat y, ← e.1]; decide
  rw [h0] at e
  exact absurd e.1 (by decide)

theorem newId_ne_placeholder (y n : Nat) : newId y n ≠ placeholder := by
  intro h
  apply newId_not_draft y n ".".toList
  rw [h]
  exact ⟨[], by decide⟩

theorem newId_not_dot (y n : Nat) (t : Str) : ¬ ['.'] <+: newId y n ++ t := by
  rintro ⟨r, hr⟩
  rw [newId_eq, show "RUSTSEC".toList = 'R' :: "USTSEC".toList by decide] at hr
  have := congrArg List.head? hr
  simp only [List.cons_append, List.head?_cons, Option.some.injEq] at this
  revert this
  decide

theorem u32_digits_unique {s : Str} {n m : Nat} (h : IsU32Text s n) (hd : ∀ c ∈ s, c.isDigit = true)
    (hm : Nat.ofDigitChars 10 s 0 = m) : n = m := by
  obtain ⟨ds, hs, -, -, hn, -⟩ := h
  rcases hs with rfl | rfl
  · rw [hn, hm]
  · have := hd '+' (by simp)
    rw [plus_not_digit] at this
    cases this

theorem prefix_tail {p : Str} {k : IdKind} (h : (p, k) ∈ yearPrefixes) :
    ∃ w, p = w ++ ['-'] ∧ '-' ∉ w ∧ (w = "RUSTSEC".toList ↔ k = .rustSec) := by
  simp only [yearPrefixes, List.mem_cons, Prod.mk.injEq, List.not_mem_nil, or_false] at h
  rcases h with ⟨rfl, rfl⟩ | ⟨rfl, rfl⟩ | ⟨rfl, rfl⟩
  · exact ⟨"RUSTSEC".toList, by decide, by decide, by decide⟩
  · exact ⟨"CVE".toList, by decide, by decide, by decide⟩
  · exact ⟨"TALOS".toList, by decide, by decide, by decide⟩

/-- If an ID that was read from a file has the text of a new ID, then it has the same year and number. -/
theorem parsed_newId {y n : Nat} {s : Str} {i : Id} (h : Id.fromStr s = .ok i) (hi : i.string = newId y n) :
    i.kind = .rustSec ∧ i.year = some y ∧ i.numericalPart = some n := by
  have hs : s = newId y n := by
    have := (C19_parsed_contents s i h).1
    unfold Id.display at this
    rw [← this, hi]
  have hnp : s ≠ placeholder := hs ▸ newId_ne_placeholder y n
  have hpre : ¬ NotYearId s := by
    intro hn
    refine hn "RUSTSEC-".toList .rustSec (by simp [yearPrefixes]) ?_
    rw [hs]
    unfold newId
    simp only [List.append_assoc]
    exact List.prefix_append _ _
  rcases fromStr_cases s with ⟨e, _⟩ | ⟨_, k, Y, N, hy, e⟩ | ⟨_, hn, _⟩ | ⟨_, _, _, e⟩
  · exact absurd e hnp
  · obtain ⟨p, hp, ys, ms, hsp, hY, hY1, hY2, hM⟩ := hy
    obtain ⟨w, hw, hwd, hk⟩ := prefix_tail hp
    have e2 : splitC '-' s = [w, ys, ms] := by
      rw [hsp, hw]
      simp only [List.append_assoc, List.cons_append, List.nil_append]
      rw [splitC_append hwd, splitC_append (isU32Text_no_dash hY), splitC_of_not_mem (isU32Text_no_dash hM)]
    rw [hs, splitC_newId] at e2
    simp only [List.cons.injEq, and_true] at e2
    obtain ⟨h1, h2, h3⟩ := e2
    have hYy : Y = y := by
      rw [← h2] at hY
      exact u32_digits_unique hY (fun c hc => isDigit_of_mem_showNat hc) (ofDigitChars_showNat y)
    have hNn : N = n := by
      rw [← h3] at hM
      exact u32_digits_unique hM (fun c hc => isDigit_of_mem_showNatPad hc) (ofDigitChars_showNatPad 4 n)
    have := (C19_parsed_contents s i h).2.1 hnp k Y N ⟨p, hp, ys, ms, hsp, hY, hY1, hY2, hM⟩
    rw [this.1, this.2.1, this.2.2, hYy, hNn]
    exact ⟨hk.mp h1.symm, rfl, rfl⟩
  · exact absurd hn hpre
  · rw [h] at e; cases e

/-! ### The highest numbers -/

theorem lookup_filter_ne (h : Highest) {y y' : Nat} (hne : y' ≠ y) :
    (h.filter fun e => !decide (e.1 = y)).lookup y' = h.lookup y' := by
  induction h with
  | nil => rfl
  | cons e t ih =>
    obtain ⟨k, v⟩ := e
    by_cases hk : k = y
    · rw [List.filter_cons_of_neg (by simp [hk]), ih, List.lookup_cons]
      have : (y' == k) = false := by simpa [hk] using hne
      rw [this]
    · rw [List.filter_cons_of_pos (by simp [hk]), List.lookup_cons, List.lookup_cons, ih]

theorem lookup_set (h : Highest) (y n y' : Nat) :
    (h.set y n).lookup y' = if y' = y then some n else h.lookup y' := by
  unfold Highest.set
  rw [List.lookup_cons]
  by_cases e : y' = y
  · simp [e]
  · have : (y' == y) = false := by simpa using e
    rw [this, if_neg e]
    exact lookup_filter_ne h e

/-- The highest number of a year, 0 if there is none. -/
abbrev top (h : Highest) (y : Nat) : Nat := (h.lookup y).getD 0

theorem top_set (h : Highest) (y n y' : Nat) : top (h.set y n) y' = if y' = y then n else top h y' := by
  unfold top
  rw [lookup_set]
  split <;> rfl

theorem note_ok {h h' : Highest} {a : Advisory} (e : h.note a = .ok h') :
    ∃ y, a.metadata.date.year = .ok y ∧ (∀ y', top h y' ≤ top h' y') ∧
      (a.metadata.id.kind = .rustSec → ∃ n, a.metadata.id.numericalPart = some n ∧ n ≤ top h' y) ∧
      (∀ y', top h' y' ≠ top h y' → y' = y ∧ a.metadata.id.kind = .rustSec ∧
        a.metadata.id.numericalPart = some (top h' y')) := by
  unfold Highest.note at e
  cases hy : a.metadata.date.year with
  | err => rw [hy] at e; cases e
  | panic => rw [hy] at e; cases e
  | ok y =>
    rw [hy] at e
    simp only at e
    refine ⟨y, rfl, ?_⟩
    split at e
    · rename_i hk
      cases hn : a.metadata.id.numericalPart with
      | none => rw [hn] at e; cases e
      | some n =>
        rw [hn] at e
        simp only at e
        cases hl : h.lookup y with
        | none =>
          rw [hl] at e
          cases e
          have ht : top h y = 0 := by unfold top; rw [hl]; rfl
          refine ⟨fun y' => ?_, fun _ => ⟨n, rfl, ?_⟩, fun y' hne => ?_⟩
          · rw [top_set]; split
            · rename_i e; rw [e, ht]; omega
            · omega
          · rw [top_set, if_pos rfl]
          · rw [top_set] at hne ⊢
            split at hne
            · rename_i e; rw [if_pos e]; exact ⟨e, hk, rfl⟩
            · exact absurd rfl hne
        | some number =>
          rw [hl] at e
          have ht : top h y = number := by unfold top; rw [hl]; rfl
          simp only at e
          split at e
          · rename_i hlt
            cases e
            refine ⟨fun y' => ?_, fun _ => ⟨n, rfl, ?_⟩, fun y' hne => ?_⟩
            · rw [top_set]; split
              · rename_i e; rw [e, ht]; omega
              · omega
            · rw [top_set, if_pos rfl]
            · rw [top_set] at hne ⊢
              split at hne
              · rename_i e; rw [if_pos e]; exact ⟨e, hk, rfl⟩
              · exact absurd rfl hne
          · cases e
            refine ⟨fun y' => Nat.le_refl _, fun _ => ⟨n, rfl, ?_⟩, fun y' hne => absurd rfl hne⟩
            rw [ht]; omega
    · rename_i hk
      cases e
      exact ⟨fun y' => Nat.le_refl _, fun h => absurd h hk, fun y' hne => absurd rfl hne⟩

theorem collect_ok (as : List Advisory) : ∀ {h h' : Highest}, Highest.collect h as = .ok h' →
    (∀ y, top h y ≤ top h' y) ∧
    (∀ a ∈ as, ∃ y, a.metadata.date.year = .ok y ∧
      (a.metadata.id.kind = .rustSec → ∃ n, a.metadata.id.numericalPart = some n ∧ n ≤ top h' y)) ∧
    (∀ y, top h' y ≠ top h y → ∃ a ∈ as, a.metadata.date.year = .ok y ∧ a.metadata.id.kind = .rustSec ∧
      a.metadata.id.numericalPart = some (top h' y)) := by
  induction as with
  | nil =>
    intro h h' e
    cases e
    exact ⟨fun _ => Nat.le_refl _, by simp, fun y hne => absurd rfl hne⟩
  | cons a as ih =>
    intro h h' e
    rw [Highest.collect] at e
    cases hn : h.note a with
    | err => rw [hn] at e; cases e
    | panic => rw [hn] at e; cases e
    | ok h1 =>
      rw [hn] at e
      obtain ⟨y, hy, hmono, hnum, hexact⟩ := note_ok hn
      obtain ⟨i1, i2, i3⟩ := ih e
      refine ⟨fun y' => Nat.le_trans (hmono y') (i1 y'), ?_, ?_⟩
      · intro b hb
        rcases List.mem_cons.mp hb with rfl | hb
        · refine ⟨y, hy, fun hk => ?_⟩
          obtain ⟨n, hn, hle⟩ := hnum hk
          exact ⟨n, hn, Nat.le_trans hle (i1 y)⟩
        · exact i2 b hb
      · intro y' hne
        by_cases he : top h' y' = top h1 y'
        · rw [he] at hne
          obtain ⟨rfl, hk, hnp⟩ := hexact y' hne
          exact ⟨a, by simp, hy, hk, by rw [he]; exact hnp⟩
        · obtain ⟨b, hb, hrest⟩ := i3 y' he
          exact ⟨b, List.mem_cons_of_mem _ hb, hrest⟩

/-! ### One run -/

/-- What is written for a draft. -/
def writes (q : Path) (text : Str) : List Effect := Effect.create q :: text.map (Effect.append q)

/-- The result with one more assignment in front. -/
def consResult (a : Assignment) : Outcome (Highest × List Assignment) → Outcome (Highest × List Assignment)
  | .ok (h, as) => .ok (h, a :: as)
  | .err => .err
  | .panic => .panic

/-- The path of the new file. -/
def target (p : Path) (y n : Nat) : Path := { p with file := newId y n ++ ".md".toList }

/-- Induction over the files of a run. -/
theorem assignFiles_rec {L : AdvLib}
    {P : Highest → Disk → List Effect → Outcome (Highest × List Assignment) → Prop}
    (nil : ∀ h, P h [] [] (.ok (h, [])))
    (skip : ∀ h p t fs es r, Db.isDraft p.file = false → P h fs es r → P h ((p, t) :: fs) es r)
    (bad : ∀ h p t fs, Db.isDraft p.file = true → draftYear L t = .err → P h ((p, t) :: fs) [] .err)
    (crash : ∀ h p t fs, Db.isDraft p.file = true → draftYear L t = .panic → P h ((p, t) :: fs) [] .panic)
    (fail : ∀ h p t fs y, Db.isDraft p.file = true → draftYear L t = .ok y → replaced t = false →
      P h ((p, t) :: fs) (writes (target p y (top h y + 1)) (rewriteText (newId y (top h y + 1)) t)) .err)
    (step : ∀ h p t fs y es r, Db.isDraft p.file = true → draftYear L t = .ok y → replaced t = true →
      P (h.set y (top h y + 1)) fs es r →
      P h ((p, t) :: fs)
        (writes (target p y (top h y + 1)) (rewriteText (newId y (top h y + 1)) t) ++ .remove p :: es)
        (consResult ⟨newId y (top h y + 1), p.dir⟩ r)) :
    ∀ h fs, P h fs (assignFiles L h fs).effects (assignFiles L h fs).result := by
  intro h fs
  induction fs generalizing h with
  | nil => exact nil h
  | cons f fs ih =>
    obtain ⟨p, t⟩ := f
    cases hd : Db.isDraft p.file with
    | false =>
      have e : assignFile L h p t = ⟨[], .ok (h, none)⟩ := by
        unfold assignFile; rw [hd]; rfl
      have e2 : assignFiles L h ((p, t) :: fs) = assignFiles L h fs := by
        rw [assignFiles, e]
        simp only
        rcases hr : assignFiles L h fs with ⟨es, r | _ | _⟩ <;> simp
      rw [e2]
      exact skip h p t fs _ _ hd (ih h)
    | true =>
      cases hy : draftYear L t with
      | err =>
        have e : assignFile L h p t = ⟨[], .err⟩ := by
          unfold assignFile; rw [hd, hy]; rfl
        have e2 : assignFiles L h ((p, t) :: fs) = ⟨[], .err⟩ := by rw [assignFiles, e]
        rw [e2]
        exact bad h p t fs hd hy
      | panic =>
        have e : assignFile L h p t = ⟨[], .panic⟩ := by
          unfold assignFile; rw [hd, hy]; rfl
        have e2 : assignFiles L h ((p, t) :: fs) = ⟨[], .panic⟩ := by rw [assignFiles, e]
        rw [e2]
        exact crash h p t fs hd hy
      | ok y =>
        cases hr : replaced t with
        | false =>
          have e : assignFile L h p t = ⟨writes (target p y (top h y + 1))
              (rewriteText (newId y (top h y + 1)) t), .err⟩ := by
            unfold assignFile; rw [hd, hy]; simp only [hr]; rfl
          have e2 : assignFiles L h ((p, t) :: fs) = ⟨writes (target p y (top h y + 1))
              (rewriteText (newId y (top h y + 1)) t), .err⟩ := by rw [assignFiles, e]
          rw [e2]
          exact fail h p t fs y hd hy hr
        | true =>
          have e : assignFile L h p t = ⟨writes (target p y (top h y + 1))
              (rewriteText (newId y (top h y + 1)) t) ++ [.remove p],
              .ok (h.set y (top h y + 1), some ⟨newId y (top h y + 1), p.dir⟩)⟩ := by
            unfold assignFile; rw [hd, hy]; simp only [hr]; rfl
          have e2 : (assignFiles L h ((p, t) :: fs)).effects = writes (target p y (top h y + 1))
              (rewriteText (newId y (top h y + 1)) t) ++
                .remove p :: (assignFiles L (h.set y (top h y + 1)) fs).effects ∧
              (assignFiles L h ((p, t) :: fs)).result = consResult ⟨newId y (top h y + 1), p.dir⟩
                (assignFiles L (h.set y (top h y + 1)) fs).result := by
            rw [assignFiles, e]
            simp only
            rcases hr : assignFiles L (h.set y (top h y + 1)) fs with ⟨es, r | _ | _⟩ <;>
              simp [consResult]
          rw [e2.1, e2.2]
          exact step h p t fs y _ _ hd hy hr (ih _)

theorem created_append (a b : List Effect) : created (a ++ b) = created a ++ created b := by
  unfold created; exact List.filterMap_append

theorem created_writes (q : Path) (t : Str) : created (writes q t) = [q] := by
  have : created (t.map (Effect.append q)) = [] := by
    unfold created
    rw [List.filterMap_eq_nil_iff]
    intro e he
    obtain ⟨c, -, rfl⟩ := List.mem_map.mp he
    rfl
  show created (Effect.create q :: t.map (Effect.append q)) = [q]
  rw [show Effect.create q :: t.map (Effect.append q) = [Effect.create q] ++ t.map (Effect.append q) from rfl,
    created_append, this]
  rfl

theorem created_step (q p : Path) (t : Str) (es : List Effect) :
    created (writes q t ++ .remove p :: es) = q :: created es := by
  rw [created_append, created_writes]
  rfl

/-- Every created file is the new file of a draft, with a number above the highest one. -/
theorem created_above {L : AdvLib} (h : Highest) (fs : Disk) :
    ∀ q ∈ created (assignFiles L h fs).effects, ∃ f ∈ fs, ∃ y n, Db.isDraft f.1.file = true ∧
      draftYear L f.2 = .ok y ∧ q = target f.1 y n ∧ top h y < n := by
  refine assignFiles_rec (L := L) (P := fun h fs es _ => ∀ q ∈ created es, ∃ f ∈ fs, ∃ y n,
    Db.isDraft f.1.file = true ∧ draftYear L f.2 = .ok y ∧ q = target f.1 y n ∧ top h y < n)
    ?_ ?_ ?_ ?_ ?_ ?_ h fs
  · intro h q hq; cases hq
  · intro h p t fs es r _ ih q hq
    obtain ⟨f, hf, rest⟩ := ih q hq
    exact ⟨f, List.mem_cons_of_mem _ hf, rest⟩
  · intro h p t fs _ _ q hq; cases hq
  · intro h p t fs _ _ q hq; cases hq
  · intro h p t fs y hd hy _ q hq
    rw [created_writes] at hq
    exact ⟨(p, t), by simp, y, _, hd, hy, List.mem_singleton.mp hq, Nat.lt_succ_self _⟩
  · intro h p t fs y es r hd hy _ ih q hq
    rw [created_step] at hq
    rcases List.mem_cons.mp hq with rfl | hq
    · exact ⟨(p, t), by simp, y, _, hd, hy, rfl, Nat.lt_succ_self _⟩
    · obtain ⟨f, hf, y', n', h1, h2, h3, h4⟩ := ih q hq
      refine ⟨f, List.mem_cons_of_mem _ hf, y', n', h1, h2, h3, ?_⟩
      rw [top_set] at h4
      split at h4
      · rename_i e; rw [e]; omega
      · exact h4

/-- No two created files have the same name. -/
theorem created_nodup {L : AdvLib} (h : Highest) (fs : Disk) :
    ((created (assignFiles L h fs).effects).map Path.file).Nodup := by
  refine (assignFiles_rec (L := L) (P := fun h fs es _ => ((created es).map Path.file).Nodup ∧
    ∀ q ∈ created es, ∃ y n, q.file = newId y n ++ ".md".toList ∧ top h y < n)
    ?_ ?_ ?_ ?_ ?_ ?_ h fs).1
  · intro h; exact ⟨List.nodup_nil, fun q hq => by cases hq⟩
  · intro h p t fs es r _ ih; exact ih
  · intro h p t fs _ _; exact ⟨List.nodup_nil, fun q hq => by cases hq⟩
  · intro h p t fs _ _; exact ⟨List.nodup_nil, fun q hq => by cases hq⟩
  · intro h p t fs y hd hy _
    rw [created_writes]
    refine ⟨by simp, fun q hq => ⟨y, _, ?_, Nat.lt_succ_self _⟩⟩
    rw [List.mem_singleton.mp hq]; rfl
  · intro h p t fs y es r hd hy _ ih
    rw [created_step]
    constructor
    · rw [List.map_cons, List.nodup_cons]
      refine ⟨fun hm => ?_, ih.1⟩
      obtain ⟨q, hq, e⟩ := List.mem_map.mp hm
      obtain ⟨y', n', h1, h2⟩ := ih.2 q hq
      rw [h1] at e
      obtain ⟨rfl, rfl⟩ := newId_inj (List.append_cancel_right e)
      rw [top_set, if_pos rfl] at h2
      exact absurd h2 (Nat.lt_irrefl _)
    · intro q hq
      rcases List.mem_cons.mp hq with rfl | hq
      · exact ⟨y, _, rfl, Nat.lt_succ_self _⟩
      · obtain ⟨y', n', h1, h2⟩ := ih.2 q hq
        refine ⟨y', n', h1, ?_⟩
        rw [top_set] at h2
        split at h2
        · rename_i e; rw [e]; omega
        · exact h2

end Verif.Props
