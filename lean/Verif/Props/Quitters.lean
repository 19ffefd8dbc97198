import Verif.Spec.BinaryDeps
import Verif.Props.SyncText

/-!
# C57: crates recovered from panic messages
-/

namespace Verif.Props

open Verif.Bin Verif.Spec Verif.Lock Verif.Semver Verif.Sync

/-! ### Regular expressions -/

theorem mem_takeStar (f : UInt8 → Bool) (s p r : List UInt8) :
    (p, r) ∈ takeStar f s ↔ s = p ++ r ∧ ∀ b ∈ p, f b = true := by
  induction s generalizing p with
  | nil =>
    simp only [takeStar, List.mem_singleton, Prod.mk.injEq]
    constructor
    · rintro ⟨rfl, rfl⟩; exact ⟨rfl, by simp⟩
    · rintro ⟨h, -⟩
      have := List.nil_eq_append_iff.mp h
      exact this
  | cons b s ih =>
    unfold takeStar
    split
    · rename_i hb
      rw [List.mem_append, List.mem_map, List.mem_singleton]
      constructor
      · rintro (⟨x, hx, e⟩ | e)
        · obtain ⟨p', r'⟩ := x
          cases e
          obtain ⟨h1, h2⟩ := (ih p').mp hx
          exact ⟨by rw [h1]; rfl, fun c hc => (List.mem_cons.mp hc).elim (fun e => e ▸ hb) (h2 c)⟩
        · cases e; exact ⟨rfl, by simp⟩
      · rintro ⟨h1, h2⟩
        cases p with
        | nil => exact .inr (by rw [h1]; rfl)
        | cons c p =>
          rw [List.cons_append] at h1
          cases h1
          exact .inl ⟨(p, r), (ih p).mpr ⟨rfl, fun x hx => h2 x (List.mem_cons_of_mem _ hx)⟩, rfl⟩
    · rename_i hb
      rw [List.mem_singleton]
      constructor
      · intro e; cases e; exact ⟨rfl, by simp⟩
      · rintro ⟨h1, h2⟩
        cases p with
        | nil => rw [h1]; rfl
        | cons c p =>
          rw [List.cons_append] at h1
          cases h1
          exact absurd (h2 _ List.mem_cons_self) hb

/-- What an item matches. -/
def ItemMatches (i : Item) (p : List UInt8) : Prop :=
  (∀ b ∈ p, i.cls b = true) ∧ (i.quant = .one → p.length = 1) ∧ (i.quant = .plus → p ≠ [])

theorem mem_takes (i : Item) (s p r : List UInt8) : (p, r) ∈ i.takes s ↔ s = p ++ r ∧ ItemMatches i p := by
  unfold Item.takes ItemMatches
  split
  · rename_i hq
    rw [mem_takeStar, hq]
    simp
  · rename_i b s hq
    rw [hq]
    split
    · rename_i hb
      rw [List.mem_map]
      constructor
      · rintro ⟨⟨p', r'⟩, hx, e⟩
        cases e
        obtain ⟨h1, h2⟩ := (mem_takeStar _ _ _ _).mp hx
        refine ⟨by rw [h1]; rfl, fun c hc => (List.mem_cons.mp hc).elim (fun e => e ▸ hb) (h2 c), nofun, by simp⟩
      · rintro ⟨h1, h2, -, h3⟩
        cases p with
        | nil => exact absurd rfl (h3 rfl)
        | cons c p =>
          rw [List.cons_append] at h1
          cases h1
          exact ⟨(p, r), (mem_takeStar _ _ _ _).mpr ⟨rfl, fun x hx => h2 x (List.mem_cons_of_mem _ hx)⟩, rfl⟩
    · rename_i hb
      constructor
      · intro h; cases h
      · rintro ⟨h1, h2, -, h3⟩
        cases p with
        | nil => exact absurd rfl (h3 rfl)
        | cons c p =>
          rw [List.cons_append] at h1
          cases h1
          exact absurd (h2 _ List.mem_cons_self) hb
  · rename_i hq
    rw [hq]
    constructor
    · intro h; cases h
    · rintro ⟨h1, -, -, h3⟩
      have := (List.nil_eq_append_iff.mp h1).1
      exact absurd this (h3 rfl)
  · rename_i b s hq
    rw [hq]
    split
    · rename_i hb
      rw [List.mem_singleton, Prod.mk.injEq]
      constructor
      · rintro ⟨rfl, rfl⟩
        exact ⟨rfl, fun c hc => (List.mem_singleton.mp hc) ▸ hb, fun _ => rfl, nofun⟩
      · rintro ⟨h1, h2, h3, -⟩
        obtain ⟨c, rfl⟩ := List.length_eq_one_iff.mp (h3 rfl)
        cases h1
        exact ⟨rfl, rfl⟩
    · rename_i hb
      constructor
      · intro h; cases h
      · rintro ⟨h1, h2, h3, -⟩
        obtain ⟨c, rfl⟩ := List.length_eq_one_iff.mp (h3 rfl)
        cases h1
        exact absurd (h2 _ List.mem_cons_self) hb
  · rename_i hq
    rw [hq]
    constructor
    · intro h; cases h
    · rintro ⟨h1, -, h3, -⟩
      have := (List.nil_eq_append_iff.mp h1).1
      rw [this] at h3
      exact absurd (h3 rfl) (by simp)

theorem mem_matchAll (re : List Item) (s : List UInt8) (m : List (List UInt8)) (r : List UInt8) :
    (m, r) ∈ matchAll re s ↔ s = m.flatten ++ r ∧ List.Forall₂ ItemMatches re m := by
  induction re generalizing s m with
  | nil =>
    simp only [matchAll, List.mem_singleton, Prod.mk.injEq, List.forall₂_nil_left_iff]
    constructor
    · rintro ⟨rfl, rfl⟩; exact ⟨rfl, rfl⟩
    · rintro ⟨h, rfl⟩; exact ⟨rfl, h.symm⟩
  | cons i re ih =>
    rw [matchAll, List.mem_flatMap]
    constructor
    · rintro ⟨⟨p, t⟩, hp, hm⟩
      obtain ⟨⟨m', r'⟩, hm', e⟩ := List.mem_map.mp hm
      cases e
      obtain ⟨h1, h2⟩ := (mem_takes _ _ _ _).mp hp
      obtain ⟨h3, h4⟩ := (ih _ _).mp hm'
      refine ⟨?_, .cons h2 h4⟩
      simp only at h3
      rw [h1, h3, List.flatten_cons, List.append_assoc]
    · rintro ⟨h1, h2⟩
      cases h2 with
      | cons h3 h4 =>
        rename_i p ms
        refine ⟨(p, ms.flatten ++ r), (mem_takes _ _ _ _).mpr ⟨?_, h3⟩, List.mem_map.mpr ⟨(ms, r), ?_, rfl⟩⟩
        · rw [h1, List.flatten_cons, List.append_assoc]
        · exact (ih _ _).mpr ⟨rfl, h4⟩

theorem forall₂_append_left {α β : Type} {R : α → β → Prop} {a b : List α} {m : List β} :
    List.Forall₂ R (a ++ b) m ↔ ∃ x y, m = x ++ y ∧ List.Forall₂ R a x ∧ List.Forall₂ R b y := by
  induction a generalizing m with
  | nil =>
    simp only [List.nil_append, List.forall₂_nil_left_iff]
    constructor
    · intro h; exact ⟨[], m, rfl, rfl, h⟩
    · rintro ⟨x, y, rfl, rfl, h⟩; exact h
  | cons c a ih =>
    constructor
    · intro h
      cases h with
      | cons h1 h2 =>
        obtain ⟨x, y, rfl, h3, h4⟩ := ih.mp h2
        exact ⟨_ :: x, y, rfl, .cons h1 h3, h4⟩
    · rintro ⟨x, y, rfl, h3, h4⟩
      cases h3 with
      | cons h1 h2 => exact .cons h1 (ih.mpr ⟨_, _, rfl, h2, h4⟩)

theorem forall₂_lit (s : List UInt8) (m : List (List UInt8)) :
    List.Forall₂ ItemMatches (lit s) m ↔ m = s.map fun b => [b] := by
  induction s generalizing m with
  | nil => simp [lit, List.forall₂_nil_left_iff]
  | cons b s ih =>
    rw [show lit (b :: s) = { cls := fun c => c == b } :: lit s from rfl]
    constructor
    · intro h
      cases h with
      | cons h1 h2 =>
        obtain ⟨c, rfl⟩ := List.length_eq_one_iff.mp (h1.2.1 rfl)
        have := h1.1 c List.mem_cons_self
        simp only [beq_iff_eq] at this
        subst this
        rw [(ih _).mp h2]
        rfl
    · rintro rfl
      refine .cons ⟨?_, fun _ => rfl, nofun⟩ ((ih _).mpr rfl)
      intro c hc
      rw [List.mem_singleton.mp hc]
      simp

/-! ### The classes -/

theorem isDigitB_iff (b : UInt8) : isDigitB b = true ↔ DigitByte b := by
  unfold isDigitB DigitByte
  rw [Bool.and_eq_true, decide_eq_true_eq, decide_eq_true_eq, UInt8.le_iff_toNat_le, UInt8.le_iff_toNat_le]
  rfl

theorem isLetterB_iff (b : UInt8) : isLetterB b = true ↔ LetterByte b := by
  unfold isLetterB LetterByte
  simp only [Bool.or_eq_true, Bool.and_eq_true, decide_eq_true_eq, UInt8.le_iff_toNat_le]
  rfl

theorem isCrateB_iff (b : UInt8) : isCrateB b = true ↔ CrateByte b := by
  unfold isCrateB CrateByte
  simp only [Bool.or_eq_true, isDigitB_iff, isLetterB_iff, beq_iff_eq, ← UInt8.toNat_inj, or_assoc]
  rfl

theorem isSuffixB_iff (b : UInt8) : isSuffixB b = true ↔ SuffixByte b := by
  unfold isSuffixB SuffixByte
  simp only [Bool.or_eq_true, isDigitB_iff, isLetterB_iff, beq_iff_eq, ← UInt8.toNat_inj, or_assoc]
  rfl

/-! ### Paths -/

/-- The pieces of a match. -/
def piecesOf (sep : UInt8) (dir crate a b c t : List UInt8) : List (List UInt8) :=
  (bytes "cargo" ++ [sep] ++ bytes "registry" ++ [sep] ++ bytes "src" ++ [sep]).map (fun b => [b]) ++
  (dir :: [[sep]] ++ (crate :: (bytes "-").map (fun b => [b]) ++ ([a, [46], b, [46], c, t] ++ [[sep]])))

theorem forall₂_path (sep : UInt8) (m : List (List UInt8)) :
    List.Forall₂ ItemMatches (pathRegex sep) m ↔ ∃ dir crate a b c t, m = piecesOf sep dir crate a b c t ∧
      (dir ≠ [] ∧ sep ∉ dir) ∧ (crate ≠ [] ∧ ∀ x ∈ crate, CrateByte x) ∧
      NumberBytes a ∧ NumberBytes b ∧ NumberBytes c ∧ ∀ x ∈ t, SuffixByte x := by
  have plus : ∀ (f : UInt8 → Bool) (g : Group) p, ItemMatches ⟨f, .plus, g⟩ p ↔ p ≠ [] ∧ ∀ x ∈ p, f x = true := by
    intro f g p
    simp [ItemMatches, and_comm]
  have star : ∀ (f : UInt8 → Bool) (g : Group) p, ItemMatches ⟨f, .star, g⟩ p ↔ ∀ x ∈ p, f x = true := by
    intro f g p
    simp [ItemMatches]
  have one : ∀ (g : Group) p, ItemMatches ⟨fun b => b == 46, .one, g⟩ p ↔ p = [46] := by
    intro g p
    unfold ItemMatches
    constructor
    · rintro ⟨h1, h2, -⟩
      obtain ⟨c, rfl⟩ := List.length_eq_one_iff.mp (h2 rfl)
      have := h1 c List.mem_cons_self
      simp only [beq_iff_eq] at this
      rw [this]
    · rintro rfl; simp
  have hdir : ∀ p : List UInt8, (p ≠ [] ∧ ∀ x ∈ p, (x != sep) = true) ↔ (p ≠ [] ∧ sep ∉ p) := by
    intro p
    simp only [bne_iff_ne, ne_eq, and_congr_right_iff]
    intro _
    exact ⟨fun h hs => h _ hs rfl, fun h x hx e => h (e ▸ hx)⟩
  have hnum : ∀ p : List UInt8, (p ≠ [] ∧ ∀ x ∈ p, isDigitB x = true) ↔ NumberBytes p := by
    intro p; simp only [isDigitB_iff, NumberBytes]
  unfold pathRegex
  rw [forall₂_append_left]
  constructor
  · rintro ⟨x, y, rfl, hx, hy⟩
    rw [forall₂_lit] at hx
    cases hy with
    | @cons _ dir _ _ h1 hy1 =>
      obtain ⟨x2, y2, rfl, hx2, hy2⟩ := forall₂_append_left.mp hy1
      rw [forall₂_lit] at hx2
      cases hy2 with
      | @cons _ crate _ _ h2 hy3 =>
        obtain ⟨x3, y3, rfl, hx3, hy4⟩ := forall₂_append_left.mp hy3
        rw [forall₂_lit] at hx3
        obtain ⟨x4, y4, rfl, hx4, hy5⟩ := forall₂_append_left.mp hy4
        rw [forall₂_lit] at hy5
        cases hx4 with | @cons _ a _ _ ha hx4 => cases hx4 with | cons hd hx4 =>
        cases hx4 with | @cons _ b _ _ hb hx4 =>
        cases hx4 with | cons hd' hx4 => cases hx4 with | @cons _ c _ _ hc hx4 =>
        cases hx4 with | @cons _ t _ _ ht hx4 =>
        cases hx4
        rw [one] at hd hd'
        subst hd hd'
        refine ⟨dir, crate, a, b, c, t, ?_, (hdir _).mp ((plus _ _ _).mp h1), ?_, (hnum _).mp ((plus _ _ _).mp ha),
          (hnum _).mp ((plus _ _ _).mp hb), (hnum _).mp ((plus _ _ _).mp hc), ?_⟩
        · rw [hx, hx2, hx3, hy5]; rfl
        · have := (plus _ _ _).mp h2
          simpa only [isCrateB_iff] using this
        · have := (star _ _ _).mp ht
          simpa only [isSuffixB_iff] using this
  · rintro ⟨dir, crate, a, b, c, t, rfl, h1, h2, ha, hb, hc, ht⟩
    refine ⟨_, _, rfl, (forall₂_lit _ _).mpr rfl, ?_⟩
    refine .cons ((plus _ _ _).mpr ((hdir _).mpr h1)) (forall₂_append_left.mpr ⟨_, _, rfl, (forall₂_lit _ _).mpr rfl, ?_⟩)
    refine .cons ((plus _ _ _).mpr (by simpa only [isCrateB_iff] using h2))
      (forall₂_append_left.mpr ⟨_, _, rfl, (forall₂_lit _ _).mpr rfl, ?_⟩)
    refine forall₂_append_left.mpr ⟨_, _, rfl, ?_, (forall₂_lit _ _).mpr rfl⟩
    refine .cons ((plus _ _ _).mpr ((hnum _).mpr ha)) (.cons ((one _ _).mpr rfl) (.cons ((plus _ _ _).mpr ((hnum _).mpr hb))
      (.cons ((one _ _).mpr rfl) (.cons ((plus _ _ _).mpr ((hnum _).mpr hc)) (.cons ((star _ _ _).mpr ?_) .nil)))))
    simpa only [isSuffixB_iff] using ht

theorem flatten_singletons (s : List UInt8) : (s.map fun b => [b]).flatten = s := by
  induction s with
  | nil => rfl
  | cons b s ih => simp [ih]

theorem flatten_pieces (sep : UInt8) (dir crate a b c t : List UInt8) :
    (piecesOf sep dir crate a b c t).flatten =
      registryPath sep dir crate (a ++ bytes "." ++ b ++ bytes "." ++ c ++ t) := by
  have hd : bytes "." = [46] := by decide
  unfold piecesOf registryPath
  rw [List.flatten_append, flatten_singletons, hd]
  simp only [List.cons_append, List.flatten_cons, List.flatten_append, flatten_singletons, List.flatten_nil,
    List.append_assoc, List.nil_append, List.append_nil]

theorem zip_lit (s : List UInt8) (re : List Item) (x : List (List UInt8)) (g : Group) (hg : g ≠ .no) :
    captured (lit s ++ re) (s.map (fun b => [b]) ++ x) g = captured re x g := by
  induction s with
  | nil => rfl
  | cons b s ih =>
    have : (lit (b :: s) ++ re).zip ((b :: s).map (fun b => [b]) ++ x) =
        ({ cls := fun c => c == b }, [b]) :: (lit s ++ re).zip (s.map (fun b => [b]) ++ x) := rfl
    unfold captured at ih ⊢
    rw [this, List.filter_cons_of_neg (by simpa using fun e => hg e.symm), ih]

theorem captured_pieces (sep : UInt8) (dir crate a b c t : List UInt8) :
    captured (pathRegex sep) (piecesOf sep dir crate a b c t) .crate = crate ∧
    captured (pathRegex sep) (piecesOf sep dir crate a b c t) .version =
      a ++ bytes "." ++ b ++ bytes "." ++ c ++ t := by
  have hd : bytes "." = [46] := by decide
  unfold pathRegex piecesOf
  rw [zip_lit _ _ _ _ (by decide), zip_lit _ _ _ _ (by decide)]
  have hdash : bytes "-" = [45] := by decide
  rw [hd, hdash]
  constructor <;> simp [captured, lit]

/-- The matches at the start of a text are the paths it starts with. -/
theorem match_iff (sep : UInt8) (s : List UInt8) (m : List (List UInt8)) (r : List UInt8) :
    (m, r) ∈ matchAll (pathRegex sep) s ↔ ∃ dir crate a b c t, m = piecesOf sep dir crate a b c t ∧
      s = registryPath sep dir crate (a ++ bytes "." ++ b ++ bytes "." ++ c ++ t) ++ r ∧
      (dir ≠ [] ∧ sep ∉ dir) ∧ (crate ≠ [] ∧ ∀ x ∈ crate, CrateByte x) ∧
      NumberBytes a ∧ NumberBytes b ∧ NumberBytes c ∧ ∀ x ∈ t, SuffixByte x := by
  rw [mem_matchAll, forall₂_path]
  constructor
  · rintro ⟨h, dir, crate, a, b, c, t, rfl, rest⟩
    exact ⟨dir, crate, a, b, c, t, rfl, by rw [h, flatten_pieces], rest⟩
  · rintro ⟨dir, crate, a, b, c, t, rfl, h, rest⟩
    exact ⟨by rw [h, flatten_pieces], dir, crate, a, b, c, t, rfl, rest⟩

/-! ### One match at a position -/

theorem cut_unique {x : UInt8} {a b a' b' : List UInt8} (h : a ++ x :: b = a' ++ x :: b') (ha : x ∉ a) (ha' : x ∉ a') :
    a = a' ∧ b = b' := by
  induction a generalizing a' with
  | nil =>
    cases a' with
    | nil => cases h; exact ⟨rfl, rfl⟩
    | cons y a' => cases h; exact absurd List.mem_cons_self ha'
  | cons y a ih =>
    cases a' with
    | nil => cases h; exact absurd List.mem_cons_self ha
    | cons z a' =>
      rw [List.cons_append, List.cons_append] at h
      injection h with e h
      subst e
      obtain ⟨h1, h2⟩ := ih h (fun hx => ha (List.mem_cons_of_mem _ hx)) fun hx => ha' (List.mem_cons_of_mem _ hx)
      exact ⟨by rw [h1], h2⟩

theorem cut_last_unique {x : UInt8} {a b a' b' : List UInt8} (h : a ++ x :: b = a' ++ x :: b') (hb : x ∉ b)
    (hb' : x ∉ b') : a = a' ∧ b = b' := by
  have := congrArg List.reverse h
  simp only [List.reverse_append, List.reverse_cons, List.append_assoc, List.singleton_append] at this
  obtain ⟨h1, h2⟩ := cut_unique this (by simpa using hb) (by simpa using hb')
  exact ⟨List.reverse_injective h2, List.reverse_injective h1⟩

theorem sep_not_crate {sep b : UInt8} (hs : sep = slash ∨ sep = backslash) (h : CrateByte b) : sep ≠ b := by
  rintro rfl
  rw [← isCrateB_iff] at h
  rcases hs with rfl | rfl <;> revert h <;> decide

theorem sep_not_suffix {sep b : UInt8} (hs : sep = slash ∨ sep = backslash) (h : SuffixByte b) : sep ≠ b := by
  rintro rfl
  rw [← isSuffixB_iff] at h
  rcases hs with rfl | rfl <;> revert h <;> decide

theorem digit_suffix {b : UInt8} (h : DigitByte b) : SuffixByte b := .inl h

theorem versionBytes_suffix {v : List UInt8} (h : VersionBytes v) : ∀ b ∈ v, SuffixByte b := by
  obtain ⟨a, b, c, t, rfl, ha, hb, hc, ht⟩ := h
  have hd : ∀ x ∈ bytes ".", SuffixByte x := by
    intro x hx
    have : bytes "." = [46] := by decide
    rw [this] at hx
    rw [List.mem_singleton.mp hx, ← isSuffixB_iff]
    decide
  intro x hx
  simp only [List.mem_append] at hx
  rcases hx with ((((h | h) | h) | h) | h) | h
  · exact digit_suffix (ha.2 x h)
  · exact hd x h
  · exact digit_suffix (hb.2 x h)
  · exact hd x h
  · exact digit_suffix (hc.2 x h)
  · exact ht x h

theorem sep_not_mem_version {sep : UInt8} {v : List UInt8} (hs : sep = slash ∨ sep = backslash) (h : VersionBytes v) :
    sep ∉ v := fun hx => sep_not_suffix hs (versionBytes_suffix h _ hx) rfl

theorem sep_not_mem_component {sep : UInt8} {c v : List UInt8} (hs : sep = slash ∨ sep = backslash)
    (hc : ∀ b ∈ c, CrateByte b) (h : VersionBytes v) : sep ∉ c ++ bytes "-" ++ v := by
  intro hx
  simp only [List.mem_append] at hx
  rcases hx with (hx | hx) | hx
  · exact sep_not_crate hs (hc _ hx) rfl
  · have : bytes "-" = [45] := by decide
    rw [this] at hx
    have := List.mem_singleton.mp hx
    rcases hs with rfl | rfl <;> revert this <;> decide
  · exact sep_not_mem_version hs h hx

/-- Name and version of the component can be told apart. -/
theorem component_unique {c v c' v' : List UInt8} (h : c ++ bytes "-" ++ v = c' ++ bytes "-" ++ v')
    (hc : ∀ b ∈ c, CrateByte b) (hc' : ∀ b ∈ c', CrateByte b) (hv : VersionBytes v) (hv' : VersionBytes v') :
    c = c' ∧ v = v' := by
  have hd : bytes "-" = [45] := by decide
  have hdot : bytes "." = [46] := by decide
  obtain ⟨a, b, p, t, rfl, ha, -⟩ := hv
  obtain ⟨a', b', p', t', rfl, ha', -⟩ := hv'
  rw [hd, hdot] at h
  rw [hdot]
  have h1 : (c ++ 45 :: a) ++ 46 :: (b ++ 46 :: (p ++ t)) = (c' ++ 45 :: a') ++ 46 :: (b' ++ 46 :: (p' ++ t')) := by
    simpa only [List.append_assoc, List.cons_append, List.nil_append, List.singleton_append] using h
  have nodot : ∀ (c a : List UInt8), (∀ b ∈ c, CrateByte b) → NumberBytes a → (46 : UInt8) ∉ c ++ 45 :: a := by
    intro c a hc ha hx
    rw [List.mem_append, List.mem_cons] at hx
    rcases hx with hx | hx | hx
    · have := (isCrateB_iff _).mpr (hc _ hx); revert this; decide
    · revert hx; decide
    · have := (isDigitB_iff _).mpr (ha.2 _ hx); revert this; decide
  have nodash : ∀ a, NumberBytes a → (45 : UInt8) ∉ a := by
    intro a ha hx
    have := (isDigitB_iff _).mpr (ha.2 _ hx); revert this; decide
  obtain ⟨h2, h3⟩ := cut_unique h1 (nodot c a hc ha) (nodot c' a' hc' ha')
  obtain ⟨h4, h5⟩ := cut_last_unique h2 (nodash a ha) (nodash a' ha')
  refine ⟨h4, ?_⟩
  simp only [List.append_assoc, List.cons_append, List.nil_append]
  rw [h5, h3]

/-- There is at most one path at the start of a text. -/
theorem path_unique {sep : UInt8} (hs : sep = slash ∨ sep = backslash) {dir c v dir' c' v' r r' : List UInt8}
    (h : registryPath sep dir c v ++ r = registryPath sep dir' c' v' ++ r')
    (hd : sep ∉ dir) (hd' : sep ∉ dir') (hc : ∀ b ∈ c, CrateByte b) (hc' : ∀ b ∈ c', CrateByte b)
    (hv : VersionBytes v) (hv' : VersionBytes v') : dir = dir' ∧ c = c' ∧ v = v' ∧ r = r' := by
  unfold registryPath at h
  have h1 : dir ++ sep :: ((c ++ bytes "-" ++ v) ++ sep :: r) = dir' ++ sep :: ((c' ++ bytes "-" ++ v') ++ sep :: r') := by
    simp only [List.append_assoc, List.append_cancel_left_eq] at h
    simpa only [List.append_assoc, List.cons_append, List.nil_append, List.cons.injEq, true_and] using h
  obtain ⟨rfl, h2⟩ := cut_unique h1 hd hd'
  obtain ⟨h3, h4⟩ := cut_unique h2 (sep_not_mem_component hs hc hv) (sep_not_mem_component hs hc' hv')
  obtain ⟨h5, h6⟩ := component_unique h3 hc hc' hv hv'
  exact ⟨rfl, h5, h6, h4⟩

/-! ### All matches -/

theorem mem_capturesIter {re : List Item} {n : Nat} {s : List UInt8} {m : List (List UInt8)}
    (h : m ∈ capturesIter re n s) : ∃ p r, (m, r) ∈ matchAll re (s.drop p) := by
  induction n generalizing s with
  | zero => cases h
  | succ n ih =>
    unfold capturesIter at h
    split at h
    · rename_i m0 ms he
      rcases List.mem_cons.mp h with rfl | h
      · exact ⟨0, m0.2, by rw [List.drop_zero, he]; exact List.mem_cons_self⟩
      · obtain ⟨p, r, hp⟩ := ih h
        have h0 : (m0.1, m0.2) ∈ matchAll re s := by rw [he]; exact List.mem_cons_self
        have := ((mem_matchAll _ _ _ _).mp h0).1
        refine ⟨m0.1.flatten.length + p, r, ?_⟩
        rw [this, ← List.drop_drop, List.drop_left]
        exact hp
    · split at h
      · cases h
      · rename_i b t _
        obtain ⟨p, r, hp⟩ := ih h
        exact ⟨p + 1, r, hp⟩

/-- If there is a match at a place and no earlier match reaches into it, some match at the place is found. -/
theorem found_capturesIter {re : List Item} (hne : ∀ s m r, (m, r) ∈ matchAll re s → m.flatten ≠ [])
    {n : Nat} {s : List UInt8} (hn : s.length < n) {p : Nat} {m : List (List UInt8)} {r : List UInt8}
    (hm : (m, r) ∈ matchAll re (s.drop p))
    (ho : ∀ q < p, ∀ m' r', (m', r') ∈ matchAll re (s.drop q) → q + m'.flatten.length ≤ p) :
    ∃ m' r', m' ∈ capturesIter re n s ∧ (m', r') ∈ matchAll re (s.drop p) := by
  induction n generalizing s p with
  | zero => omega
  | succ n ih =>
    unfold capturesIter
    split
    · rename_i m0 ms he
      have h0 : (m0.1, m0.2) ∈ matchAll re s := by rw [he]; exact List.mem_cons_self
      by_cases hp : p = 0
      · subst hp
        exact ⟨m0.1, m0.2, List.mem_cons_self, h0⟩
      · have e := ((mem_matchAll _ _ _ _).mp h0).1
        have hk := ho 0 (by omega) m0.1 m0.2 (by rw [List.drop_zero]; exact h0)
        have hpos : 0 < m0.1.flatten.length := List.length_pos_iff.mpr (hne _ _ _ h0)
        have hd : ∀ q, s.drop (m0.1.flatten.length + q) = m0.2.drop q := by
          intro q
          conv_lhs => rw [e]
          rw [← List.drop_drop, List.drop_left]
        have hp' : s.drop p = m0.2.drop (p - m0.1.flatten.length) := by
          rw [← hd]; congr 1; omega
        have a1 : m0.2.length < n := by
          have := congrArg List.length e
          rw [List.length_append] at this
          omega
        have a2 : ∀ q < p - m0.1.flatten.length, ∀ m' r', (m', r') ∈ matchAll re (m0.2.drop q) →
            q + m'.flatten.length ≤ p - m0.1.flatten.length := by
          intro q hq m' r' h
          have := ho (m0.1.flatten.length + q) (by omega) m' r' (by rw [hd]; exact h)
          omega
        obtain ⟨m1, r1, h1, h2⟩ := ih a1 (hp' ▸ hm) a2
        exact ⟨m1, r1, List.mem_cons_of_mem _ h1, hp' ▸ h2⟩
    · rename_i he
      have hp : p ≠ 0 := by
        rintro rfl
        rw [List.drop_zero, he] at hm
        cases hm
      obtain ⟨k, rfl⟩ := Nat.exists_eq_succ_of_ne_zero hp
      split
      · rw [List.drop_nil, ← List.drop_zero (l := ([] : List UInt8))] at hm
        rw [List.drop_zero, he] at hm
        cases hm
      · rename_i b t
        refine ih (s := t) (by simpa using hn) hm ?_
        intro q hq m' r' h
        have := ho (q + 1) (by omega) m' r' h
        omega

theorem foundCmp_eq_iff (a b : Str × Version) : foundCmp a b = .eq ↔ a = b := by
  obtain ⟨c, v⟩ := a
  obtain ⟨c', v'⟩ := b
  unfold foundCmp
  rw [Ordering.then_eq_eq, strCmp_eq_iff, Prod.mk.injEq]
  simp only [Std.LawfulEqCmp.compare_eq_iff_eq (cmp := Version.cmp)]

/-- The version bytes of a match. -/
theorem versionBytes_mk {a b c t : List UInt8} (ha : NumberBytes a) (hb : NumberBytes b) (hc : NumberBytes c)
    (ht : ∀ x ∈ t, SuffixByte x) : VersionBytes (a ++ bytes "." ++ b ++ bytes "." ++ c ++ t) :=
  ⟨a, b, c, t, rfl, ha, hb, hc, ht⟩

theorem pathAt_match {sep : UInt8} {data : List UInt8} {p : Nat} {m : List (List UInt8)} {r : List UInt8}
    (h : (m, r) ∈ matchAll (pathRegex sep) (data.drop p)) : ∃ dir,
      PathAt sep data p dir (captured (pathRegex sep) m .crate) (captured (pathRegex sep) m .version) ∧
      m.flatten = registryPath sep dir (captured (pathRegex sep) m .crate) (captured (pathRegex sep) m .version) := by
  obtain ⟨dir, crate, a, b, c, t, rfl, hs, h1, h2, ha, hb, hc, ht⟩ := (match_iff _ _ _ _).mp h
  obtain ⟨e1, e2⟩ := captured_pieces sep dir crate a b c t
  rw [e1, e2]
  exact ⟨dir, ⟨h1, h2, versionBytes_mk ha hb hc ht, ⟨r, hs.symm⟩⟩, flatten_pieces ..⟩

theorem match_pathAt {sep : UInt8} {data : List UInt8} {p : Nat} {dir crate version : List UInt8}
    (h : PathAt sep data p dir crate version) : ∃ m r, (m, r) ∈ matchAll (pathRegex sep) (data.drop p) ∧
      captured (pathRegex sep) m .crate = crate ∧ captured (pathRegex sep) m .version = version := by
  obtain ⟨h1, h2, ⟨a, b, c, t, rfl, ha, hb, hc, ht⟩, r, hr⟩ := h
  obtain ⟨e1, e2⟩ := captured_pieces sep dir crate a b c t
  exact ⟨_, r, (match_iff _ _ _ _).mpr ⟨dir, crate, a, b, c, t, rfl, hr.symm, h1, h2, ha, hb, hc, ht⟩, e1, e2⟩

theorem versionsFor_sound {parse : Str → Option Version} {sep : UInt8} {data : List UInt8} {q : Str × Version}
    (h : q ∈ versionsFor parse sep data) : ∃ pos dir crate version, PathAt sep data pos dir crate version ∧
      q.1 = ascii crate ∧ parse (ascii version) = some q.2 := by
  unfold versionsFor at h
  rw [mem_sortDedup foundCmp_eq_iff, List.mem_filterMap] at h
  obtain ⟨m, hm, hq⟩ := h
  obtain ⟨p, r, hp⟩ := mem_capturesIter hm
  obtain ⟨dir, hat, -⟩ := pathAt_match hp
  unfold parseCapture at hq
  split at hq
  · rename_i v hv
    cases hq
    exact ⟨p, dir, _, _, hat, rfl, hv⟩
  · cases hq

/-- No path that starts earlier reaches into the one at this position. -/
def Clear (sep : UInt8) (data : List UInt8) (pos : Nat) : Prop :=
  ∀ q < pos, ∀ dir crate version, PathAt sep data q dir crate version →
    q + (registryPath sep dir crate version).length ≤ pos

theorem versionsFor_complete {parse : Str → Option Version} {sep : UInt8} (hs : sep = slash ∨ sep = backslash)
    {data : List UInt8} {pos : Nat} {dir crate version : List UInt8} {v : Version}
    (h : PathAt sep data pos dir crate version) (hc : Clear sep data pos) (hv : parse (ascii version) = some v) :
    (ascii crate, v) ∈ versionsFor parse sep data := by
  obtain ⟨m, r, hm, e1, e2⟩ := match_pathAt h
  unfold versionsFor
  rw [mem_sortDedup foundCmp_eq_iff, List.mem_filterMap]
  have a1 : ∀ s m r, (m, r) ∈ matchAll (pathRegex sep) s → m.flatten ≠ [] := by
    intro s m r h0 e
    obtain ⟨dir, crate, a, b, c, t, rfl, -⟩ := (match_iff _ _ _ _).mp h0
    rw [flatten_pieces] at e
    have := congrArg List.length e
    simp only [registryPath, List.length_append, List.length_cons, List.length_nil] at this
    omega
  have a2 : ∀ q < pos, ∀ m' r', (m', r') ∈ matchAll (pathRegex sep) (data.drop q) → q + m'.flatten.length ≤ pos := by
    intro q hq m' r' h'
    obtain ⟨dir', hat, hfl⟩ := pathAt_match h'
    rw [hfl]
    exact hc q hq _ _ _ hat
  obtain ⟨m', r', hm', hat⟩ := found_capturesIter a1 (Nat.lt_succ_self data.length) hm a2
  refine ⟨m', hm', ?_⟩
  obtain ⟨dir1, h1, -⟩ := pathAt_match hat
  obtain ⟨t, ht⟩ := h.text
  obtain ⟨t1, ht1⟩ := h1.text
  obtain ⟨-, e3, e4, -⟩ := path_unique hs (ht1.trans ht.symm) h1.dir_ok.2 h.dir_ok.2 h1.crate_ok.2 h.crate_ok.2
    h1.version_ok h.version_ok
  unfold parseCapture
  rw [e4, hv, e3]

/-! ### Overlaps -/

theorem cut_or {x : UInt8} {w u y v : List UInt8} (h : w ++ x :: u = y ++ x :: v) (hw : x ∉ w) :
    (w = y ∧ u = v) ∨ ∃ y', y = w ++ x :: y' ∧ u = y' ++ x :: v := by
  induction w generalizing y with
  | nil =>
    cases y with
    | nil => cases h; exact .inl ⟨rfl, rfl⟩
    | cons z y => cases h; exact .inr ⟨y, rfl, rfl⟩
  | cons a w ih =>
    cases y with
    | nil => cases h; exact absurd List.mem_cons_self hw
    | cons z y =>
      rw [List.cons_append, List.cons_append] at h
      injection h with e h
      subst e
      rcases ih h (fun hx => hw (List.mem_cons_of_mem _ hx)) with ⟨rfl, rfl⟩ | ⟨y', rfl, rfl⟩
      · exact .inl ⟨rfl, rfl⟩
      · exact .inr ⟨y', rfl, rfl⟩

theorem version_length {v : List UInt8} (h : VersionBytes v) : 5 ≤ v.length ∧ (46 : UInt8) ∈ v := by
  have hd : bytes "." = [46] := by decide
  obtain ⟨a, b, c, t, rfl, ha, hb, hc, -⟩ := h
  have h1 := List.length_pos_iff.mpr ha.1
  have h2 := List.length_pos_iff.mpr hb.1
  have h3 := List.length_pos_iff.mpr hc.1
  rw [hd]
  simp only [List.length_append, List.length_cons, List.length_nil, List.mem_append, List.mem_singleton]
  exact ⟨by omega, by simp⟩

/-- Two paths overlap only if the version of the first ends in `cargo`, which is where the second starts. -/
theorem C57_overlap (sep : UInt8) (hs : sep = slash ∨ sep = backslash) (data : List UInt8) (p q : Nat)
    (dir crate version dir' crate' version' : List UInt8) (h : PathAt sep data p dir crate version)
    (h' : PathAt sep data q dir' crate' version') (hq : q < p)
    (ho : p < q + (registryPath sep dir' crate' version').length) :
    bytes "cargo" <:+ version' ∧ q + (registryPath sep dir' crate' version').length = p + 6 := by
  obtain ⟨r', hr'⟩ := h'.text
  obtain ⟨r, hr⟩ := h.text
  obtain ⟨k, rfl⟩ : ∃ k, p = q + k := ⟨p - q, by omega⟩
  rw [← List.drop_drop] at hr
  generalize hd : data.drop q = d at *
  -- the text before the second path
  obtain ⟨pre, hpre, hk⟩ : ∃ pre, d = pre ++ (registryPath sep dir crate version ++ r) ∧ pre.length = k := by
    refine ⟨d.take k, by rw [hr, List.take_append_drop], ?_⟩
    rw [List.length_take, Nat.min_eq_left]
    have := congrArg List.length hr'
    rw [List.length_append] at this
    omega
  have hcargo : bytes "cargo" = [99, 97, 114, 103, 111] := by decide
  have hreg : bytes "registry" = [114, 101, 103, 105, 115, 116, 114, 121] := by decide
  have hsrc : bytes "src" = [115, 114, 99] := by decide
  have nosep : sep ∉ bytes "cargo" ∧ sep ∉ bytes "registry" ∧ sep ∉ bytes "src" := by
    rcases hs with rfl | rfl <;> decide
  generalize hX : crate' ++ bytes "-" ++ version' = X at *
  have hXsep : sep ∉ X := hX ▸ sep_not_mem_component hs h'.crate_ok.2 h'.version_ok
  obtain ⟨v, hv⟩ : ∃ v, registryPath sep dir crate version ++ r = bytes "cargo" ++ sep :: (bytes "registry" ++ sep :: v) := by
    refine ⟨bytes "src" ++ [sep] ++ dir ++ [sep] ++ (crate ++ bytes "-" ++ version) ++ [sep] ++ r, ?_⟩
    simp only [registryPath, List.append_assoc, List.cons_append, List.nil_append]
  rw [hv] at hpre
  have e1 : bytes "cargo" ++ sep :: (bytes "registry" ++ sep :: (bytes "src" ++ sep :: (dir' ++ sep :: (X ++ sep :: r')))) =
      (pre ++ bytes "cargo") ++ sep :: (bytes "registry" ++ sep :: v) := by
    rw [List.append_assoc, ← hpre, ← hr', registryPath, hX]
    simp only [List.append_assoc, List.cons_append, List.nil_append]
  have hpos : pre ≠ [] := by
    rintro rfl
    simp only [List.length_nil] at hk
    omega
  rcases cut_or e1 nosep.1 with ⟨e, -⟩ | ⟨y1, ey1, e2⟩
  · exact absurd (List.append_left_eq_self.mp e.symm) hpos
  rcases cut_or e2 nosep.2.1 with ⟨e, -⟩ | ⟨y2, ey2, e3⟩
  · exfalso
    subst e
    have := congrArg List.getLast? ey1
    rw [hcargo, hreg] at this
    simp at this
  rcases cut_or e3 nosep.2.2 with ⟨e, -⟩ | ⟨y3, ey3, e4⟩
  · exfalso
    subst e
    rw [ey2] at ey1
    have := congrArg List.getLast? ey1
    rw [hcargo, hreg, hsrc] at this
    simp at this
  rcases cut_or e4 h'.dir_ok.2 with ⟨-, e⟩ | ⟨y4, ey4, e5⟩
  · exfalso
    obtain ⟨hX', -⟩ := cut_unique e hXsep nosep.2.1
    have : (46 : UInt8) ∈ X := by
      rw [← hX]; exact List.mem_append_right _ (version_length h'.version_ok).2
    rw [hX'] at this
    revert this
    decide
  have hlen : (registryPath sep dir' crate' version').length = 20 + dir'.length + X.length + 1 := by
    rw [← hX, registryPath, hcargo, hreg, hsrc]
    simp only [List.length_append, List.length_cons, List.length_nil]
    omega
  rw [ey4] at ey3
  rw [ey3] at ey2
  rw [ey2] at ey1
  have hl := congrArg List.length ey1
  rw [hcargo, hreg, hsrc] at hl
  simp only [List.length_append, List.length_cons, List.length_nil] at hl
  rcases cut_or e5 hXsep with ⟨e, -⟩ | ⟨y5, ey5, -⟩
  · subst e
    refine ⟨?_, by omega⟩
    have hsuf : bytes "cargo" <:+ pre ++ bytes "cargo" := List.suffix_append _ _
    rw [ey1, ← hX] at hsuf
    have hsuf2 : version' <:+ bytes "cargo" ++ sep :: (bytes "registry" ++ sep :: (bytes "src" ++ sep ::
        (dir' ++ sep :: (crate' ++ bytes "-" ++ version')))) := by
      refine ⟨bytes "cargo" ++ sep :: (bytes "registry" ++ sep :: (bytes "src" ++ sep ::
        (dir' ++ sep :: (crate' ++ bytes "-")))), ?_⟩
      simp only [List.append_assoc, List.cons_append]
    exact List.suffix_of_suffix_length_le hsuf hsuf2 (by
      rw [hcargo]; exact (version_length h'.version_ok).1)
  · exfalso
    have hy : y4.length = X.length + 1 + y5.length := by
      rw [ey5]; simp only [List.length_append, List.length_cons]; omega
    -- the separator would be inside `cargo`
    have hsuf : bytes "cargo" <:+ pre ++ bytes "cargo" := List.suffix_append _ _
    have hsuf2 : sep :: y5 <:+ pre ++ bytes "cargo" := by
      rw [ey1, ey5]
      refine ⟨bytes "cargo" ++ sep :: (bytes "registry" ++ sep :: (bytes "src" ++ sep :: (dir' ++ sep :: X))), ?_⟩
      simp only [List.append_assoc, List.cons_append]
    have : sep :: y5 <:+ bytes "cargo" := by
      refine List.suffix_of_suffix_length_le hsuf2 hsuf ?_
      rw [hcargo]
      simp only [List.length_cons, List.length_nil]
      omega
    exact nosep.1 (this.subset List.mem_cons_self)

/-! ### C57 -/

/-- **C57, soundness.**  Every crate that is recovered from a binary stands in it as the directory
`<crate>-<version>` of the source cache of a registry, in a path with slashes or one with backslashes. -/
theorem C57_sound (parse : Str → Option Version) (data : List UInt8) (name : Str) (v : Version)
    (h : (name, v) ∈ versions parse data) :
    ∃ sep pos dir crate version, (sep = slash ∨ sep = backslash) ∧ PathAt sep data pos dir crate version ∧
      name = ascii crate ∧ parse (ascii version) = some v := by
  unfold versions at h
  split at h
  · obtain ⟨pos, dir, c, w, h1, h2, h3⟩ := versionsFor_sound h
    exact ⟨_, pos, dir, c, w, .inl rfl, h1, h2, h3⟩
  · obtain ⟨pos, dir, c, w, h1, h2, h3⟩ := versionsFor_sound h
    exact ⟨_, pos, dir, c, w, .inr rfl, h1, h2, h3⟩

/-- **C57, exactness.**  If no path in the binary has a version that ends in `cargo`, the crates recovered are
exactly the ones in paths with slashes; if there are none, exactly the ones in paths with backslashes. -/
theorem C57_exact (parse : Str → Option Version) (data : List UInt8)
    (hno : ∀ sep, (sep = slash ∨ sep = backslash) → ∀ pos dir crate version,
      PathAt sep data pos dir crate version → ¬ bytes "cargo" <:+ version)
    (name : Str) (v : Version) :
    let Has := fun sep name v => ∃ pos dir crate version, PathAt sep data pos dir crate version ∧
      name = ascii crate ∧ parse (ascii version) = some v
    (name, v) ∈ versions parse data ↔
      Has slash name v ∨ ((∀ name' v', ¬ Has slash name' v') ∧ Has backslash name v) := by
  intro Has
  have key : ∀ sep, (sep = slash ∨ sep = backslash) → ∀ name v, (name, v) ∈ versionsFor parse sep data ↔ Has sep name v := by
    intro sep hs name v
    constructor
    · intro h; exact versionsFor_sound h
    · rintro ⟨pos, dir, c, w, h1, rfl, h3⟩
      refine versionsFor_complete hs h1 ?_ h3
      intro q hq dir' c' w' h2
      by_contra hlt
      exact hno _ hs _ _ _ _ h2 (C57_overlap sep hs data pos q _ _ _ _ _ _ h1 h2 hq (by omega)).1
  unfold versions
  split
  · rename_i hne
    obtain ⟨x, hx⟩ := List.exists_mem_of_ne_nil _ hne
    rw [show (47 : UInt8) = slash from rfl, key _ (.inl rfl)]
    refine ⟨.inl, fun h => h.resolve_right ?_⟩
    rintro ⟨h, -⟩
    exact h x.1 x.2 ((key slash (.inl rfl) _ _).mp hx)
  · rename_i he
    simp only [ne_eq, not_not] at he
    have hnone : ∀ name' v', ¬ Has slash name' v' := by
      intro name' v' h
      have := (key slash (.inl rfl) _ _).mpr h
      rw [show versionsFor parse slash data = [] from he] at this
      cases this
    rw [show (92 : UInt8) = backslash from rfl, key _ (.inr rfl)]
    exact ⟨fun h => .inr ⟨hnone, h⟩, fun h => (h.resolve_left (hnone _ _)).2⟩

/-- **C57, completeness at one place.**  A path with slashes that no earlier path reaches into is recovered, whatever
else the binary contains. -/
theorem C57_complete (parse : Str → Option Version) (data : List UInt8) (pos : Nat)
    (dir crate version : List UInt8) (v : Version) (h : PathAt slash data pos dir crate version)
    (hno : ∀ q < pos, ∀ dir' crate' version', PathAt slash data q dir' crate' version' →
      q + (registryPath slash dir' crate' version').length ≤ pos)
    (hv : parse (ascii version) = some v) : (ascii crate, v) ∈ versions parse data := by
  have := versionsFor_complete (.inl rfl) h hno hv
  unfold versions
  rw [if_pos (show versionsFor parse 47 data ≠ [] from List.ne_nil_of_mem this)]
  exact this

/-- **C57, no duplicates.**  The crates are listed in order, each once. -/
theorem C57_sorted (parse : Str → Option Version) (data : List UInt8) :
    (versions parse data).Pairwise fun a b => strCmp a.1 b.1 = .lt ∨ (a.1 = b.1 ∧ Version.cmp a.2 b.2 = .lt) := by
  have tr : Std.TransCmp foundCmp :=
    { eq_swap := by
        intro x y
        unfold foundCmp
        rw [Ordering.swap_then, ← Std.OrientedCmp.eq_swap (cmp := strCmp), ← Std.OrientedCmp.eq_swap (cmp := Version.cmp)]
      isLE_trans := fun h h' => Semver.then_isLE_trans strCmp Version.cmp h h' }
  have key : ∀ sep, (versionsFor parse sep data).Pairwise
      fun a b => strCmp a.1 b.1 = .lt ∨ (a.1 = b.1 ∧ Version.cmp a.2 b.2 = .lt) := by
    intro sep
    refine (sortDedup_sorted foundCmp foundCmp_eq_iff _).imp fun {a b} h => ?_
    unfold foundCmp at h
    rw [Ordering.then_eq_lt, strCmp_eq_iff] at h
    exact h
  unfold versions
  split <;> exact key _

end Verif.Props
