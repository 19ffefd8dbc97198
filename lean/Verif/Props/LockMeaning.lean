import Verif.Lemmas.LockMeaning
import Verif.Lemmas.TomlKeys

/-!
# C96: what the text of `Cargo.lock` means
-/

namespace Verif.Props

open Verif Verif.Lock Verif.Semver Verif.Toml Verif.Audit Verif.Spec

/-! ### Checksums -/

private theorem loop_err {n : Nat} {s : Str} (hs : byteLen s = 2 * n) :
    Checksum.loop n s = .err ↔ ∃ a bs rest, s = a ++ rest ∧ Spells a bs ∧
      ((∃ c d r, rest = c :: d :: r ∧ c.utf8Size = 1 ∧ d.utf8Size = 1 ∧ ∀ b, ¬ HexPair c d b) ∨
       (∃ c r, rest = c :: r ∧ c.utf8Size = 2)) := by
  induction n generalizing s with
  | zero =>
    have hs : s = [] := by
      cases s with
      | nil => rfl
      | cons c s =>
        have := c.utf8Size_pos
        simp only [byteLen, List.map_cons, List.sum_cons] at hs
        omega
    subst hs
    constructor
    · intro h; cases h
    · rintro ⟨a, bs, rest, h, -, ⟨c, d, r, rfl, -⟩ | ⟨c, r, rfl, -⟩⟩
      · simp at h
      · simp at h
  | succ n ih =>
    cases s with
    | nil => simp [byteLen] at hs
    | cons c s =>
      by_cases hc : c.utf8Size = 1
      · cases s with
        | nil => simp [byteLen, hc] at hs; omega
        | cons d s =>
          have hd0 := d.utf8Size_pos
          by_cases hd : d.utf8Size = 1
          · have hs' : byteLen s = 2 * n := by
              simp only [byteLen, List.map_cons, List.sum_cons, hc, hd] at hs ⊢; omega
            cases hb : byteOfHex c d with
            | none =>
              have : Checksum.loop (n + 1) (c :: d :: s) = .err := by
                simp only [Checksum.loop, hc, hd, if_true, hb]
              simp only [this, true_iff]
              exact ⟨[], [], _, rfl, .nil, .inl ⟨c, d, s, rfl, hc, hd, fun b hp => by rw [hexPair_iff, hb] at hp; cases hp⟩⟩
            | some b =>
              have : Checksum.loop (n + 1) (c :: d :: s) = .err ↔ Checksum.loop n s = .err := by
                simp only [Checksum.loop, hc, hd, if_true, hb]
                cases Checksum.loop n s <;> simp
              rw [this, ih hs']
              constructor
              · rintro ⟨a, bs, rest, rfl, h1, h2⟩
                exact ⟨c :: d :: a, b :: bs, rest, rfl, .cons (hexPair_iff.mpr hb) h1, h2⟩
              · rintro ⟨a, bs, rest, h, h1, h2⟩
                cases h1 with
                | nil =>
                  rcases h2 with ⟨c', d', r, rfl, -, -, hn⟩ | ⟨c', r, rfl, h2⟩
                  · cases h
                    exact absurd (hexPair_iff.mpr hb) (hn b)
                  · cases h
                    rw [hc] at h2
                    cases h2
                | cons hp h1 =>
                  cases h
                  exact ⟨_, _, rest, rfl, h1, h2⟩
          · have : Checksum.loop (n + 1) (c :: d :: s) = .panic := by
              simp only [Checksum.loop, hc, hd, if_true, if_false]
            rw [this]
            simp only [reduceCtorEq, false_iff]
            rintro ⟨a, bs, rest, h, h1, h2⟩
            cases h1 with
            | nil =>
              rcases h2 with ⟨c', d', r, rfl, -, h2, -⟩ | ⟨c', r, rfl, h2⟩
              · cases h
                exact hd h2
              · cases h
                rw [hc] at h2
                cases h2
            | cons hp h1 =>
              cases h
              exact hd (byteOfHex_size (hexPair_iff.mp hp)).2
      · by_cases hc2 : c.utf8Size = 2
        · have : Checksum.loop (n + 1) (c :: s) = .err := by
            simp [Checksum.loop, hc2]
          rw [this]
          simp only [true_iff]
          exact ⟨[], [], _, rfl, .nil, .inr ⟨c, s, rfl, hc2⟩⟩
        · have : Checksum.loop (n + 1) (c :: s) = .panic := by
            simp [Checksum.loop, hc, hc2]
          rw [this]
          simp only [reduceCtorEq, false_iff]
          rintro ⟨a, bs, rest, h, h1, h2⟩
          cases h1 with
          | nil =>
            rcases h2 with ⟨c', d', r, rfl, h2, -⟩ | ⟨c', r, rfl, h2⟩
            · cases h
              exact hc h2
            · cases h
              exact hc2 h2
          | cons hp h1 =>
            cases h
            exact hc (byteOfHex_size (hexPair_iff.mp hp)).1

/-- When a text is found not to be a checksum. -/
theorem noChecksum_iff (s : Str) : Checksum.fromStr s = .err ↔ NoChecksum s := by
  unfold Checksum.fromStr NoChecksum
  by_cases h : byteLen s = 64
  · rw [if_neg (by simpa using h), loop_err (by omega)]
    simp [h]
  · rw [if_pos h]
    simp [h]

theorem checksumOf_iff (s : Str) (c : Checksum) : Checksum.fromStr s = .ok c ↔ ChecksumOf s c := C25_accepts_iff s c

/-! ### Values -/

theorem textValue_iff {α : Type} {f : Str → Outcome α} {R : Str → α → Prop} (h : ∀ s a, f s = .ok a ↔ R s a) (v : Value) (a : α) :
    (asStr v >>= f) = .ok a ↔ Text R v a := by
  rw [bind_iff]
  unfold Text
  constructor
  · rintro ⟨s, hs, hf⟩
    exact ⟨s, (asStr_iff v s).mp hs, (h s a).mp hf⟩
  · rintro ⟨s, hs, hf⟩
    exact ⟨s, (asStr_iff v s).mpr hs, (h s a).mpr hf⟩

/-- An optional field that is read in two steps. -/
theorem readOpt_iff {α : Type} {f : Str → Outcome α} {R : Str → α → Prop} (h : ∀ s a, f s = .ok a ↔ R s a) (t : Table)
    (k : String) (a : Option α) :
    (∃ o, optionally t k asStr = .ok o ∧ readOpt f o = .ok a) ↔ Optionally (Text R) (t.lookup k.toList) a := by
  simp only [optionally_iff asStr_iff]
  unfold Optionally Text IsText
  constructor
  · rintro ⟨o, ⟨h1, rfl⟩ | ⟨v, x, h1, rfl, rfl⟩, ho⟩
    · exact .inl ⟨h1, by cases ho; rfl⟩
    · unfold readOpt at ho
      dsimp only at ho
      cases hf : f x with
      | ok y =>
        rw [hf] at ho
        cases ho
        exact .inr ⟨_, y, h1, rfl, x, rfl, (h _ _).mp hf⟩
      | err => rw [hf] at ho; cases ho
      | panic => rw [hf] at ho; cases ho
  · rintro (⟨h1, rfl⟩ | ⟨v, x, h1, rfl, s, rfl, hs⟩)
    · exact ⟨none, .inl ⟨h1, rfl⟩, rfl⟩
    · refine ⟨some s, .inr ⟨_, s, h1, rfl, rfl⟩, ?_⟩
      unfold readOpt
      dsimp only
      rw [(h _ _).mpr hs]

private theorem neededText_iff {α : Type} {f : Str → Outcome α} {R : Str → α → Prop} (h : ∀ s a, f s = .ok a ↔ R s a)
    (t : Table) (k : String) (a : α) :
    (∃ s, needed t k asStr = .ok s ∧ f s = .ok a) ↔ Mandatory (Text R) (t.lookup k.toList) a := by
  simp only [needed_iff asStr_iff]
  unfold Mandatory Text IsText
  constructor
  · rintro ⟨s, ⟨v, h1, rfl⟩, hf⟩
    exact ⟨_, h1, s, rfl, (h _ _).mp hf⟩
  · rintro ⟨v, h1, s, rfl, hs⟩
    exact ⟨s, ⟨_, h1, rfl⟩, (h _ _).mpr hs⟩

private theorem forall₂_comp {α β γ : Type} {R : α → β → Prop} {S : β → γ → Prop} {l : List α} {r : List γ} :
    (∃ m, List.Forall₂ R l m ∧ List.Forall₂ S m r) ↔ List.Forall₂ (fun a c => ∃ b, R a b ∧ S b c) l r := by
  constructor
  · rintro ⟨m, h1, h2⟩
    induction h1 generalizing r with
    | nil => cases h2; exact .nil
    | cons h _ ih =>
      cases h2 with
      | cons h' hr => exact .cons ⟨_, h, h'⟩ (ih hr)
  · intro h
    induction h with
    | nil => exact ⟨[], .nil, .nil⟩
    | cons h _ ih =>
      obtain ⟨b, h1, h2⟩ := h
      obtain ⟨m, h3, h4⟩ := ih
      exact ⟨b :: m, .cons h1 h3, .cons h2 h4⟩

/-- A list that may be missing and whose items are read in two steps. -/
private theorem listing_iff {α β : Type} {f : Value → Outcome α} {g : α → Outcome β} {R : Value → β → Prop}
    (h : ∀ v b, (∃ a, f v = .ok a ∧ g a = .ok b) ↔ R v b) (t : Table) (k : String) (r : List β) :
    (∃ l, orDefault t k [] (asArr f) = .ok l ∧ Outcome.mapList g l = .ok r) ↔
      Defaulting [] (IsList R) (t.lookup k.toList) r := by
  simp only [orDefault_iff (asArr_iff (R := fun v a => f v = .ok a) fun _ _ => Iff.rfl)]
  unfold Defaulting IsList
  constructor
  · rintro ⟨l, ⟨h1, rfl⟩ | ⟨v, h1, vs, rfl, hv⟩, hl⟩
    · cases hl
      exact .inl ⟨h1, rfl⟩
    · refine .inr ⟨_, h1, vs, rfl, ?_⟩
      have := forall₂_comp.mp ⟨l, hv, (mapList_iff _ _ _).mp hl⟩
      exact this.imp fun _ _ hx => (h _ _).mp hx
  · rintro (⟨h1, rfl⟩ | ⟨v, h1, vs, rfl, hv⟩)
    · exact ⟨[], .inl ⟨h1, rfl⟩, rfl⟩
    · obtain ⟨l, h2, h3⟩ := forall₂_comp.mpr (hv.imp fun _ _ hx => (h _ _).mpr hx)
      exact ⟨l, .inr ⟨_, h1, vs, rfl, h2⟩, (mapList_iff _ _ _).mpr h3⟩

/-! ### Packages and patches -/

/-- What the table of a package means. -/
theorem package_iff (C : Codec) (v : Value) (p : EncPackage) :
    (∃ d, PkgDoc.ofValue v = .ok d ∧ d.read C = .ok p) ↔ IsPackage C v p := by
  unfold IsPackage
  constructor
  · rintro ⟨d, hd, hp⟩
    cases v with
    | table t =>
      refine ⟨t, rfl, ?_⟩
      unfold PkgDoc.ofValue at hd
      simp only [bind_iff, pure_iff] at hd
      obtain ⟨name, h1, version, h2, source, h3, checksum, h4, deps, h5, replace, h6, rfl⟩ := hd
      unfold PkgDoc.read at hp
      simp only [bind_iff, pure_iff] at hp
      obtain ⟨ver, g2, src, g3, ck, g4, ds, g5, rep, g6, rfl⟩ := hp
      refine ⟨(needed_iff asStr_iff t _ _).mp h1, (neededText_iff (version_iff C) t _ _).mp ⟨_, h2, g2⟩,
        (readOpt_iff (source_iff C.url) t _ _).mp ⟨_, h3, g3⟩, (readOpt_iff checksumOf_iff t _ _).mp ⟨_, h4, g4⟩, ?_,
        (readOpt_iff (reference_iff C) t _ _).mp ⟨_, h6, g6⟩⟩
      refine (listing_iff (f := asStr) (g := EncDependency.fromStr C) ?_ t _ _).mp ⟨_, h5, g5⟩
      intro v b
      rw [← bind_iff, textValue_iff (reference_iff C)]
    | _ => cases hd
  · rintro ⟨t, rfl, h1, h2, h3, h4, h5, h6⟩
    obtain ⟨version, h2, g2⟩ := (neededText_iff (version_iff C) t _ _).mpr h2
    obtain ⟨source, h3, g3⟩ := (readOpt_iff (source_iff C.url) t _ _).mpr h3
    obtain ⟨checksum, h4, g4⟩ := (readOpt_iff checksumOf_iff t _ _).mpr h4
    obtain ⟨replace, h6, g6⟩ := (readOpt_iff (reference_iff C) t _ _).mpr h6
    have h1 := (needed_iff asStr_iff t _ _).mpr h1
    obtain ⟨deps, h5, g5⟩ := (listing_iff (f := asStr) (g := EncDependency.fromStr C) (by
      intro v b
      rw [← bind_iff, textValue_iff (reference_iff C)]) t _ _).mpr h5
    refine ⟨{ name := p.name, version, source, checksum, dependencies := deps, replace }, ?_, ?_⟩
    · unfold PkgDoc.ofValue
      simp only [bind_iff, pure_iff]
      exact ⟨_, h1, _, h2, _, h3, _, h4, _, h5, _, h6, rfl⟩
    · unfold PkgDoc.read
      simp only [bind_iff, pure_iff]
      exact ⟨_, g2, _, g3, _, g4, _, g5, _, g6, rfl⟩

private theorem patched_iff (C : Codec) (v : Value) (p : Dependency) :
    (∃ d, PatchDoc.ofValue v = .ok d ∧ d.read C = .ok p) ↔ IsPatched C v p := by
  unfold IsPatched
  constructor
  · rintro ⟨d, hd, hp⟩
    cases v with
    | table t =>
      refine ⟨t, rfl, ?_⟩
      unfold PatchDoc.ofValue at hd
      simp only [bind_iff, pure_iff] at hd
      obtain ⟨name, h1, version, h2, source, h3, rfl⟩ := hd
      unfold PatchDoc.read at hp
      simp only [bind_iff, pure_iff] at hp
      obtain ⟨ver, g2, src, g3, rfl⟩ := hp
      exact ⟨(needed_iff asStr_iff t _ _).mp h1, (neededText_iff (version_iff C) t _ _).mp ⟨_, h2, g2⟩,
        (readOpt_iff (source_iff C.url) t _ _).mp ⟨_, h3, g3⟩⟩
    | _ => cases hd
  · rintro ⟨t, rfl, h1, h2, h3⟩
    obtain ⟨version, h2, g2⟩ := (neededText_iff (version_iff C) t _ _).mpr h2
    obtain ⟨source, h3, g3⟩ := (readOpt_iff (source_iff C.url) t _ _).mpr h3
    have h1 := (needed_iff asStr_iff t _ _).mpr h1
    refine ⟨{ name := p.name, version, source }, ?_, ?_⟩
    · unfold PatchDoc.ofValue
      simp only [bind_iff, pure_iff]
      exact ⟨_, h1, _, h2, _, h3, rfl⟩
    · unfold PatchDoc.read
      simp only [bind_iff, pure_iff]
      exact ⟨_, g2, _, g3, rfl⟩

private theorem patch_iff (C : Codec) (v : Value) (r : List Dependency) :
    (∃ l, patchOfValue v = .ok l ∧ Outcome.mapList (PatchDoc.read C) l = .ok r) ↔ IsPatch C v r := by
  unfold IsPatch
  have key (vs : List Value) : (∃ l, List.Forall₂ (fun v a => PatchDoc.ofValue v = .ok a) vs l ∧
      List.Forall₂ (fun a b => a.read C = .ok b) l r) ↔ List.Forall₂ (IsPatched C) vs r := by
    rw [forall₂_comp]
    exact ⟨fun h => h.imp fun _ _ hx => (patched_iff _ _ _).mp hx, fun h => h.imp fun _ _ hx => (patched_iff _ _ _).mpr hx⟩
  constructor
  · rintro ⟨l, hl, hr⟩
    cases v with
    | table t =>
      obtain ⟨v, hv, vs, rfl, hvs⟩ := (needed_iff (asArr_iff (R := fun v a => PatchDoc.ofValue v = .ok a) fun _ _ => Iff.rfl) t _ _).mp hl
      exact ⟨t, rfl, _, hv, vs, rfl, (key vs).mp ⟨l, hvs, (mapList_iff _ _ _).mp hr⟩⟩
    | _ => cases hl
  · rintro ⟨t, rfl, v, hv, vs, rfl, hvs⟩
    obtain ⟨l, h1, h2⟩ := (key vs).mpr hvs
    exact ⟨l, (needed_iff (asArr_iff (R := fun v a => PatchDoc.ofValue v = .ok a) fun _ _ => Iff.rfl) t _ _).mpr ⟨_, hv, vs, rfl, h1⟩,
      (mapList_iff _ _ _).mpr h2⟩

/-! ### Metadata -/

private theorem mem_insert_iff {k v : Str} {m : LockMetadata} (hm : OrderedKeys m) (e : Str × Str) :
    e ∈ metaInsert k v m ↔ e = (k, v) ∨ (e ∈ m ∧ e.1 ≠ k) := by
  induction m with
  | nil => simp [metaInsert]
  | cons x m ih =>
    obtain ⟨k', v'⟩ := x
    obtain ⟨h1, h2⟩ := List.pairwise_cons.mp hm
    have hlt {e : Str × Str} (he : e ∈ m) (hk : strCmp k k' ≠ .gt) : e.1 ≠ k := by
      intro heq
      have h := h1 e he
      rw [heq] at h
      exact hk (Std.OrientedCmp.gt_of_lt (cmp := List.compareLex compare) h)
    simp only [metaInsert]
    cases hc : strCmp k k' with
    | lt =>
      have hne : k' ≠ k := by
        rintro rfl
        rw [(strCmp_eq_iff _ _).mpr rfl] at hc
        cases hc
      simp only [List.mem_cons]
      constructor
      · rintro (h | rfl | h)
        · exact .inl h
        · exact .inr ⟨.inl rfl, hne⟩
        · exact .inr ⟨.inr h, hlt h (by rw [hc]; exact fun h => by cases h)⟩
      · rintro (h | ⟨h | h, -⟩)
        · exact .inl h
        · exact .inr (.inl h)
        · exact .inr (.inr h)
    | eq =>
      obtain rfl := (strCmp_eq_iff _ _).mp hc
      simp only [List.mem_cons]
      constructor
      · rintro (h | h)
        · exact .inl h
        · exact .inr ⟨.inr h, hlt h (by rw [hc]; exact fun h => by cases h)⟩
      · rintro (h | ⟨rfl | h, hn⟩)
        · exact .inl h
        · exact absurd rfl hn
        · exact .inr h
    | gt =>
      have hne : k' ≠ k := by
        rintro rfl
        rw [(strCmp_eq_iff _ _).mpr rfl] at hc
        cases hc
      simp only [List.mem_cons, ih h2]
      constructor
      · rintro (rfl | h | ⟨h, hn⟩)
        · exact .inr ⟨.inl rfl, hne⟩
        · exact .inl h
        · exact .inr ⟨.inr h, hn⟩
      · rintro (h | ⟨h | h, hn⟩)
        · exact .inr (.inl h)
        · exact .inl h
        · exact .inr (.inr ⟨h, hn⟩)

private theorem ordered_metaInsert {k v : Str} {m : LockMetadata} (h : OrderedKeys m) : OrderedKeys (metaInsert k v m) := by
  induction m with
  | nil => simp [metaInsert, OrderedKeys]
  | cons x m ih =>
    obtain ⟨k', v'⟩ := x
    obtain ⟨h1, h2⟩ := List.pairwise_cons.mp h
    simp only [metaInsert]
    split
    · rename_i hc
      refine List.pairwise_cons.mpr ⟨?_, h⟩
      intro e he
      rcases List.mem_cons.mp he with rfl | he
      · exact hc
      · exact Std.TransCmp.lt_trans (cmp := List.compareLex compare) hc (h1 e he)
    · rename_i hc
      have hkk : k = k' := (strCmp_eq_iff _ _).mp hc
      subst hkk
      exact List.pairwise_cons.mpr ⟨h1, h2⟩
    · rename_i hc
      refine List.pairwise_cons.mpr ⟨?_, ih h2⟩
      intro e he
      rcases (mem_insert_iff h2 e).mp he with rfl | ⟨he, -⟩
      · exact Std.OrientedCmp.lt_of_gt (cmp := List.compareLex compare) hc
      · exact h1 e he

/-- Two ordered maps with the same entries are the same. -/
theorem ordered_ext {m m' : LockMetadata} (h : OrderedKeys m) (h' : OrderedKeys m') (he : ∀ e, e ∈ m ↔ e ∈ m') : m = m' := by
  have hirr (a : Str × Str) : strCmp a.1 a.1 ≠ .lt := by
    rw [(strCmp_eq_iff _ _).mpr rfl]
    exact fun h => by cases h
  induction m generalizing m' with
  | nil =>
    cases m' with
    | nil => rfl
    | cons b m' => exact absurd ((he b).mpr (by simp)) (by simp)
  | cons a m ih =>
    cases m' with
    | nil => exact absurd ((he a).mp (by simp)) (by simp)
    | cons b m' =>
      obtain ⟨h1, h2⟩ := List.pairwise_cons.mp h
      obtain ⟨h1', h2'⟩ := List.pairwise_cons.mp h'
      have hab : a = b := by
        rcases List.mem_cons.mp ((he a).mp (by simp)) with h3 | h3
        · exact h3
        rcases List.mem_cons.mp ((he b).mpr (by simp)) with h4 | h4
        · exact h4.symm
        exact absurd (Std.TransCmp.lt_trans (cmp := List.compareLex compare) (h1 b h4) (h1' a h3)) (hirr a)
      subst hab
      rw [ih h2 h2' ?_]
      intro e
      constructor
      · intro hem
        rcases List.mem_cons.mp ((he e).mp (by simp [hem])) with rfl | h3
        · exact absurd (h1 e hem) (hirr e)
        · exact h3
      · intro hem
        rcases List.mem_cons.mp ((he e).mpr (by simp [hem])) with rfl | h3
        · exact absurd (h1' e hem) (hirr e)
        · exact h3

private theorem foldl_insert (l : List (Str × Str)) (a : LockMetadata) (ha : OrderedKeys a) :
    OrderedKeys (l.foldl (fun m e => metaInsert e.1 e.2 m) a) ∧
    ∀ k s, (k, s) ∈ l.foldl (fun m e => metaInsert e.1 e.2 m) a ↔
      (∃ x y, l = x ++ (k, s) :: y ∧ ∀ e ∈ y, e.1 ≠ k) ∨ ((k, s) ∈ a ∧ ∀ e ∈ l, e.1 ≠ k) := by
  induction l generalizing a with
  | nil =>
    refine ⟨ha, ?_⟩
    intro k s
    simp
  | cons e l ih =>
    obtain ⟨h1, h2⟩ := ih (metaInsert e.1 e.2 a) (ordered_metaInsert ha)
    refine ⟨h1, ?_⟩
    intro k s
    rw [List.foldl_cons, h2, mem_insert_iff ha]
    constructor
    · rintro (⟨x, y, rfl, hy⟩ | ⟨he | ⟨hm, hk⟩, hl⟩)
      · exact .inl ⟨e :: x, y, rfl, hy⟩
      · cases he
        exact .inl ⟨[], l, rfl, hl⟩
      · refine .inr ⟨hm, ?_⟩
        intro e' he'
        rcases List.mem_cons.mp he' with rfl | he'
        · exact fun h => hk h.symm
        · exact hl e' he'
    · rintro (⟨x, y, hxy, hy⟩ | ⟨hm, hl⟩)
      · cases x with
        | nil =>
          cases hxy
          exact .inr ⟨.inl rfl, hy⟩
        | cons x0 x =>
          cases hxy
          exact .inl ⟨x, y, rfl, hy⟩
      · exact .inr ⟨.inr ⟨hm, fun h => hl e (by simp) h.symm⟩, fun e' he' => hl e' (by simp [he'])⟩

private theorem metaEntries_iff (t : Table) (l : List (Str × Str)) :
    Outcome.mapList metaEntry t = .ok l ↔ t = l.map fun e => (e.1, Value.str e.2) := by
  have hm (a : Str × Value) (b : Str × Str) : metaEntry a = .ok b ↔ a = (b.1, .str b.2) := by
    obtain ⟨k, v⟩ := a
    obtain ⟨k', s⟩ := b
    unfold metaEntry
    rw [bind_iff]
    simp only [asStr_iff, IsText, pure_iff, Prod.mk.injEq]
    constructor
    · rintro ⟨s', rfl, rfl, rfl⟩
      exact ⟨rfl, rfl⟩
    · rintro ⟨rfl, rfl⟩
      exact ⟨s, rfl, rfl, rfl⟩
  rw [mapList_iff]
  constructor
  · intro h
    induction h with
    | nil => rfl
    | cons h _ ih => rw [(hm _ _).mp h, ih]; rfl
  · rintro rfl
    induction l with
    | nil => exact .nil
    | cons e l ih => exact .cons ((hm _ _).mpr rfl) ih

/-- What the table of the metadata means. -/
theorem metadataTable_iff (v : Value) (m : LockMetadata) : metadataOfValue v = .ok m ↔ IsMetadata v m := by
  have hstr (l : List (Str × Str)) (k s : Str) :
      (∃ a b, l.map (fun e => (e.1, Value.str e.2)) = a ++ (k, .str s) :: b ∧ ∀ e ∈ b, e.1 ≠ k) ↔
      ∃ x y, l = x ++ (k, s) :: y ∧ ∀ e ∈ y, e.1 ≠ k := by
    constructor
    · rintro ⟨a, b, h, hb⟩
      obtain ⟨x, y', rfl, rfl, hy'⟩ := List.map_eq_append_iff.mp h
      obtain ⟨e, y, rfl, he, rfl⟩ := List.map_eq_cons_iff.mp hy'
      obtain ⟨k', s'⟩ := e
      cases he
      exact ⟨x, y, rfl, fun e he => hb (e.1, .str e.2) (List.mem_map_of_mem (f := fun e : Str × Str => (e.1, Value.str e.2)) he)⟩
    · rintro ⟨x, y, rfl, hy⟩
      refine ⟨_, _, by rw [List.map_append, List.map_cons], ?_⟩
      intro e he
      obtain ⟨e', he', rfl⟩ := List.mem_map.mp he
      exact hy e' he'
  unfold IsMetadata
  constructor
  · intro h
    cases v with
    | table t =>
      unfold metadataOfValue at h
      simp only [bind_iff, pure_iff] at h
      obtain ⟨l, hl, rfl⟩ := h
      obtain rfl := (metaEntries_iff _ _).mp hl
      obtain ⟨h1, h2⟩ := foldl_insert l [] (by simp [OrderedKeys])
      refine ⟨_, rfl, ?_, h1, ?_⟩
      · intro e he
        obtain ⟨e', -, rfl⟩ := List.mem_map.mp he
        exact ⟨_, rfl⟩
      · intro k s
        rw [h2, hstr]
        simp
    | _ => cases h
  · rintro ⟨t, rfl, h1, h2, h3⟩
    obtain ⟨l, rfl⟩ : ∃ l : List (Str × Str), t = l.map fun e => (e.1, Value.str e.2) := by
      clear h3
      induction t with
      | nil => exact ⟨[], rfl⟩
      | cons e t ih =>
        obtain ⟨l, rfl⟩ := ih fun e he => h1 e (by simp [he])
        obtain ⟨s, hs⟩ := h1 e (by simp)
        exact ⟨(e.1, s) :: l, by rw [List.map_cons, ← hs]⟩
    unfold metadataOfValue
    simp only [bind_iff, pure_iff]
    refine ⟨l, (metaEntries_iff _ _).mpr rfl, ?_⟩
    obtain ⟨g1, g2⟩ := foldl_insert l [] (by simp [OrderedKeys])
    refine ordered_ext g1 h2 ?_
    rintro ⟨k, s⟩
    rw [g2, h3, hstr]
    simp

/-! ### Resolution -/

private theorem answered_iff (d : EncDependency) (p : EncPackage) : d.answeredBy p = true ↔ d.source = none ∧ Fits d p := by
  unfold EncDependency.answeredBy Fits
  simp only [Bool.and_eq_true, Bool.or_eq_true, decide_eq_true_eq, Option.isNone_iff_eq_none]
  tauto

/-- What a reference refers to. -/
theorem resolves_iff (ps : List EncPackage) (d : EncDependency) (x : Dependency) : d.resolve ps = .ok x ↔ StandsFor ps d x := by
  unfold EncDependency.resolve
  constructor
  · intro h
    cases hf : ps.find? d.answeredBy with
    | some p =>
      rw [hf] at h
      cases h
      obtain ⟨hp, a, b, rfl, ha⟩ := List.find?_eq_some_iff_append.mp hf
      obtain ⟨h1, h2⟩ := (answered_iff d p).mp hp
      refine .listed rfl h1 h2 ?_
      intro q hq hfit
      have := ha q hq
      rw [(answered_iff d q).mpr ⟨h1, hfit⟩] at this
      cases this
    | none =>
      rw [hf] at h
      dsimp only at h
      cases hv : d.version with
      | none => rw [hv] at h; cases h
      | some v =>
        rw [hv] at h
        cases h
        refine .unlisted ?_ hv
        by_cases hs : d.source = none
        · refine .inr fun p hp hfit => ?_
          exact List.find?_eq_none.mp hf p hp ((answered_iff d p).mpr ⟨hs, hfit⟩)
        · exact .inl hs
  · intro h
    cases h with
    | @listed a b p hps hs hp hb =>
      have : ps.find? d.answeredBy = some p := by
        rw [List.find?_eq_some_iff_append]
        refine ⟨(answered_iff d p).mpr ⟨hs, hp⟩, a, b, hps, ?_⟩
        intro q hq
        rw [Bool.not_eq_true', ← Bool.not_eq_true]
        exact fun h => hb q hq ((answered_iff d q).mp h).2
      rw [this]
    | @unlisted v h hv =>
      have : ps.find? d.answeredBy = none := by
        rw [List.find?_eq_none]
        intro p hp hans
        obtain ⟨h1, h2⟩ := (answered_iff d p).mp hans
        rcases h with h | h
        · exact h h1
        · exact h p hp h2
      rw [this]
      dsimp only
      rw [hv]

private theorem replaces_iff (o : Option EncDependency) (r : Option Dependency) :
    resolveReplace o = .ok r ↔ Replaces o r := by
  unfold Replaces
  cases o with
  | none =>
    show Outcome.ok none = .ok r ↔ _
    constructor
    · intro h; cases h; exact .inl ⟨rfl, rfl⟩
    · rintro (⟨-, rfl⟩ | ⟨_, _, h, -⟩)
      · rfl
      · cases h
  | some d =>
    unfold resolveReplace
    dsimp only
    constructor
    · intro h
      cases hd : d.resolve [] with
      | ok x =>
        rw [hd] at h
        cases h
        exact .inr ⟨d, x, rfl, rfl, (resolves_iff _ _ _).mp hd⟩
      | err => rw [hd] at h; cases h
      | panic => rw [hd] at h; cases h
    · rintro (⟨h, -⟩ | ⟨d', x, hd, rfl, hr⟩)
      · cases h
      · cases hd
        rw [(resolves_iff _ _ _).mpr hr]

private theorem means_iff (ps : List EncPackage) (t : EncPackage) (p : Package) :
    t.resolve ps = .ok p ↔ Means ps t t.checksum p := by
  unfold EncPackage.resolve
  simp only [bind_iff, pure_iff, mapList_iff, replaces_iff]
  have hR : (fun d x => EncDependency.resolve d ps = .ok x) = StandsFor ps := by
    funext d x
    exact propext (resolves_iff ps d x)
  rw [hR]
  constructor
  · rintro ⟨ds, h1, r, h2, rfl⟩
    exact ⟨rfl, rfl, rfl, rfl, h1, h2⟩
  · rintro ⟨h1, h2, h3, h4, h5, h6⟩
    refine ⟨_, h5, _, h6, ?_⟩
    obtain ⟨a, b, c, d, e, f⟩ := p
    cases h1; cases h2; cases h3; cases h4
    rfl

private theorem root_iff (o : Option EncPackage) (r : Option Package) : decodeRoot o = .ok r ↔ RootMeans o r := by
  unfold RootMeans
  cases o with
  | none =>
    show Outcome.ok none = .ok r ↔ _
    constructor
    · intro h; cases h; exact .inl ⟨rfl, rfl⟩
    · rintro (⟨-, rfl⟩ | ⟨_, _, h, -⟩)
      · rfl
      · cases h
  | some d =>
    unfold decodeRoot
    dsimp only
    constructor
    · intro h
      cases hd : d.resolve [] with
      | ok x =>
        rw [hd] at h
        cases h
        exact .inr ⟨d, x, rfl, rfl, (means_iff _ _ _).mp hd⟩
      | err => rw [hd] at h; cases h
      | panic => rw [hd] at h; cases h
    · rintro (⟨h, -⟩ | ⟨d', x, hd, rfl, hr⟩)
      · cases h
      · cases hd
        rw [(means_iff _ _ _).mpr hr]

/-! ### Checksums in the metadata -/

private theorem key_ok (C : Codec) (k : Str) (name : Str) (version : Version) :
    (∃ d, keyDependency C k = .ok d ∧ d.name = name ∧ d.version = version) ↔ ChecksumKeyOf C name version k := by
  unfold keyDependency ChecksumKeyOf
  constructor
  · rintro ⟨d, hd, rfl, rfl⟩
    by_cases hk : isChecksumKey k = true
    · rw [if_pos hk] at hd
      cases he : EncDependency.fromStr C (k.drop checksumPrefix.length) with
      | ok e =>
        rw [he] at hd
        have hr := (resolves_iff _ _ _).mp hd
        cases hr with
        | listed hps => exact absurd hps (by simp)
        | @unlisted v h hv =>
          obtain ⟨t, rfl⟩ := List.isPrefixOf_iff_prefix.mp hk
          rw [List.drop_left] at he
          refine ⟨t, e.source, rfl, ?_⟩
          show ReferenceOf C t ⟨e.name, some v, e.source⟩
          rw [← hv]
          exact (reference_iff C t e).mp he
      | err => rw [he] at hd; cases hd
      | panic => rw [he] at hd; cases hd
    · rw [if_neg hk] at hd
      cases hd
  · rintro ⟨s, src, rfl, h⟩
    refine ⟨⟨name, version, src⟩, ?_, rfl, rfl⟩
    have hk : isChecksumKey ("checksum ".toList ++ s) = true := List.isPrefixOf_iff_prefix.mpr ⟨s, rfl⟩
    rw [if_pos hk]
    rw [show ("checksum ".toList ++ s).drop checksumPrefix.length = s from List.drop_left]
    rw [(reference_iff C s _).mpr h]
    exact (resolves_iff _ _ _).mpr (.unlisted (d := ⟨name, some version, src⟩) (.inr fun _ h => by cases h) rfl)

private theorem paren_calm (C : Codec) (s : Str) : parseParen C s ≠ .panic := by
  have hf (t : Str) : SourceId.fromUrl C.url t ≠ .panic := by
    unfold SourceId.fromUrl
    split
    · exact fun h => by cases h
    · split
      · split <;> exact fun h => by cases h
      split
      · split <;> exact fun h => by cases h
      split
      · split <;> exact fun h => by cases h
      split
      · split <;> exact fun h => by cases h
      · exact fun h => by cases h
  unfold parseParen
  split
  · split
    · exact hf _
    · exact fun h => by cases h
  · exact fun h => by cases h

private theorem reference_calm (C : Codec) (s : Str) : EncDependency.fromStr C s ≠ .panic := by
  have hv (t : Str) : parseVersionO C t ≠ .panic := by
    unfold parseVersionO
    split <;> exact fun h => by cases h
  unfold EncDependency.fromStr
  split
  · exact fun h => by cases h
  · split
    · exact fun h => by cases h
    · exact fun h => by cases h
    · rename_i h
      exact absurd h (hv _)
  · split
    · split
      · exact fun h => by cases h
      · exact fun h => by cases h
      · rename_i h
        exact absurd h (paren_calm C _)
    · exact fun h => by cases h
    · rename_i h
      exact absurd h (hv _)
  · exact fun h => by cases h

private theorem resolve_calm (d : EncDependency) (ps : List EncPackage) : d.resolve ps ≠ .panic := by
  unfold EncDependency.resolve
  split
  · exact fun h => by cases h
  · split <;> exact fun h => by cases h

private theorem key_calm (C : Codec) (k : Str) : keyDependency C k ≠ .panic := by
  unfold keyDependency
  split
  · split
    · exact resolve_calm _ _
    · exact fun h => by cases h
    · rename_i h
      exact absurd h (reference_calm C _)
  · exact fun h => by cases h

private theorem find_skip {C : Codec} {p : Package} {k s : Str} {m : LockMetadata} (h : ¬ ChecksumKeyOf C p.name p.version k) :
    findChecksum C p ((k, s) :: m) = findChecksum C p m := by
  rw [← key_ok] at h
  unfold findChecksum
  cases hk : keyDependency C k with
  | ok d =>
    dsimp only
    rw [if_neg fun hd => h ⟨d, hk, hd⟩]
    cases m <;> rfl
  | err => cases m <;> rfl
  | panic => exact absurd hk (key_calm C k)

private theorem find_here {C : Codec} {p : Package} {k s : Str} {m : LockMetadata} (h : ChecksumKeyOf C p.name p.version k) :
    findChecksum C p ((k, s) :: m) = match Checksum.fromStr s with
      | .ok c => .ok (some c)
      | .err => .ok none
      | .panic => .panic := by
  obtain ⟨d, hk, hd⟩ := (key_ok C k _ _).mpr h
  unfold findChecksum
  rw [hk]
  dsimp only
  rw [if_pos hd]
  cases Checksum.fromStr s <;> rfl

private theorem metadataChecksum_cons {C : Codec} {n : Str} {v : Version} {e : Str × Str} {m : LockMetadata}
    {o : Option Checksum} (h : ¬ ChecksumKeyOf C n v e.1) :
    MetadataChecksum C (e :: m) n v o ↔ MetadataChecksum C m n v o := by
  have hall {a : LockMetadata} (ha : ∀ x ∈ a, ¬ ChecksumKeyOf C n v x.1) : ∀ x ∈ e :: a, ¬ ChecksumKeyOf C n v x.1 := by
    intro x hx
    rcases List.mem_cons.mp hx with rfl | hx
    · exact h
    · exact ha x hx
  constructor
  · intro hm
    cases hm with
    | missing hm => exact .missing fun x hx => hm x (by simp [hx])
    | @found a b k s c hm ha hk hs =>
      cases a with
      | nil => cases hm; exact absurd hk h
      | cons a0 a =>
        cases hm
        exact .found rfl (fun x hx => ha x (by simp [hx])) hk hs
    | @unreadable a b k s hm ha hk hs =>
      cases a with
      | nil => cases hm; exact absurd hk h
      | cons a0 a =>
        cases hm
        exact .unreadable rfl (fun x hx => ha x (by simp [hx])) hk hs
  · intro hm
    cases hm with
    | missing hm => exact .missing (hall hm)
    | found hm ha hk hs => subst hm; exact .found (a := e :: _) rfl (hall ha) hk hs
    | unreadable hm ha hk hs => subst hm; exact .unreadable (a := e :: _) rfl (hall ha) hk hs

/-- The checksum that the metadata has for a package. -/
theorem metadataChecksum_iff (C : Codec) (p : Package) (m : LockMetadata) (o : Option Checksum) :
    findChecksum C p m = .ok o ↔ MetadataChecksum C m p.name p.version o := by
  induction m with
  | nil =>
    show Outcome.ok none = .ok o ↔ _
    constructor
    · intro h; cases h; exact .missing fun _ h => by cases h
    · intro h
      cases h with
      | missing => rfl
      | found hm => simp at hm
      | unreadable hm => simp at hm
  | cons e m ih =>
    obtain ⟨k, s⟩ := e
    by_cases hk : ChecksumKeyOf C p.name p.version k
    · rw [find_here hk]
      constructor
      · intro h
        cases hs : Checksum.fromStr s with
        | ok c =>
          rw [hs] at h
          cases h
          exact .found (a := []) rfl (fun _ h => by cases h) hk ((checksumOf_iff _ _).mp hs)
        | err =>
          rw [hs] at h
          cases h
          exact .unreadable (a := []) rfl (fun _ h => by cases h) hk ((noChecksum_iff _).mp hs)
        | panic => rw [hs] at h; cases h
      · intro h
        cases h with
        | missing h => exact absurd hk (h (k, s) (by simp))
        | @found a b k' s' c hm ha hk' hs =>
          cases a with
          | nil =>
            cases hm
            rw [(checksumOf_iff _ _).mpr hs]
          | cons a0 a =>
            cases hm
            exact absurd hk (ha (k, s) (by simp))
        | @unreadable a b k' s' hm ha hk' hs =>
          cases a with
          | nil =>
            cases hm
            rw [(noChecksum_iff _).mpr hs]
          | cons a0 a =>
            cases hm
            exact absurd hk (ha (k, s) (by simp))
    · rw [find_skip hk, metadataChecksum_cons hk]
      exact ih

private theorem packageMeans_iff (C : Codec) (l : EncLockfile) (v : ResolveVersion) (t : EncPackage) (p : Package) :
    decodePackage C l v t = .ok p ↔ PackageMeans C v l.package l.metadata t p := by
  unfold decodePackage PackageMeans
  by_cases hv : v = .v1
  · rw [if_pos hv]
    simp only [bind_iff, pure_iff, metadataChecksum_iff, means_iff]
    constructor
    · rintro ⟨q, hq, c, hc, rfl⟩
      refine .inl ⟨hv, c, ?_, ?_⟩
      · rw [← hq.name, ← hq.version]
        exact hc
      · exact ⟨hq.name, hq.version, hq.source, rfl, hq.dependencies, hq.replace⟩
    · rintro (⟨-, c, hc, hm⟩ | ⟨hn, -⟩)
      · refine ⟨{ p with checksum := t.checksum }, ⟨hm.name, hm.version, hm.source, rfl, hm.dependencies, hm.replace⟩, c, ?_, ?_⟩
        · show MetadataChecksum C l.metadata p.name p.version c
          rw [hm.name, hm.version]
          exact hc
        · obtain ⟨a, b, c', d, e, f⟩ := p
          cases hm.checksum
          rfl
      · exact absurd hv hn
  · rw [if_neg hv, means_iff]
    constructor
    · exact fun h => .inr ⟨hv, h⟩
    · rintro (⟨h, -⟩ | ⟨-, h⟩)
      · exact absurd h hv
      · exact h

/-! ### The version -/

private theorem fromU32_iff (n : Nat) (v : ResolveVersion) :
    ResolveVersion.fromU32 n = .ok v ↔ (n, v) ∈ [(1, ResolveVersion.v1), (2, .v2), (3, .v3), (4, .v4)] := by
  unfold ResolveVersion.fromU32
  by_cases h1 : n = 1
  · subst h1; cases v <;> simp
  rw [if_neg h1]
  by_cases h2 : n = 2
  · subst h2; cases v <;> simp
  rw [if_neg h2]
  by_cases h3 : n = 3
  · subst h3; cases v <;> simp
  rw [if_neg h3]
  by_cases h4 : n = 4
  · subst h4; cases v <;> simp
  rw [if_neg h4]
  simp [h1, h2, h3, h4]

private theorem detect_iff (ps : List EncPackage) (m : LockMetadata) (v : ResolveVersion) :
    ResolveVersion.detect ps m = .ok v ↔
      (v = .v1 ∧ (∃ e ∈ m, "checksum ".toList <+: e.1) ∧ ∀ p ∈ ps, p.checksum = none) ∨
      (v = .v2 ∧ ∀ e ∈ m, ¬ "checksum ".toList <+: e.1) := by
  have h1 : (m.any fun e => isChecksumKey e.1) = true ↔ ∃ e ∈ m, "checksum ".toList <+: e.1 := by
    rw [List.any_eq_true]
    exact exists_congr fun e => and_congr Iff.rfl List.isPrefixOf_iff_prefix
  have h2 : (ps.any fun p => p.checksum.isSome) = true ↔ ¬ ∀ p ∈ ps, p.checksum = none := by
    rw [List.any_eq_true]
    simp [Option.isSome_iff_ne_none]
  unfold ResolveVersion.detect
  dsimp only
  by_cases hm : ∃ e ∈ m, "checksum ".toList <+: e.1
  · have hm' : ¬ ∀ e ∈ m, ¬ "checksum ".toList <+: e.1 := fun h => by
      obtain ⟨e, he, hp⟩ := hm
      exact h e he hp
    rw [h1.mpr hm]
    by_cases hp : ∀ p ∈ ps, p.checksum = none
    · have : (ps.any fun p => p.checksum.isSome) = false := by
        rw [← Bool.not_eq_true, h2]
        exact fun h => h hp
      rw [this]
      constructor
      · intro h
        cases h
        exact .inl ⟨rfl, hm, hp⟩
      · rintro (⟨rfl, -⟩ | ⟨-, h⟩)
        · rfl
        · exact absurd h hm'
    · rw [h2.mpr hp]
      constructor
      · intro h; cases h
      · rintro (⟨-, -, h⟩ | ⟨-, h⟩)
        · exact absurd h hp
        · exact absurd h hm'
  · have : (m.any fun e => isChecksumKey e.1) = false := by
      rw [← Bool.not_eq_true, h1]
      exact hm
    rw [this]
    constructor
    · intro h
      cases h
      exact .inr ⟨rfl, fun e he hp => hm ⟨e, he, hp⟩⟩
    · rintro (⟨-, h, -⟩ | ⟨rfl, -⟩)
      · exact absurd h hm
      · rfl

private theorem format_of_iff (t : Table) (l : EncLockfile) (v : ResolveVersion) :
    (∃ o, optionally t "version" asU32 = .ok o ∧ ({ l with version := o } : EncLockfile).resolveVersion = .ok v) ↔
      FormatOf (t.lookup "version".toList) l.package l.metadata v := by
  unfold FormatOf
  simp only [optionally_iff (R := fun v a => asU32 v = .ok a) fun _ _ => Iff.rfl]
  unfold EncLockfile.resolveVersion
  constructor
  · rintro ⟨o, ⟨h1, rfl⟩ | ⟨w, n, h1, rfl, hn⟩, hv⟩
    · exact .inr (((detect_iff _ _ _).mp hv).imp (fun h => ⟨h1, h⟩) fun h => ⟨h1, h⟩)
    · refine .inl ⟨n, ?_, (fromU32_iff _ _).mp hv⟩
      rw [h1]
      cases w with
      | int i =>
        have hn : (if 0 ≤ i ∧ i < 4294967296 then Outcome.ok i.toNat else .err) = .ok n := hn
        by_cases hi : 0 ≤ i ∧ i < 4294967296
        · rw [if_pos hi] at hn
          injection hn with hn
          rw [← hn, Int.toNat_of_nonneg hi.1]
        · rw [if_neg hi] at hn
          cases hn
      | _ => cases hn
  · rintro (⟨n, h1, hn⟩ | ⟨h1, h⟩ | ⟨h1, h⟩)
    · refine ⟨some n, .inr ⟨_, n, h1, rfl, ?_⟩, (fromU32_iff _ _).mpr hn⟩
      have : n ≤ 4 := by
        simp only [List.mem_cons, Prod.mk.injEq, List.not_mem_nil, or_false] at hn
        omega
      show (if 0 ≤ (n : Int) ∧ (n : Int) < 4294967296 then Outcome.ok (n : Int).toNat else .err) = .ok n
      rw [if_pos (by omega)]
      rfl
    · exact ⟨none, .inl ⟨h1, rfl⟩, (detect_iff _ _ _).mpr (.inl h)⟩
    · exact ⟨none, .inl ⟨h1, rfl⟩, (detect_iff _ _ _).mpr (.inr h)⟩

/-! ### The theorem -/

private theorem optPackage_iff (C : Codec) (t : Table) (k : String) (r : Option EncPackage) :
    (∃ o, optionally t k PkgDoc.ofValue = .ok o ∧ readOptPkg C o = .ok r) ↔
      Optionally (IsPackage C) (t.lookup k.toList) r := by
  simp only [optionally_iff (R := fun v a => PkgDoc.ofValue v = .ok a) fun _ _ => Iff.rfl]
  unfold Optionally
  constructor
  · rintro ⟨o, ⟨h1, rfl⟩ | ⟨v, d, h1, rfl, hd⟩, hr⟩
    · cases hr
      exact .inl ⟨h1, rfl⟩
    · unfold readOptPkg at hr
      dsimp only at hr
      cases hp : d.read C with
      | ok p =>
        rw [hp] at hr
        cases hr
        exact .inr ⟨v, p, h1, rfl, (package_iff C v p).mp ⟨d, hd, hp⟩⟩
      | err => rw [hp] at hr; cases hr
      | panic => rw [hp] at hr; cases hr
  · rintro (⟨h1, rfl⟩ | ⟨v, p, h1, rfl, hp⟩)
    · exact ⟨none, .inl ⟨h1, rfl⟩, rfl⟩
    · obtain ⟨d, hd, hp⟩ := (package_iff C v p).mpr hp
      refine ⟨some d, .inr ⟨v, d, h1, rfl, hd⟩, ?_⟩
      unfold readOptPkg
      dsimp only
      rw [hp]

private theorem optPatch_iff (C : Codec) (t : Table) (k : String) (r : List Dependency) :
    (∃ l, orDefault t k [] patchOfValue = .ok l ∧ Outcome.mapList (PatchDoc.read C) l = .ok r) ↔
      Defaulting [] (IsPatch C) (t.lookup k.toList) r := by
  simp only [orDefault_iff (R := fun v a => patchOfValue v = .ok a) fun _ _ => Iff.rfl]
  unfold Defaulting
  constructor
  · rintro ⟨l, ⟨h1, rfl⟩ | ⟨v, h1, hv⟩, hr⟩
    · cases hr
      exact .inl ⟨h1, rfl⟩
    · exact .inr ⟨v, h1, (patch_iff C v r).mp ⟨l, hv, hr⟩⟩
  · rintro (⟨h1, rfl⟩ | ⟨v, h1, hv⟩)
    · exact ⟨[], .inl ⟨h1, rfl⟩, rfl⟩
    · obtain ⟨l, h2, h3⟩ := (patch_iff C v r).mpr hv
      exact ⟨l, .inr ⟨v, h1, h2⟩, h3⟩

/-- **Property C96** (lockfiles): parsing a text as a lockfile gives exactly the lockfile that the text means. -/
theorem C96_lockfile (C : Codec) (text : Str) (l : Lockfile) :
    Lockfile.fromText C Toml.read text = .ok l ↔ LockfileOf C text l := by
  unfold Lockfile.fromText LockfileOf
  constructor
  · intro h
    cases hr : Toml.read text with
    | none => rw [hr] at h; cases h
    | some doc =>
      rw [hr] at h
      simp only [bind_iff] at h
      obtain ⟨d, hd, hp⟩ := h
      unfold LockDoc.ofTable at hd
      simp only [bind_iff, pure_iff] at hd
      obtain ⟨version, h1, packages, h2, root, h3, metadata, h4, patch, h5, rfl⟩ := hd
      unfold Lockfile.parse LockDoc.read EncLockfile.decode at hp
      simp only [bind_iff, pure_iff] at hp
      obtain ⟨e, ⟨ps, g1, rt, g2, pt, g3, rfl⟩, v, g4, pkgs, g5, rt', g6, rfl⟩ := hp
      refine ⟨doc, ps, rt, rfl, (listing_iff (package_iff C) doc _ _).mp ⟨_, h2, g1⟩,
        (optPackage_iff C doc _ _).mp ⟨_, h3, g2⟩, (orDefault_iff metadataTable_iff doc _ _ _).mp h4,
        (optPatch_iff C doc _ _).mp ⟨_, h5, g3⟩, ?_, ?_, (root_iff _ _).mp g6⟩
      · exact (format_of_iff doc { version := version, package := ps, root := rt, metadata := metadata, patch := pt } v).mp
          ⟨version, h1, g4⟩
      · exact ((mapList_iff _ _ _).mp g5).imp fun _ _ h => (packageMeans_iff _ _ _ _ _).mp h
  · rintro ⟨doc, ps, rt, hr, h2, h3, h4, h5, h1, h6, h7⟩
    rw [hr]
    simp only [bind_iff]
    obtain ⟨packages, h2, g1⟩ := (listing_iff (package_iff C) doc _ _).mpr h2
    obtain ⟨root, h3, g2⟩ := (optPackage_iff C doc _ _).mpr h3
    obtain ⟨patch, h5, g3⟩ := (optPatch_iff C doc _ _).mpr h5
    have h4 := (orDefault_iff metadataTable_iff doc _ _ _).mpr h4
    obtain ⟨version, h1, g4⟩ := (format_of_iff doc
      { version := none, package := ps, root := rt, metadata := l.metadata, patch := l.patch } l.version).mpr h1
    refine ⟨{ version, packages, root, metadata := l.metadata, patch }, ?_, ?_⟩
    · unfold LockDoc.ofTable
      simp only [bind_iff, pure_iff]
      exact ⟨_, h1, _, h2, _, h3, _, h4, _, h5, rfl⟩
    · unfold Lockfile.parse LockDoc.read EncLockfile.decode
      simp only [bind_iff, pure_iff]
      refine ⟨_, ⟨ps, g1, rt, g2, l.patch, g3, rfl⟩, l.version, g4, l.packages, ?_, l.root, (root_iff _ _).mpr h7, rfl⟩
      exact (mapList_iff _ _ _).mpr (h6.imp fun _ _ h => (packageMeans_iff _ _ _ _ _).mpr h)

/-! ### Panics -/

/-- When reading a checksum panics: exactly if a character is cut. -/
theorem C96_checksum_panics (s : Str) : Checksum.fromStr s = .panic ↔ CutsCharacter s := by
  have hloop {n : Nat} {s : Str} (hs : byteLen s = 2 * n) : Checksum.loop n s = .panic ↔
      ∃ a bs rest, s = a ++ rest ∧ Spells a bs ∧
        ((∃ c d r, rest = c :: d :: r ∧ c.utf8Size = 1 ∧ d.utf8Size ≠ 1) ∨ (∃ c r, rest = c :: r ∧ 3 ≤ c.utf8Size)) := by
    induction n generalizing s with
    | zero =>
      have hs : s = [] := by
        cases s with
        | nil => rfl
        | cons c s =>
          have := c.utf8Size_pos
          simp only [byteLen, List.map_cons, List.sum_cons] at hs
          omega
      subst hs
      constructor
      · intro h; cases h
      · rintro ⟨a, bs, rest, h, -, ⟨c, d, r, rfl, -⟩ | ⟨c, r, rfl, -⟩⟩
        · simp at h
        · simp at h
    | succ n ih =>
      cases s with
      | nil => simp [byteLen] at hs
      | cons c s =>
        have hc0 := c.utf8Size_pos
        by_cases hc : c.utf8Size = 1
        · cases s with
          | nil => simp [byteLen, hc] at hs; omega
          | cons d s =>
            by_cases hd : d.utf8Size = 1
            · have hs' : byteLen s = 2 * n := by
                simp only [byteLen, List.map_cons, List.sum_cons, hc, hd] at hs ⊢; omega
              cases hb : byteOfHex c d with
              | none =>
                have : Checksum.loop (n + 1) (c :: d :: s) = .err := by
                  simp only [Checksum.loop, hc, hd, if_true, hb]
                rw [this]
                simp only [reduceCtorEq, false_iff]
                rintro ⟨a, bs, rest, h, h1, h2⟩
                cases h1 with
                | nil =>
                  rcases h2 with ⟨c', d', r, rfl, -, h2⟩ | ⟨c', r, rfl, h2⟩
                  · cases h
                    exact h2 hd
                  · cases h
                    omega
                | cons hp h1 =>
                  cases h
                  rw [hexPair_iff, hb] at hp
                  cases hp
              | some b =>
                have : Checksum.loop (n + 1) (c :: d :: s) = .panic ↔ Checksum.loop n s = .panic := by
                  simp only [Checksum.loop, hc, hd, if_true, hb]
                  cases Checksum.loop n s <;> simp
                rw [this, ih hs']
                constructor
                · rintro ⟨a, bs, rest, rfl, h1, h2⟩
                  exact ⟨c :: d :: a, b :: bs, rest, rfl, .cons (hexPair_iff.mpr hb) h1, h2⟩
                · rintro ⟨a, bs, rest, h, h1, h2⟩
                  cases h1 with
                  | nil =>
                    rcases h2 with ⟨c', d', r, rfl, -, h2⟩ | ⟨c', r, rfl, h2⟩
                    · cases h
                      exact absurd hd h2
                    · cases h
                      omega
                  | cons hp h1 =>
                    cases h
                    exact ⟨_, _, rest, rfl, h1, h2⟩
            · have : Checksum.loop (n + 1) (c :: d :: s) = .panic := by
                simp only [Checksum.loop, hc, hd, if_true, if_false]
              rw [this]
              simp only [true_iff]
              exact ⟨[], [], _, rfl, .nil, .inl ⟨c, d, s, rfl, hc, hd⟩⟩
        · by_cases hc2 : c.utf8Size = 2
          · have : Checksum.loop (n + 1) (c :: s) = .err := by
              simp [Checksum.loop, hc2]
            rw [this]
            simp only [reduceCtorEq, false_iff]
            rintro ⟨a, bs, rest, h, h1, h2⟩
            cases h1 with
            | nil =>
              rcases h2 with ⟨c', d', r, rfl, h2, -⟩ | ⟨c', r, rfl, h2⟩
              · cases h
                exact hc h2
              · cases h
                omega
            | cons hp h1 =>
              cases h
              exact hc (byteOfHex_size (hexPair_iff.mp hp)).1
          · have : Checksum.loop (n + 1) (c :: s) = .panic := by
              simp [Checksum.loop, hc, hc2]
            rw [this]
            simp only [true_iff]
            exact ⟨[], [], _, rfl, .nil, .inr ⟨c, s, rfl, by omega⟩⟩
  unfold Checksum.fromStr CutsCharacter
  by_cases h : byteLen s = 64
  · rw [if_neg (by simpa using h), hloop (by omega)]
    simp [h]
  · rw [if_pos h]
    simp [h]

private theorem bind_panic {α β : Type} {x : Outcome α} {f : α → Outcome β} (h : (x >>= f) = .panic) :
    x = .panic ∨ ∃ a, x = .ok a ∧ f a = .panic := by
  cases x with
  | ok a => exact .inr ⟨a, rfl, h⟩
  | err => cases h
  | panic => exact .inl rfl

private theorem mapList_panic {α β : Type} {f : α → Outcome β} {l : List α} (h : Outcome.mapList f l = .panic) :
    ∃ x ∈ l, f x = .panic := by
  induction l with
  | nil => cases h
  | cons a l ih =>
    unfold Outcome.mapList at h
    cases ha : f a with
    | panic => exact ⟨a, by simp, ha⟩
    | err => rw [ha] at h; cases h
    | ok b =>
      rw [ha] at h
      cases hl : Outcome.mapList f l with
      | panic =>
        obtain ⟨x, hx, hf⟩ := ih hl
        exact ⟨x, by simp [hx], hf⟩
      | err => rw [hl] at h; cases h
      | ok r => rw [hl] at h; cases h

private theorem versionO_calm (C : Codec) (t : Str) : parseVersionO C t ≠ .panic := by
  unfold parseVersionO
  split <;> exact fun h => by cases h

private theorem fromUrl_calm (U : UrlLib) (t : Str) : SourceId.fromUrl U t ≠ .panic := by
  unfold SourceId.fromUrl
  split
  · exact fun h => by cases h
  · split
    · split <;> exact fun h => by cases h
    split
    · split <;> exact fun h => by cases h
    split
    · split <;> exact fun h => by cases h
    split
    · split <;> exact fun h => by cases h
    · exact fun h => by cases h

private theorem readOpt_panic {α : Type} {f : Str → Outcome α} {o : Option Str} (h : readOpt f o = .panic) :
    ∃ s, o = some s ∧ f s = .panic := by
  cases o with
  | none => cases h
  | some s =>
    refine ⟨s, rfl, ?_⟩
    unfold readOpt at h
    dsimp only at h
    cases hs : f s with
    | ok a => rw [hs] at h; cases h
    | err => rw [hs] at h; cases h
    | panic => rfl

private theorem read_panic {C : Codec} {d : PkgDoc} (h : d.read C = .panic) :
    ∃ s, d.checksum = some s ∧ Checksum.fromStr s = .panic := by
  unfold PkgDoc.read at h
  rcases bind_panic h with h | ⟨_, -, h⟩
  · exact absurd h (versionO_calm C _)
  rcases bind_panic h with h | ⟨_, -, h⟩
  · obtain ⟨s, -, hs⟩ := readOpt_panic h
    exact absurd hs (fromUrl_calm _ _)
  rcases bind_panic h with h | ⟨_, -, h⟩
  · exact readOpt_panic h
  rcases bind_panic h with h | ⟨_, -, h⟩
  · obtain ⟨s, -, hs⟩ := mapList_panic h
    exact absurd hs (reference_calm C _)
  rcases bind_panic h with h | ⟨_, -, h⟩
  · obtain ⟨s, -, hs⟩ := readOpt_panic h
    exact absurd hs (reference_calm C _)
  · cases h

private theorem ofValue_checksum {v : Value} {d : PkgDoc} (h : PkgDoc.ofValue v = .ok d) {s : Str} (hs : d.checksum = some s) :
    ∃ t, v = .table t ∧ t.lookup "checksum".toList = some (.str s) := by
  cases v with
  | table t =>
    refine ⟨t, rfl, ?_⟩
    unfold PkgDoc.ofValue at h
    simp only [bind_iff, pure_iff] at h
    obtain ⟨_, -, _, -, _, -, c, hc, _, -, _, -, rfl⟩ := h
    have hs : c = some s := hs
    rcases (optionally_iff asStr_iff t _ _).mp hc with ⟨-, hn⟩ | ⟨v, x, h1, hx, h2⟩
    · rw [hn] at hs; cases hs
    · rw [hx] at hs
      cases hs
      rw [h1, h2]
  | _ => cases h

private theorem ofValue_calm (v : Value) : PkgDoc.ofValue v ≠ .panic := by
  cases v with
  | table t =>
    unfold PkgDoc.ofValue
    refine bind_calm (needed_calm asStr_calm t _) fun _ => ?_
    refine bind_calm (needed_calm asStr_calm t _) fun _ => ?_
    refine bind_calm (optionally_calm asStr_calm t _) fun _ => ?_
    refine bind_calm (optionally_calm asStr_calm t _) fun _ => ?_
    refine bind_calm (orDefault_calm (asArr_calm asStr_calm) t _ _) fun _ => ?_
    refine bind_calm (optionally_calm asStr_calm t _) fun _ => ?_
    exact pure_calm _
  | _ => exact fun h => by cases h

private theorem patchValue_calm (v : Value) : patchOfValue v ≠ .panic := by
  have h (v : Value) : PatchDoc.ofValue v ≠ .panic := by
    cases v with
    | table t =>
      unfold PatchDoc.ofValue
      refine bind_calm (needed_calm asStr_calm t _) fun _ => ?_
      refine bind_calm (needed_calm asStr_calm t _) fun _ => ?_
      refine bind_calm (optionally_calm asStr_calm t _) fun _ => ?_
      exact pure_calm _
    | _ => exact fun h => by cases h
  cases v with
  | table t => exact needed_calm (asArr_calm h) t _
  | _ => exact fun h => by cases h

private theorem metadata_calm (v : Value) : metadataOfValue v ≠ .panic := by
  cases v with
  | table t =>
    unfold metadataOfValue
    refine bind_calm ?_ fun _ => pure_calm _
    intro h
    obtain ⟨e, -, he⟩ := mapList_panic h
    unfold metaEntry at he
    exact bind_calm (asStr_calm e.2) (fun _ => pure_calm _) he
  | _ => exact fun h => by cases h

private theorem u32_calm (v : Value) : asU32 v ≠ .panic := by
  cases v with
  | int n =>
    show (if 0 ≤ n ∧ n < 4294967296 then Outcome.ok n.toNat else .err) ≠ .panic
    split <;> exact fun h => by cases h
  | _ => exact fun h => by cases h

private theorem packageResolve_calm (t : EncPackage) (ps : List EncPackage) : t.resolve ps ≠ .panic := by
  unfold EncPackage.resolve
  refine bind_calm ?_ fun _ => bind_calm ?_ fun _ => pure_calm _
  · intro h
    obtain ⟨d, -, hd⟩ := mapList_panic h
    exact resolve_calm d ps hd
  · unfold resolveReplace
    split
    · exact fun h => by cases h
    · split
      · exact fun h => by cases h
      · exact fun h => by cases h
      · rename_i h
        exact absurd h (resolve_calm _ _)

private theorem findChecksum_panic {C : Codec} {p : Package} {m : LockMetadata} (h : findChecksum C p m = .panic) :
    ∃ k s, (k, s) ∈ m ∧ "checksum ".toList <+: k ∧ Checksum.fromStr s = .panic := by
  induction m with
  | nil => cases h
  | cons e m ih =>
    obtain ⟨k, s⟩ := e
    by_cases hk : ChecksumKeyOf C p.name p.version k
    · rw [find_here hk] at h
      obtain ⟨r, -, hr, -⟩ := hk
      refine ⟨k, s, by simp, ⟨r, hr.symm⟩, ?_⟩
      cases hs : Checksum.fromStr s with
      | ok c => rw [hs] at h; cases h
      | err => rw [hs] at h; cases h
      | panic => rfl
    · rw [find_skip hk] at h
      obtain ⟨k', s', h1, h2⟩ := ih h
      exact ⟨k', s', by simp [h1], h2⟩

/-- **Property C96** (panics): parsing a text as a lockfile panics only if, where the document has a checksum, there is a text
of 64 bytes with a character that is cut. -/
theorem C96_panics (C : Codec) (text : Str) (h : Lockfile.fromText C Toml.read text = .panic) :
    ∃ doc s, Toml.read text = some doc ∧ ChecksumText doc s ∧ CutsCharacter s := by
  unfold Lockfile.fromText at h
  cases hr : Toml.read text with
  | none => rw [hr] at h; cases h
  | some doc =>
    rw [hr] at h
    dsimp only at h
    refine ⟨doc, ?_⟩
    simp only [← C96_checksum_panics]
    rcases bind_panic h with h | ⟨d, hd, hp⟩
    · exfalso
      unfold LockDoc.ofTable at h
      revert h
      refine bind_calm (optionally_calm u32_calm doc _) fun _ => ?_
      refine bind_calm (orDefault_calm (asArr_calm ofValue_calm) doc _ _) fun _ => ?_
      refine bind_calm (optionally_calm ofValue_calm doc _) fun _ => ?_
      refine bind_calm (orDefault_calm metadata_calm doc _ _) fun _ => ?_
      refine bind_calm (orDefault_calm patchValue_calm doc _ _) fun _ => ?_
      exact pure_calm _
    unfold LockDoc.ofTable at hd
    simp only [bind_iff, pure_iff] at hd
    obtain ⟨version, h1, packages, h2, root, h3, metadata, h4, patch, h5, rfl⟩ := hd
    have hpkg (q : PkgDoc) (hq : q ∈ packages) (s : Str) (hs : q.checksum = some s) :
        ∃ tables t, doc.lookup "package".toList = some (.arr tables) ∧ Value.table t ∈ tables ∧
          t.lookup "checksum".toList = some (.str s) := by
      rcases (orDefault_iff (asArr_iff (R := fun v a => PkgDoc.ofValue v = .ok a) fun _ _ => Iff.rfl) doc _ _ _).mp h2 with
        ⟨-, rfl⟩ | ⟨v, hv, vs, rfl, hvs⟩
      · cases hq
      · obtain ⟨v, hvm, hvq⟩ := forall2_right hvs q hq
        obtain ⟨t, rfl, ht⟩ := ofValue_checksum hvq hs
        exact ⟨vs, t, hv, hvm, ht⟩
    unfold Lockfile.parse at hp
    rcases bind_panic hp with hp | ⟨e, he, hp⟩
    · unfold LockDoc.read at hp
      rcases bind_panic hp with hp | ⟨_, -, hp⟩
      · obtain ⟨q, hq, hqp⟩ := mapList_panic hp
        obtain ⟨s, hs, hsp⟩ := read_panic hqp
        exact ⟨s, trivial, .inl (hpkg q hq s hs), hsp⟩
      rcases bind_panic hp with hp | ⟨_, -, hp⟩
      · cases root with
        | none => cases hp
        | some q =>
          have hqp : q.read C = .panic := by
            unfold readOptPkg at hp
            dsimp only at hp
            cases hq : q.read C with
            | ok a => rw [hq] at hp; cases hp
            | err => rw [hq] at hp; cases hp
            | panic => rfl
          obtain ⟨s, hs, hsp⟩ := read_panic hqp
          rcases (optionally_iff (R := fun v a => PkgDoc.ofValue v = .ok a) (fun _ _ => Iff.rfl) doc _ _).mp h3 with
            ⟨-, hn⟩ | ⟨v, x, hv, hx, hvq⟩
          · cases hn
          · cases hx
            obtain ⟨t, rfl, ht⟩ := ofValue_checksum hvq hs
            exact ⟨s, trivial, .inr (.inl ⟨t, hv, ht⟩), hsp⟩
      rcases bind_panic hp with hp | ⟨_, -, hp⟩
      · obtain ⟨q, -, hqp⟩ := mapList_panic hp
        exfalso
        unfold PatchDoc.read at hqp
        rcases bind_panic hqp with h | ⟨_, -, h⟩
        · exact versionO_calm C _ h
        rcases bind_panic h with h | ⟨_, -, h⟩
        · obtain ⟨s, -, hs⟩ := readOpt_panic h
          exact fromUrl_calm _ _ hs
        · cases h
      · cases hp
    · unfold LockDoc.read at he
      simp only [bind_iff, pure_iff] at he
      obtain ⟨ps, g1, rt, g2, pt, g3, rfl⟩ := he
      unfold EncLockfile.decode at hp
      rcases bind_panic hp with hp | ⟨v, -, hp⟩
      · exfalso
        unfold EncLockfile.resolveVersion ResolveVersion.fromU32 ResolveVersion.detect at hp
        dsimp only at hp
        revert hp
        cases version with
        | none =>
          dsimp only
          split
          · exact fun h => by cases h
          · split <;> exact fun h => by cases h
        | some n =>
          dsimp only
          split
          · exact fun h => by cases h
          split
          · exact fun h => by cases h
          split
          · exact fun h => by cases h
          split <;> exact fun h => by cases h
      rcases bind_panic hp with hp | ⟨_, -, hp⟩
      · obtain ⟨t, -, htp⟩ := mapList_panic hp
        unfold decodePackage at htp
        split at htp
        · rcases bind_panic htp with h | ⟨pkg, -, h⟩
          · exact absurd h (packageResolve_calm _ _)
          rcases bind_panic h with h | ⟨_, -, h⟩
          · obtain ⟨k, s, hm, hk, hs⟩ := findChecksum_panic h
            have hm : (k, s) ∈ metadata := hm
            rcases (orDefault_iff metadataTable_iff doc _ _ _).mp h4 with ⟨-, rfl⟩ | ⟨v, hv, t, rfl, -, -, ht⟩
            · cases hm
            · obtain ⟨a, b, rfl, -⟩ := (ht k s).mp hm
              exact ⟨s, trivial, .inr (.inr ⟨_, k, hv, by simp, hk⟩), hs⟩
          · cases h
        · exact absurd htp (packageResolve_calm _ _)
      rcases bind_panic hp with hp | ⟨_, -, hp⟩
      · exfalso
        unfold decodeRoot at hp
        split at hp
        · cases hp
        · split at hp
          · cases hp
          · cases hp
          · rename_i h
            exact packageResolve_calm _ _ h
      · cases hp

/-- **Property C96** (one meaning): a text means at most one lockfile. -/
theorem C96_unique (C : Codec) (text : Str) (l l' : Lockfile) (h : LockfileOf C text l) (h' : LockfileOf C text l') :
    l = l' := by
  have := (C96_lockfile C text l).mpr h
  rw [(C96_lockfile C text l').mpr h'] at this
  cases this
  rfl

end Verif.Props
