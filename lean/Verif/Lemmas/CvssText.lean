import Verif.Model.CvssText
import Mathlib.Data.List.Forall2

/-!
# Parsing and printing CVSS vectors: lemmas common to all versions
-/

namespace Verif.Cvss

open List

/-- A metric with its value. -/
abbrev Scheme.Entry (S : Scheme) : Type := (m : S.M) × S.Val m

theorem mem_of_lookupStr {α : Type} {t : List (Str × α)} {s : Str} {x : α} (h : lookupStr t s = some x) :
    (s, x) ∈ t := by
  induction t with
  | nil => simp [lookupStr] at h
  | cons p rest ih =>
    obtain ⟨lit, y⟩ := p
    rw [lookupStr] at h
    split at h
    · rename_i hs; subst hs; simp only [Option.some.injEq] at h; subst h; exact mem_cons_self
    · exact mem_cons_of_mem _ (ih h)

/-- What the generic parser needs to know about a CVSS version. -/
structure Scheme.Lawful (S : Scheme) : Prop where
  types : ∀ s m, lookupStr S.types s = some m ↔ s = S.fold (S.name m)
  values : ∀ m s x, lookupStr (S.valueTable m) s = some x ↔ s = S.fold (S.asStr m x)
  fold_cut : ∀ t a b, ':' ∉ a → S.fold t = S.fold (a ++ ':' :: b) →
    ∃ a' b', t = a' ++ ':' :: b' ∧ S.fold a' = S.fold a ∧ S.fold b' = S.fold b
  fold_join : ∀ a b a' b', S.fold a' = S.fold a → S.fold b' = S.fold b →
    S.fold (a' ++ ':' :: b') = S.fold (a ++ ':' :: b)
  fold_mem : ∀ a a', S.fold a' = S.fold a → ∀ c, c = ':' ∨ c = '/' → (c ∈ a' ↔ c ∈ a)
  name_clean : ∀ m, ':' ∉ S.name m ∧ '/' ∉ S.name m
  value_clean : ∀ m x, ':' ∉ S.asStr m x ∧ '/' ∉ S.asStr m x

/-- A component spells a metric value, up to the folding of the version. -/
def Scheme.Spells (S : Scheme) (t : Str) (e : S.Entry) : Prop := S.fold t = S.fold (S.show e.1 e.2)

theorem Scheme.set_apply {S : Scheme} (v : S.Metrics) (m : S.M) (x : S.Val m) (m' : S.M) (y : S.Val m') :
    Scheme.set v m x m' = some y ↔ (⟨m', y⟩ : S.Entry) = ⟨m, x⟩ ∨ (m' ≠ m ∧ v m' = some y) := by
  unfold Scheme.set
  by_cases h : m' = m
  · subst h; simp [eq_comm]
  · rw [dif_neg h]
    constructor
    · intro hv; exact Or.inr ⟨h, hv⟩
    · rintro (he | ⟨_, hv⟩)
      · exact absurd (congrArg Sigma.fst he) h
      · exact hv

theorem Scheme.run_iff {S : Scheme} (L : S.Lawful) (cs : List (Str × Str)) :
    ∀ (v w : S.Metrics), Scheme.run v cs = .ok w ↔
      ∃ es : List S.Entry,
        Forall₂ (fun c (e : S.Entry) => S.fold c.1 = S.fold (S.name e.1) ∧ S.fold c.2 = S.fold (S.asStr e.1 e.2)) cs es
        ∧ (es.map Sigma.fst).Nodup ∧ (∀ e ∈ es, v e.1 = none)
        ∧ ∀ m x, w m = some x ↔ v m = some x ∨ (⟨m, x⟩ : S.Entry) ∈ es := by
  induction cs with
  | nil =>
    intro v w
    constructor
    · intro h
      simp only [Scheme.run, Outcome.ok.injEq] at h
      subst h
      exact ⟨[], .nil, by simp, by simp, by simp⟩
    · rintro ⟨es, hf, -, -, hw⟩
      cases hf
      simp only [Scheme.run, Outcome.ok.injEq]
      funext m
      apply Option.ext
      intro x
      have := hw m x
      simp at this
      exact this.symm
  | cons c rest ih =>
    intro v w
    constructor
    · intro h
      rw [Scheme.run] at h
      cases hstep : Scheme.step v c with
      | err => rw [hstep] at h; simp at h
      | panic => rw [hstep] at h; simp at h
      | ok v' =>
        rw [hstep] at h
        simp only at h
        rw [Scheme.step] at hstep
        cases hm : lookupStr S.types (S.fold c.1) with
        | none => rw [hm] at hstep; simp at hstep
        | some m =>
          rw [hm] at hstep
          simp only at hstep
          cases hx : lookupStr (S.valueTable m) (S.fold c.2) with
          | none => rw [hx] at hstep; simp at hstep
          | some x =>
            rw [hx] at hstep
            simp only at hstep
            by_cases hv : (v m).isSome
            · rw [if_pos hv] at hstep; simp at hstep
            · rw [if_neg hv] at hstep
              simp only [Outcome.ok.injEq] at hstep
              subst hstep
              have hvm : v m = none := by
                cases hvm : v m with
                | none => rfl
                | some y => rw [hvm] at hv; exact absurd rfl hv
              obtain ⟨es, hf, hnd, hnone, hw⟩ := (ih _ _).mp h
              refine ⟨⟨m, x⟩ :: es, .cons ⟨(L.types _ _).mp hm, (L.values _ _ _).mp hx⟩ hf, ?_, ?_, ?_⟩
              · rw [map_cons, nodup_cons]
                refine ⟨?_, hnd⟩
                intro hmem
                obtain ⟨e, he, hem⟩ := mem_map.mp hmem
                have := hnone e he
                obtain ⟨m', y⟩ := e
                simp only at hem this
                subst hem
                simp [Scheme.set] at this
              · intro e he
                rcases mem_cons.mp he with rfl | he
                · exact hvm
                · have := hnone e he
                  unfold Scheme.set at this
                  split at this
                  · simp at this
                  · exact this
              · intro m' y
                rw [hw, Scheme.set_apply, mem_cons]
                constructor
                · rintro ((h | ⟨_, h⟩) | h)
                  · exact Or.inr (Or.inl h)
                  · exact Or.inl h
                  · exact Or.inr (Or.inr h)
                · rintro (h' | h' | h')
                  · refine Or.inl (Or.inr ⟨?_, h'⟩)
                    intro hmm
                    subst hmm
                    rw [hvm] at h'; simp at h'
                  · exact Or.inl (Or.inl h')
                  · exact Or.inr h'
    · rintro ⟨es, hf, hnd, hnone, hw⟩
      cases hf with
      | @cons _ e _ es' hc hrest =>
        obtain ⟨m, x⟩ := e
        have h1 : lookupStr S.types (S.fold c.1) = some m := (L.types _ _).mpr hc.1
        have h2 : lookupStr (S.valueTable m) (S.fold c.2) = some x := (L.values _ _ _).mpr hc.2
        have hvm : v m = none := hnone ⟨m, x⟩ mem_cons_self
        have hstep : Scheme.step v c = .ok (Scheme.set v m x) := by
          rw [Scheme.step, h1]
          simp only
          rw [h2]
          simp only
          rw [if_neg]
          rw [hvm]; simp
        rw [Scheme.run, hstep]
        simp only
        rw [map_cons, nodup_cons] at hnd
        apply (ih _ _).mpr
        refine ⟨es', hrest, hnd.2, ?_, ?_⟩
        · intro e he
          unfold Scheme.set
          rw [dif_neg]
          · exact hnone e (mem_cons_of_mem _ he)
          · intro heq
            exact hnd.1 (mem_map.mpr ⟨e, he, heq⟩)
        · intro m' y
          rw [hw, Scheme.set_apply, mem_cons]
          constructor
          · rintro (h | h | h)
            · refine Or.inl (Or.inr ⟨?_, h⟩)
              rintro rfl
              rw [hvm] at h; simp at h
            · exact Or.inl (Or.inl h)
            · exact Or.inr h
          · rintro ((h | ⟨_, h⟩) | h)
            · exact Or.inr (Or.inl h)
            · exact Or.inl h
            · exact Or.inr (Or.inr h)

/-! ### Components -/

theorem component_iff {s : Str} {c : Str × Str} :
    component s = some c ↔ s = c.1 ++ ':' :: c.2 ∧ ':' ∉ c.1 ∧ ':' ∉ c.2 := by
  obtain ⟨a, b⟩ := c
  unfold component
  constructor
  · intro h
    have hj := joinC_splitC ':' s
    have hn := not_mem_splitC ':' s
    split at h
    · rename_i x y hs
      rw [hs] at hj hn
      simp only [Option.some.injEq, Prod.mk.injEq] at h
      obtain ⟨rfl, rfl⟩ := h
      exact ⟨by rw [← hj]; rfl, hn _ (by simp), hn _ (by simp)⟩
    · simp at h
  · rintro ⟨rfl, ha, hb⟩
    simp only at ha hb ⊢
    rw [splitC_append ha, splitC_of_not_mem hb]

theorem mapM_option_iff {α β : Type} (f : α → Option β) (l : List α) :
    ∀ r, l.mapM f = some r ↔ Forall₂ (fun a b => f a = some b) l r := by
  induction l with
  | nil => intro r; cases r <;> simp
  | cons a l ih =>
    intro r
    rw [mapM_cons]
    cases hfa : f a with
    | none =>
      simp only [Option.bind_eq_bind, Option.bind_none]
      constructor
      · intro h; simp at h
      · intro h; cases h with | cons h _ => rw [hfa] at h; simp at h
    | some b =>
      cases hm : l.mapM f with
      | none =>
        simp only [Option.bind_eq_bind, Option.bind_some, Option.bind_none]
        constructor
        · intro h; simp at h
        · intro h
          cases h with
          | @cons _ b' _ r' h hr => rw [(ih r').mpr hr] at hm; simp at hm
      | some r' =>
        simp only [Option.bind_eq_bind, Option.bind_some, Option.pure_def, Option.some.injEq]
        constructor
        · rintro rfl; exact .cons hfa ((ih _).mp hm)
        · intro h
          cases h with
          | @cons _ b' _ r'' h hr =>
            rw [hfa] at h
            have := (ih r'').mpr hr
            rw [hm] at this
            simp only [Option.some.injEq] at h this
            rw [h, this]

theorem forall₂_map_eq {α β : Type} {P : α → β → Prop} {l : List α} {r : List β} {f : β → α}
    (h : Forall₂ P l r) (hf : ∀ a b, P a b → a = f b) : l = r.map f := by
  induction h with
  | nil => rfl
  | cons h _ ih => rw [map_cons, ← hf _ _ h, ← ih]

theorem forall₂_right {α β : Type} {P : α → β → Prop} {l : List α} {r : List β} (h : Forall₂ P l r) :
    ∀ c ∈ r, ∃ a, P a c := by
  induction h with
  | nil => simp
  | cons hab _ ih =>
    intro c hc
    rcases mem_cons.mp hc with rfl | hc
    · exact ⟨_, hab⟩
    · exact ih c hc

theorem components_iff {s : Str} {cs : List (Str × Str)} :
    components s = some cs ↔ cs ≠ [] ∧ s = joinC '/' (cs.map fun c => c.1 ++ ':' :: c.2)
      ∧ ∀ c ∈ cs, ':' ∉ c.1 ∧ ':' ∉ c.2 ∧ '/' ∉ c.1 ∧ '/' ∉ c.2 := by
  unfold components
  rw [mapM_option_iff]
  constructor
  · intro h
    have hl : splitC '/' s = cs.map fun c => c.1 ++ ':' :: c.2 :=
      forall₂_map_eq h fun a b hab => (component_iff.mp hab).1
    refine ⟨?_, ?_, ?_⟩
    · rintro rfl
      exact splitC_ne_nil '/' s hl
    · rw [← hl, joinC_splitC]
    · intro c hc
      have hn := not_mem_splitC '/' s
      rw [hl] at hn
      have h1 := hn _ (mem_map_of_mem hc)
      obtain ⟨a, ha⟩ := forall₂_right h c hc
      have h2 := (component_iff.mp ha).2
      simp only [mem_append, mem_cons, not_or] at h1
      exact ⟨h2.1, h2.2, h1.1, h1.2.2⟩
  · rintro ⟨hne, rfl, hcl⟩
    rw [splitC_joinC]
    · clear hne
      induction cs with
      | nil => exact .nil
      | cons c cs ih =>
        rw [map_cons]
        refine .cons (component_iff.mpr ⟨rfl, ?_, ?_⟩) (ih fun c hc => hcl c (mem_cons_of_mem _ hc))
        · exact (hcl c mem_cons_self).1
        · exact (hcl c mem_cons_self).2.1
    · simpa using hne
    · intro p hp
      obtain ⟨c, hc, rfl⟩ := mem_map.mp hp
      have := hcl c hc
      simp only [mem_append, mem_cons, not_or]
      exact ⟨this.2.2.1, by decide, this.2.2.2⟩

/-- From texts that spell entries to components. -/
theorem Scheme.cut_texts {S : Scheme} (L : S.Lawful) {ts : List Str} {es : List S.Entry}
    (h : Forall₂ S.Spells ts es) :
    ∃ cs : List (Str × Str), ts = cs.map (fun c => c.1 ++ ':' :: c.2)
      ∧ (∀ c ∈ cs, ':' ∉ c.1 ∧ ':' ∉ c.2 ∧ '/' ∉ c.1 ∧ '/' ∉ c.2)
      ∧ Forall₂ (fun c (e : S.Entry) => S.fold c.1 = S.fold (S.name e.1) ∧ S.fold c.2 = S.fold (S.asStr e.1 e.2)) cs es := by
  induction h with
  | nil => exact ⟨[], rfl, by simp, .nil⟩
  | @cons t e ts es h _ ih =>
    obtain ⟨cs, rfl, hcl, hf⟩ := ih
    obtain ⟨m, x⟩ := e
    obtain ⟨a, b, rfl, ha, hb⟩ := L.fold_cut t (S.name m) (S.asStr m x) (L.name_clean m).1 h
    refine ⟨(a, b) :: cs, rfl, ?_, .cons ⟨ha, hb⟩ hf⟩
    intro c hc
    rcases mem_cons.mp hc with rfl | hc
    · have h1 := L.fold_mem _ _ ha
      have h2 := L.fold_mem _ _ hb
      have h3 := L.name_clean m
      have h4 := L.value_clean m x
      exact ⟨fun h => h3.1 ((h1 _ (Or.inl rfl)).mp h), fun h => h4.1 ((h2 _ (Or.inl rfl)).mp h),
        fun h => h3.2 ((h1 _ (Or.inr rfl)).mp h), fun h => h4.2 ((h2 _ (Or.inr rfl)).mp h)⟩
    · exact hcl c hc

theorem Scheme.spell_cs {S : Scheme} (L : S.Lawful) {cs : List (Str × Str)} {es : List S.Entry}
    (h : Forall₂ (fun c (e : S.Entry) => S.fold c.1 = S.fold (S.name e.1) ∧ S.fold c.2 = S.fold (S.asStr e.1 e.2)) cs es) :
    Forall₂ S.Spells (cs.map fun c => c.1 ++ ':' :: c.2) es := by
  induction h with
  | nil => exact .nil
  | cons h _ ih => exact .cons (L.fold_join _ _ _ _ h.1 h.2) ih

/-- The texts parse to the metrics `w`: each spells one metric, no metric twice, `w` has exactly these. -/
def Scheme.Reads {S : Scheme} (ts : List Str) (w : S.Metrics) : Prop :=
  ∃ es : List S.Entry, Forall₂ S.Spells ts es ∧ (es.map Sigma.fst).Nodup
    ∧ ∀ m x, w m = some x ↔ (⟨m, x⟩ : S.Entry) ∈ es

theorem Scheme.run_empty_iff {S : Scheme} (L : S.Lawful) (cs : List (Str × Str)) (w : S.Metrics) :
    Scheme.run S.empty cs = .ok w ↔
      Scheme.Reads (cs.map fun c => c.1 ++ ':' :: c.2) w ∧ True ∧
      ∃ es : List S.Entry,
        Forall₂ (fun c (e : S.Entry) => S.fold c.1 = S.fold (S.name e.1) ∧ S.fold c.2 = S.fold (S.asStr e.1 e.2)) cs es
        ∧ (es.map Sigma.fst).Nodup ∧ ∀ m x, w m = some x ↔ (⟨m, x⟩ : S.Entry) ∈ es := by
  rw [Scheme.run_iff L]
  constructor
  · rintro ⟨es, h1, h2, -, h4⟩
    have h4' : ∀ m x, w m = some x ↔ (⟨m, x⟩ : S.Entry) ∈ es := by
      intro m x; rw [h4]; simp [Scheme.empty]
    exact ⟨⟨es, Scheme.spell_cs L h1, h2, h4'⟩, trivial, es, h1, h2, h4'⟩
  · rintro ⟨-, -, es, h1, h2, h4⟩
    exact ⟨es, h1, h2, fun _ _ => rfl, fun m x => by rw [h4]; simp [Scheme.empty]⟩

theorem Scheme.Reads.ok {S : Scheme} (L : S.Lawful) {ts : List Str} {w : S.Metrics} (h : Scheme.Reads ts w) :
    ∃ cs : List (Str × Str), ts = cs.map (fun c => c.1 ++ ':' :: c.2)
      ∧ (∀ c ∈ cs, ':' ∉ c.1 ∧ ':' ∉ c.2 ∧ '/' ∉ c.1 ∧ '/' ∉ c.2)
      ∧ Scheme.run S.empty cs = .ok w := by
  obtain ⟨es, h1, h2, h3⟩ := h
  obtain ⟨cs, rfl, hcl, hf⟩ := Scheme.cut_texts L h1
  refine ⟨cs, rfl, hcl, (Scheme.run_empty_iff L cs w).mpr ⟨⟨es, h1, h2, h3⟩, trivial, es, hf, h2, h3⟩⟩

/-! ### Folding -/

theorem upperChar_toNat (c : Char) :
    (upperChar c).toNat = if 97 ≤ c.toNat ∧ c.toNat ≤ 122 then c.toNat - 32 else c.toNat := by
  unfold upperChar
  split
  · rename_i h
    have key : ∀ n, n < 123 → 97 ≤ n → (Char.ofNat (n - 32)).toNat = n - 32 := by decide
    exact key _ (by omega) h.1
  · rfl

theorem upperChar_eq_sep {c d : Char} (hd : d = ':' ∨ d = '/') : upperChar c = d ↔ c = d := by
  have hdn : d.toNat = 58 ∨ d.toNat = 47 := by rcases hd with rfl | rfl <;> decide
  constructor
  · intro h
    have h1 := upperChar_toNat c
    rw [h] at h1
    apply Char.toNat_inj.mp
    split at h1 <;> omega
  · rintro rfl
    apply Char.toNat_inj.mp
    rw [upperChar_toNat]
    split <;> omega

theorem upper_eq_append {t p q : Str} (h : upper t = p ++ q) :
    ∃ a b, t = a ++ b ∧ upper a = p ∧ upper b = q := by
  unfold upper at *
  obtain ⟨a, b, rfl, h1, h2⟩ := map_eq_append_iff.mp h
  exact ⟨a, b, rfl, h1, h2⟩

theorem upper_cut (t a b : Str) (h : upper t = upper (a ++ ':' :: b)) :
    ∃ a' b', t = a' ++ ':' :: b' ∧ upper a' = upper a ∧ upper b' = upper b := by
  have h' : upper t = upper a ++ ':' :: upper b := by
    rw [h]; simp [upper]; decide
  obtain ⟨a', r, rfl, ha, hr⟩ := upper_eq_append h'
  unfold upper at hr
  obtain ⟨c, b', rfl, hc, hb⟩ := map_eq_cons_iff.mp hr
  have := (upperChar_eq_sep (Or.inl rfl)).mp hc
  subst this
  exact ⟨a', b', rfl, ha, hb⟩

theorem upper_join (a b a' b' : Str) (ha : upper a' = upper a) (hb : upper b' = upper b) :
    upper (a' ++ ':' :: b') = upper (a ++ ':' :: b) := by
  unfold upper at *
  rw [map_append, map_append, map_cons, map_cons, ha, hb]

theorem mem_upper_sep {a : Str} {c : Char} (hc : c = ':' ∨ c = '/') : c ∈ upper a ↔ c ∈ a := by
  unfold upper
  rw [mem_map]
  constructor
  · rintro ⟨d, hd, he⟩; rw [upperChar_eq_sep hc] at he; exact he ▸ hd
  · intro h; exact ⟨c, h, (upperChar_eq_sep hc).mpr rfl⟩

theorem lawful_of_upper {S : Scheme} (hf : S.fold = upper)
    (types : ∀ s m, lookupStr S.types s = some m ↔ s = S.fold (S.name m))
    (values : ∀ m s x, lookupStr (S.valueTable m) s = some x ↔ s = S.fold (S.asStr m x))
    (name_clean : ∀ m, ':' ∉ S.name m ∧ '/' ∉ S.name m)
    (value_clean : ∀ m x, ':' ∉ S.asStr m x ∧ '/' ∉ S.asStr m x) : S.Lawful where
  types := types
  values := values
  fold_cut := fun t a b _ h => by rw [hf] at h ⊢; exact upper_cut t a b h
  fold_join := by rw [hf]; exact upper_join
  fold_mem := fun a a' h c hc => by
    rw [hf] at h
    rw [← mem_upper_sep hc, h, mem_upper_sep hc]
  name_clean := name_clean
  value_clean := value_clean

theorem lawful_of_id {S : Scheme} (hf : S.fold = id)
    (types : ∀ s m, lookupStr S.types s = some m ↔ s = S.fold (S.name m))
    (values : ∀ m s x, lookupStr (S.valueTable m) s = some x ↔ s = S.fold (S.asStr m x))
    (name_clean : ∀ m, ':' ∉ S.name m ∧ '/' ∉ S.name m)
    (value_clean : ∀ m x, ':' ∉ S.asStr m x ∧ '/' ∉ S.asStr m x) : S.Lawful where
  types := types
  values := values
  fold_cut := fun t a b _ h => by rw [hf] at h ⊢; exact ⟨a, b, h, rfl, rfl⟩
  fold_join := fun a b a' b' h1 h2 => by rw [hf] at *; simp only [id] at *; rw [h1, h2]
  fold_mem := fun a a' h c _ => by rw [hf] at h; simp only [id] at h; rw [h]
  name_clean := name_clean
  value_clean := value_clean

theorem lookup_iff {α : Type} {t : List (Str × α)} {txt : α → Str} (h1 : ∀ p ∈ t, p.1 = txt p.2)
    (h2 : ∀ x, lookupStr t (txt x) = some x) (s : Str) (x : α) : lookupStr t s = some x ↔ s = txt x :=
  ⟨fun h => h1 _ (mem_of_lookupStr h), fun h => h ▸ h2 x⟩

/-! ### The concrete versions -/

theorem V3.lawful : V3.scheme.Lawful := by
  refine lawful_of_upper rfl ?_ ?_ ?_ ?_
  · exact lookup_iff (by decide +kernel) (by intro m; cases m <;> decide +kernel)
  · intro m
    exact lookup_iff (by cases m <;> decide +kernel) (by cases m <;> (intro x; cases x <;> decide +kernel))
  · intro m; cases m <;> decide +kernel
  · intro m; cases m <;> (intro x; cases x <;> decide +kernel)

theorem V2.lawful : V2.scheme.Lawful := by
  refine lawful_of_id rfl ?_ ?_ ?_ ?_
  · exact lookup_iff (by decide +kernel) (by intro m; cases m <;> decide +kernel)
  · intro m
    exact lookup_iff (by cases m <;> decide +kernel) (by cases m <;> (intro x; cases x <;> decide +kernel))
  · intro m; cases m <;> decide +kernel
  · intro m; cases m <;> (intro x; cases x <;> decide +kernel)

theorem V4.lawful : V4.scheme.Lawful := by
  refine lawful_of_upper rfl ?_ ?_ ?_ ?_
  · exact lookup_iff (by decide +kernel) (by intro m; cases m <;> decide +kernel)
  · intro m
    exact lookup_iff (by cases m <;> decide +kernel) (by cases m <;> (intro x; cases x <;> decide +kernel))
  · intro m; cases m <;> decide +kernel
  · intro m; cases m <;> (intro x; cases x <;> decide +kernel)

/-! ### Printing -/

theorem slashed_eq (p : Str) (parts : List Str) : p ++ slashed parts = joinC '/' (p :: parts) := by
  induction parts generalizing p with
  | nil => simp [slashed, joinC]
  | cons q qs ih =>
    rw [joinC_cons _ _ (by simp), ← ih]
    simp [slashed]

/-- The entries of a vector, in a given order. -/
def Scheme.entries {S : Scheme} (order : List S.M) (v : S.Metrics) : List S.Entry :=
  order.filterMap fun m => (v m).map fun x => ⟨m, x⟩

theorem Scheme.shown_eq {S : Scheme} (order : List S.M) (v : S.Metrics) :
    Scheme.shown order v = (Scheme.entries order v).map fun e => S.show e.1 e.2 := by
  unfold Scheme.shown Scheme.entries
  rw [map_filterMap]
  congr 1
  funext m
  cases v m <;> rfl

theorem Scheme.mem_entries {S : Scheme} {order : List S.M} (hall : ∀ m, m ∈ order) (v : S.Metrics) (m : S.M)
    (x : S.Val m) : v m = some x ↔ (⟨m, x⟩ : S.Entry) ∈ Scheme.entries order v := by
  unfold Scheme.entries
  rw [mem_filterMap]
  constructor
  · intro h; exact ⟨m, hall m, by rw [h]; rfl⟩
  · rintro ⟨m', _, h⟩
    cases hv : v m' with
    | none => rw [hv] at h; simp at h
    | some y =>
      rw [hv] at h
      simp only [Option.map_some, Option.some.injEq] at h
      cases h
      exact hv

theorem Scheme.entries_nodup {S : Scheme} {order : List S.M} (hnd : order.Nodup) (v : S.Metrics) :
    ((Scheme.entries order v).map Sigma.fst).Nodup := by
  have : (Scheme.entries order v).map Sigma.fst = order.filter fun m => (v m).isSome := by
    unfold Scheme.entries
    rw [map_filterMap, ← filterMap_eq_filter]
    congr 1
    funext m
    cases h : v m <;> simp [Option.guard, h]
  rw [this]
  exact hnd.filter _

theorem Scheme.spells_self {S : Scheme} (es : List S.Entry) :
    Forall₂ S.Spells (es.map fun e => S.show e.1 e.2) es := by
  induction es with
  | nil => exact .nil
  | cons e es ih => exact .cons rfl ih

theorem Scheme.reads_shown {S : Scheme} {order : List S.M} (hall : ∀ m, m ∈ order) (hnd : order.Nodup)
    (v : S.Metrics) : Scheme.Reads (Scheme.shown order v) v := by
  refine ⟨Scheme.entries order v, ?_, Scheme.entries_nodup hnd v, fun m x => Scheme.mem_entries hall v m x⟩
  rw [Scheme.shown_eq]
  exact Scheme.spells_self _

end Verif.Cvss
