import Verif.Lemmas.CvssText
import Verif.Spec.CvssText
import Mathlib.Data.List.Perm.Basic

/-!
# C33, C34, C35, C59: CVSS vectors as text
-/

namespace Verif.Cvss

open List Spec

/-! ### Bridging lemmas -/

theorem toLower_toNat (c : Char) :
    c.toLower.toNat = if 65 ≤ c.toNat ∧ c.toNat ≤ 90 then c.toNat + 32 else c.toNat := by
  unfold Char.toLower
  have h1 : (c.val ≥ 'A'.val ∧ c.val ≤ 'Z'.val) ↔ (65 ≤ c.toNat ∧ c.toNat ≤ 90) := Iff.rfl
  split
  · rename_i h
    rw [if_pos (h1.mp h)]
    show (c.val + ('a'.val - 'A'.val)).toNat = _
    have h2 : ('a'.val - 'A'.val) = (32 : UInt32) := by decide
    rw [h2, UInt32.toNat_add]
    have := h1.mp h
    have h3 : c.val.toNat = c.toNat := rfl
    rw [h3]
    have : (32 : UInt32).toNat = 32 := rfl
    omega
  · rename_i h
    rw [if_neg (fun h' => h (h1.mpr h'))]

theorem upperChar_eq_iff (c d : Char) : upperChar c = upperChar d ↔ c.toLower = d.toLower := by
  rw [← Char.toNat_inj, ← Char.toNat_inj, upperChar_toNat, upperChar_toNat, toLower_toNat, toLower_toNat]
  split <;> split <;> split <;> split <;> omega

theorem upper_eq_iff (a b : Str) : upper a = upper b ↔ SameLetters a b := by
  unfold upper SameLetters
  induction a generalizing b with
  | nil => cases b <;> simp
  | cons x xs ih =>
    cases b with
    | nil => simp
    | cons y ys => simp only [map_cons, cons.injEq]; rw [ih, upperChar_eq_iff]

theorem reads_iff_upper {S : Scheme} (hf : S.fold = upper) (ts : List Str) (v : S.Metrics) :
    Scheme.Reads ts v ↔ Gives SameLetters ts v := by
  have : S.Spells = fun t (e : S.Entry) => SameLetters t (S.name e.1 ++ ':' :: S.asStr e.1 e.2) := by
    funext t e
    unfold Scheme.Spells
    rw [hf]
    exact propext (upper_eq_iff _ _)
  unfold Scheme.Reads Gives
  rw [this]

theorem reads_iff_id {S : Scheme} (hf : S.fold = id) (ts : List Str) (v : S.Metrics) :
    Scheme.Reads ts v ↔ Gives (· = ·) ts v := by
  have : S.Spells = fun t (e : S.Entry) => t = S.name e.1 ++ ':' :: S.asStr e.1 e.2 := by
    funext t e
    unfold Scheme.Spells
    rw [hf]
    rfl
  unfold Scheme.Reads Gives
  rw [this]

theorem Gives.perm {S : Scheme} {same : Str → Str → Prop} {ts ts' : List Str} {v : S.Metrics}
    (h : Gives same ts v) (hp : ts.Perm ts') : Gives same ts' v := by
  obtain ⟨es, h1, h2, h3⟩ := h
  obtain ⟨es', hp', hf'⟩ := (perm_comp_forall₂ hp.symm h1)
  exact ⟨es', hp', (hf'.map _).nodup_iff.mpr h2, fun m x => by rw [h3, hf'.mem_iff]⟩

theorem Gives.unique {S : Scheme} {same : Str → Str → Prop} {ts : List Str} {v w : S.Metrics}
    (hs : ∀ t (e e' : (m : S.M) × S.Val m), same t (S.name e.1 ++ ':' :: S.asStr e.1 e.2) →
      same t (S.name e'.1 ++ ':' :: S.asStr e'.1 e'.2) → e = e')
    (h : Gives same ts v) (h' : Gives same ts w) : v = w := by
  obtain ⟨es, h1, -, h3⟩ := h
  obtain ⟨es', h1', -, h3'⟩ := h'
  have : es = es' := by
    clear h3 h3'
    induction h1 generalizing es' with
    | nil => cases h1'; rfl
    | cons h _ ih =>
      cases h1' with
      | cons h' hr => rw [hs _ _ _ h h', ih _ hr]
  subst this
  funext m
  apply Option.ext
  intro x
  rw [h3, h3']

theorem run_ne_panic {S : Scheme} (cs : List (Str × Str)) : ∀ v : S.Metrics, Scheme.run v cs ≠ .panic := by
  induction cs with
  | nil => intro v; simp [Scheme.run]
  | cons c rest ih =>
    intro v
    rw [Scheme.run]
    cases hs : Scheme.step v c with
    | ok v' => simpa using ih v'
    | err => simp
    | panic =>
      unfold Scheme.step at hs
      split at hs
      · simp at hs
      · split at hs
        · simp at hs
        · split at hs <;> simp at hs

/-- A prefixed text: its components are the prefix and the components of the parts. -/
theorem components_prefixed {S : Scheme} (L : S.Lawful) {id version : Str}
    (hi : ':' ∉ id ∧ '/' ∉ id) (hv : ':' ∉ version ∧ '/' ∉ version) {parts : List Str} {v : S.Metrics}
    (h : Scheme.Reads parts v) :
    ∃ cs, components (joinC '/' ((id ++ ':' :: version) :: parts)) = some ((id, version) :: cs)
      ∧ Scheme.run S.empty cs = .ok v := by
  obtain ⟨cs, rfl, hcl, hrun⟩ := h.ok L
  refine ⟨cs, ?_, hrun⟩
  apply components_iff.mpr
  refine ⟨by simp, by simp, ?_⟩
  intro c hc
  rcases mem_cons.mp hc with rfl | hc
  · exact ⟨hi.1, hv.1, hi.2, hv.2⟩
  · exact hcl c hc

theorem forall₂_append_split {α β : Type} {R : α → β → Prop} : ∀ {l₁ l₂ : List α} {es : List β},
    Forall₂ R (l₁ ++ l₂) es → ∃ a b, Forall₂ R l₁ a ∧ Forall₂ R l₂ b ∧ es = a ++ b
  | [], _, es, h => ⟨[], es, .nil, h, rfl⟩
  | _ :: _, _, _, .cons hx h => by
    obtain ⟨a, b, ha, hb, rfl⟩ := forall₂_append_split h
    exact ⟨_ :: a, b, .cons hx ha, hb, rfl⟩

theorem twice_not_gives {S : Scheme} {same : Str → Str → Prop}
    (hs : ∀ t (e e' : (m : S.M) × S.Val m), same t (S.name e.1 ++ ':' :: S.asStr e.1 e.2) →
      same t (S.name e'.1 ++ ':' :: S.asStr e'.1 e'.2) → e = e')
    {l₁ l₂ l₃ : List Str} {t t' : Str} {m : S.M} {x x' : S.Val m}
    (h : same t (S.name m ++ ':' :: S.asStr m x)) (h' : same t' (S.name m ++ ':' :: S.asStr m x'))
    (v : S.Metrics) : ¬ Gives same (l₁ ++ t :: l₂ ++ t' :: l₃) v := by
  rintro ⟨es, hf, hnd, -⟩
  obtain ⟨a, b, hab, hb', rfl⟩ := forall₂_append_split hf
  obtain ⟨a1, a2, ha1, ha2, rfl⟩ := forall₂_append_split hab
  cases ha2 with
  | @cons _ e _ a2 he _ =>
    cases hb' with
    | @cons _ e' _ b' he' _ =>
      have h1 := hs _ _ ⟨m, x⟩ he h
      have h2 := hs _ _ ⟨m, x'⟩ he' h'
      subst h1 h2
      simp only [map_append, map_cons] at hnd
      rw [nodup_append] at hnd
      exact hnd.2.2 m (by simp) m (by simp) rfl

theorem Lawful.spell_unique {S : Scheme} (L : S.Lawful) (t : Str) (e e' : S.Entry) (h : S.Spells t e)
    (h' : S.Spells t e') : e = e' := by
  obtain ⟨m, x⟩ := e
  obtain ⟨m', x'⟩ := e'
  unfold Scheme.Spells Scheme.show at h h'
  rw [h] at h'
  obtain ⟨a, b, hab, ha, hb⟩ := L.fold_cut _ _ _ (L.name_clean m').1 h'
  have hsplit : splitC ':' (S.name m ++ ':' :: S.asStr m x) = [S.name m, S.asStr m x] := by
    rw [splitC_append (L.name_clean m).1, splitC_of_not_mem (L.value_clean m x).1]
  have hac : ':' ∉ a := fun hm => (L.name_clean m').1 ((L.fold_mem _ _ ha _ (Or.inl rfl)).mp hm)
  have hbc : ':' ∉ b := fun hm => (L.value_clean m' x').1 ((L.fold_mem _ _ hb _ (Or.inl rfl)).mp hm)
  have hsplit' : splitC ':' (a ++ ':' :: b) = [a, b] := by
    rw [splitC_append hac, splitC_of_not_mem hbc]
  simp only at hab
  rw [← hab, hsplit] at hsplit'
  simp only [cons.injEq, and_true] at hsplit'
  obtain ⟨rfl, rfl⟩ := hsplit'
  have h1 := (L.types _ _).mpr (rfl : S.fold (S.name m) = S.fold (S.name m))
  rw [ha, (L.types _ _).mpr rfl] at h1
  simp only [Option.some.injEq] at h1
  subst h1
  have h2 := (L.values m' _ _).mpr (rfl : S.fold (S.asStr m' x) = S.fold (S.asStr m' x))
  rw [hb, (L.values m' _ _).mpr rfl] at h2
  simp only [Option.some.injEq] at h2
  subst h2
  rfl

theorem upper_unique {S : Scheme} (hf : S.fold = upper) (L : S.Lawful) :
    ∀ t (e e' : (m : S.M) × S.Val m), SameLetters t (S.name e.1 ++ ':' :: S.asStr e.1 e.2) →
      SameLetters t (S.name e'.1 ++ ':' :: S.asStr e'.1 e'.2) → e = e' := by
  intro t e e' h h'
  apply Lawful.spell_unique L t e e' <;> unfold Scheme.Spells <;> rw [hf]
  · exact (upper_eq_iff _ _).mpr h
  · exact (upper_eq_iff _ _).mpr h'

theorem id_unique {S : Scheme} (hf : S.fold = id) (L : S.Lawful) :
    ∀ t (e e' : (m : S.M) × S.Val m), t = S.name e.1 ++ ':' :: S.asStr e.1 e.2 →
      t = S.name e'.1 ++ ':' :: S.asStr e'.1 e'.2 → e = e' := by
  intro t e e' h h'
  apply Lawful.spell_unique L t e e' <;> unfold Scheme.Spells <;> rw [hf]
  · exact h
  · exact h'

/-! ### C33: v3 -/

/-- **C33** The texts of the v3 metric values are exactly those of the CVSS v3.1 specification. -/
theorem C33_vocabulary (t : Str) :
    (∃ m x, V3.scheme.show m x = t) ↔ t ∈ texts v3Table := by
  have h1 : ∀ m : V3.MetricType, ∀ x ∈ m.values, V3.scheme.show m x ∈ texts v3Table := by
    intro m; cases m <;> decide +kernel
  have h2 : ∀ t ∈ texts v3Table, ∃ m ∈ V3.MetricType.all, ∃ x ∈ m.values, V3.scheme.show m x = t := by
    decide +kernel
  constructor
  · rintro ⟨m, x, rfl⟩; exact h1 m x (V3.MetricType.mem_values m x)
  · intro ht; obtain ⟨m, -, x, -, h⟩ := h2 t ht; exact ⟨m, x, h⟩

theorem V3.version_text : ∀ n, n ≤ 1 → "CVSS:3.".toList ++ showNat n = "CVSS".toList ++ ':' :: ("3.".toList ++ showNat n) := by
  intro n hn
  have : n = 0 ∨ n = 1 := by omega
  rcases this with rfl | rfl <;> decide +kernel

/-- **C33** Exactly which texts parse as a CVSS v3 vector, and to what: `CVSS:3.0` or `CVSS:3.1`, then
components naming each metric at most once, in any order and in upper or lower case. -/
theorem C33_parse_iff (s : Str) (b : V3.Base) :
    V3.Base.fromStr s = .ok b ↔
      b.minorVersion ≤ 1 ∧ ∃ parts : List Str,
        s = joinC '/' (("CVSS:3.".toList ++ showNat b.minorVersion) :: parts)
        ∧ Gives SameLetters parts b.metrics := by
  obtain ⟨minor, v⟩ := b
  simp only
  have hlook : ∀ ver n, lookupStr V3.minorOf ver = some n ↔ n ≤ 1 ∧ ver = "3.".toList ++ showNat n := by
    intro ver n
    constructor
    · intro h
      have := mem_of_lookupStr h
      simp only [V3.minorOf, mem_cons, Prod.mk.injEq, not_mem_nil, or_false] at this
      rcases this with ⟨rfl, rfl⟩ | ⟨rfl, rfl⟩ <;> decide +kernel
    · rintro ⟨hn, rfl⟩
      have : n = 0 ∨ n = 1 := by omega
      rcases this with rfl | rfl <;> decide +kernel
  constructor
  · intro h
    unfold V3.Base.fromStr at h
    split at h
    · simp at h
    · simp at h
    · rename_i id version rest hc
      obtain ⟨-, hs, hcl⟩ := components_iff.mp hc
      split at h
      · simp at h
      · rename_i hid
        split at h
        · simp at h
        · rename_i n hn
          split at h
          · rename_i w hrun
            simp only [Outcome.ok.injEq, V3.Base.mk.injEq] at h
            obtain ⟨rfl, rfl⟩ := h
            obtain ⟨hle, hver⟩ := (hlook _ _).mp hn
            refine ⟨hle, rest.map (fun c => c.1 ++ ':' :: c.2), ?_,
              (reads_iff_upper rfl _ _).mp ((Scheme.run_empty_iff V3.lawful _ _).mp hrun).1⟩
            rw [hs, map_cons]
            simp only [ne_eq, Decidable.not_not] at hid
            simp only [hid, hver]
            rw [V3.version_text _ hle]
          · simp at h
          · simp at h
  · rintro ⟨hle, parts, rfl, hg⟩
    rw [V3.version_text _ hle]
    have hclean : (':' ∉ "3.".toList ++ showNat minor) ∧ ('/' ∉ "3.".toList ++ showNat minor) := by
      have : minor = 0 ∨ minor = 1 := by omega
      rcases this with rfl | rfl <;> decide +kernel
    obtain ⟨cs, hcs, hrun⟩ := components_prefixed (id := "CVSS".toList) V3.lawful (by decide +kernel) hclean
      ((reads_iff_upper rfl _ _).mpr hg)
    unfold V3.Base.fromStr
    rw [hcs]
    simp only [ne_eq, not_true_eq_false, if_false]
    rw [(hlook _ _).mpr ⟨hle, rfl⟩]
    simp only
    rw [hrun]

/-- **C33** Parsing a v3 vector never panics. -/
theorem C33_total (s : Str) : V3.Base.fromStr s ≠ .panic := by
  unfold V3.Base.fromStr
  split
  · simp
  · simp
  · split
    · simp
    · split
      · simp
      · split
        · simp
        · simp
        · rename_i h; exact absurd h (run_ne_panic _ _)

/-- **C33** Round trip: parsing the displayed form of a v3 vector gives it back, whichever metrics it has. -/
theorem C33_round_trip (b : V3.Base) (h : b.minorVersion ≤ 1) : V3.Base.fromStr b.display = .ok b := by
  apply (C33_parse_iff _ _).mpr
  refine ⟨h, Scheme.shown V3.displayOrder b.metrics, ?_, ?_⟩
  · unfold V3.Base.display
    rw [slashed_eq]
  · apply (reads_iff_upper rfl _ _).mp
    exact Scheme.reads_shown (by intro m; cases m <;> decide) (by decide) _

/-- **C33** The order of the metrics does not matter. -/
theorem C33_any_order (pre : Str) (parts parts' : List Str) (b : V3.Base) (hp : parts.Perm parts')
    (hc : ∀ p ∈ parts, '/' ∉ p) (hpre : '/' ∉ pre)
    (h : V3.Base.fromStr (joinC '/' (pre :: parts)) = .ok b) :
    V3.Base.fromStr (joinC '/' (pre :: parts')) = .ok b := by
  obtain ⟨hle, ps, hs, hg⟩ := (C33_parse_iff _ _).mp h
  have hcl : ∀ q ∈ ("CVSS:3.".toList ++ showNat b.minorVersion) :: ps, '/' ∉ q := by
    intro q hq
    rcases mem_cons.mp hq with rfl | hq
    · have : b.minorVersion = 0 ∨ b.minorVersion = 1 := by omega
      rcases this with h | h <;> rw [h] <;> decide +kernel
    · obtain ⟨cs, rfl, hcl, -⟩ := ((reads_iff_upper rfl _ _).mpr hg).ok V3.lawful
      obtain ⟨c, hc, rfl⟩ := mem_map.mp hq
      have := hcl c hc
      simp only [mem_append, mem_cons, not_or]
      exact ⟨this.2.2.1, by decide, this.2.2.2⟩
  have heq := congrArg (splitC '/') hs
  rw [splitC_joinC (by simp), splitC_joinC (by simp) hcl] at heq
  · simp only [cons.injEq] at heq
    obtain ⟨rfl, rfl⟩ := heq
    exact (C33_parse_iff _ _).mpr ⟨hle, parts', rfl, Gives.perm hg hp⟩
  · intro p hp
    rcases mem_cons.mp hp with rfl | hp
    · exact hpre
    · exact hc p hp

/-- **C33** A v3 vector that gives some metric twice is rejected, whatever the two values are. -/
theorem C33_duplicate (pre : Str) (l₁ l₂ l₃ : List Str) (t t' : Str) (m : V3.MetricType) (x x' : m.Val)
    (hc : ∀ p ∈ pre :: (l₁ ++ t :: l₂ ++ t' :: l₃), '/' ∉ p)
    (h : SameLetters t (m.name ++ ':' :: m.asStr x)) (h' : SameLetters t' (m.name ++ ':' :: m.asStr x')) :
    V3.Base.fromStr (joinC '/' (pre :: (l₁ ++ t :: l₂ ++ t' :: l₃))) = .err := by
  cases hb : V3.Base.fromStr (joinC '/' (pre :: (l₁ ++ t :: l₂ ++ t' :: l₃))) with
  | err => rfl
  | panic => exact absurd hb (C33_total _)
  | ok b =>
    exfalso
    obtain ⟨hle, ps, hs, hg⟩ := (C33_parse_iff _ _).mp hb
    have hcl : ∀ q ∈ ("CVSS:3.".toList ++ showNat b.minorVersion) :: ps, '/' ∉ q := by
      intro q hq
      rcases mem_cons.mp hq with rfl | hq
      · have : b.minorVersion = 0 ∨ b.minorVersion = 1 := by omega
        rcases this with h | h <;> rw [h] <;> decide +kernel
      · obtain ⟨cs, rfl, hcl, -⟩ := ((reads_iff_upper rfl _ _).mpr hg).ok V3.lawful
        obtain ⟨c, hc, rfl⟩ := mem_map.mp hq
        have := hcl c hc
        simp only [mem_append, mem_cons, not_or]
        exact ⟨this.2.2.1, by decide, this.2.2.2⟩
    have heq := congrArg (splitC '/') hs
    rw [splitC_joinC (by simp) hc, splitC_joinC (by simp) hcl] at heq
    simp only [cons.injEq] at heq
    obtain ⟨-, rfl⟩ := heq
    exact twice_not_gives (S := V3.scheme) (upper_unique rfl V3.lawful) h h' _ hg

/-- The vector of the examples: `CVSS:3.1/AV:N/AC:H/PR:L/UI:R/S:C/C:L/I:H/A:N`. -/
def exV3 : V3.Base where
  minorVersion := 1
  metrics := fun
    | .AV => some .network
    | .AC => some .high
    | .PR => some .low
    | .UI => some .required
    | .S => some .changed
    | .C => some .low
    | .I => some .high
    | .A => some .none

example : exV3.display = "CVSS:3.1/AV:N/AC:H/PR:L/UI:R/S:C/C:L/I:H/A:N".toList := by decide +kernel

example : V3.Base.fromStr "CVSS:3.1/AV:N/AC:H/PR:L/UI:R/S:C/C:L/I:H/A:N".toList = .ok exV3 := by
  have : "CVSS:3.1/AV:N/AC:H/PR:L/UI:R/S:C/C:L/I:H/A:N".toList = exV3.display := by decide +kernel
  rw [this]
  exact C33_round_trip _ (by decide)

example : V3.Base.fromStr "CVSS:3.1/AV:N/AC:L/av:l".toList = .err :=
  C33_duplicate "CVSS:3.1".toList [] ["AC:L".toList] [] "AV:N".toList "av:l".toList .AV .network .local
    (by decide +kernel) (by unfold SameLetters; decide +kernel) (by unfold SameLetters; decide +kernel)

/-! ### C34: v2 -/

/-- **C34** The texts of the v2 metric values are exactly those of the CVSS v2 guide. -/
theorem C34_vocabulary (t : Str) :
    (∃ m x, V2.scheme.show m x = t) ↔ t ∈ texts v2Table := by
  have h1 : ∀ m : V2.MetricType, ∀ x ∈ m.values, V2.scheme.show m x ∈ texts v2Table := by
    intro m; cases m <;> decide +kernel
  have h2 : ∀ t ∈ texts v2Table, ∃ m ∈ V2.MetricType.all, ∃ x ∈ m.values, V2.scheme.show m x = t := by
    decide +kernel
  constructor
  · rintro ⟨m, x, rfl⟩; exact h1 m x (V2.MetricType.mem_values m x)
  · intro ht; obtain ⟨m, -, x, -, h⟩ := h2 t ht; exact ⟨m, x, h⟩

/-- The six base metrics of CVSS v2 are present. -/
def V2.HasBase (v : V2.Vector) : Prop :=
  v .AV ≠ none ∧ v .AC ≠ none ∧ v .Au ≠ none ∧ v .C ≠ none ∧ v .I ≠ none ∧ v .A ≠ none

theorem V2.mandatory_iff (v : V2.Vector) :
    (V2.mandatory.all fun m => (v m).isSome) = true ↔ V2.HasBase v := by
  unfold V2.HasBase V2.mandatory
  simp only [all_cons, all_nil, Bool.and_true, Bool.and_eq_true, Option.isSome_iff_ne_none]

/-- **C34** Exactly which texts parse as a CVSS v2 vector, and to what: components naming each metric at most
once, in any order, with all six base metrics present. -/
theorem C34_parse_iff (s : Str) (v : V2.Vector) :
    V2.Vector.fromStr s = .ok v ↔
      V2.HasBase v ∧ ∃ parts : List Str, s = joinC '/' parts ∧ Gives (· = ·) parts v := by
  constructor
  · intro h
    unfold V2.Vector.fromStr at h
    split at h
    · simp at h
    · rename_i cs hc
      obtain ⟨-, hs, hcl⟩ := components_iff.mp hc
      split at h
      · rename_i w hrun
        split at h
        · rename_i hm
          simp only [Outcome.ok.injEq] at h
          subst h
          exact ⟨(V2.mandatory_iff _).mp hm, _, hs,
            (reads_iff_id rfl _ _).mp ((Scheme.run_empty_iff V2.lawful _ _).mp hrun).1⟩
        · simp at h
      · simp at h
      · simp at h
  · rintro ⟨hb, parts, rfl, hg⟩
    obtain ⟨cs, rfl, hcl, hrun⟩ := ((reads_iff_id (S := V2.scheme) rfl _ _).mpr hg).ok V2.lawful
    have hne : cs ≠ [] := by
      rintro rfl
      simp only [Scheme.run, Outcome.ok.injEq] at hrun
      subst hrun
      exact hb.1 rfl
    unfold V2.Vector.fromStr
    rw [components_iff.mpr ⟨hne, rfl, hcl⟩]
    simp only
    rw [hrun]
    simp only
    rw [if_pos ((V2.mandatory_iff _).mpr hb)]

/-- **C34** Parsing a v2 vector never panics. -/
theorem C34_total (s : Str) : V2.Vector.fromStr s ≠ .panic := by
  unfold V2.Vector.fromStr
  split
  · simp
  · split
    · split <;> simp
    · simp
    · rename_i h; exact absurd h (run_ne_panic _ _)

/-- **C34** Round trip: parsing the displayed form of a v2 vector with its six base metrics gives it back. -/
theorem C34_round_trip (v : V2.Vector) (h : V2.HasBase v) : V2.Vector.fromStr (V2.Vector.display v) = .ok v := by
  apply (C34_parse_iff _ _).mpr
  refine ⟨h, _, rfl, ?_⟩
  apply (reads_iff_id rfl _ _).mp
  exact Scheme.reads_shown (by intro m; cases m <;> decide) (by decide) _

theorem V2.parts_clean {parts : List Str} {v : V2.Vector} (hg : Gives (· = ·) parts v) :
    ∀ q ∈ parts, '/' ∉ q := by
  intro q hq
  obtain ⟨cs, rfl, hcl, -⟩ := ((reads_iff_id (S := V2.scheme) rfl _ _).mpr hg).ok V2.lawful
  obtain ⟨c, hc, rfl⟩ := mem_map.mp hq
  have := hcl c hc
  simp only [mem_append, mem_cons, not_or]
  exact ⟨this.2.2.1, by decide, this.2.2.2⟩

theorem V2.parts_ne {parts : List Str} {v : V2.Vector} (hb : V2.HasBase v) (hg : Gives (· = ·) parts v) :
    parts ≠ [] := by
  rintro rfl
  obtain ⟨es, h1, -, h3⟩ := hg
  cases h1
  cases hv : v .AV with
  | none => exact hb.1 hv
  | some x => simpa using (h3 .AV x).mp hv

/-- **C34** The order of the metrics does not matter. -/
theorem C34_any_order (parts parts' : List Str) (v : V2.Vector) (hp : parts.Perm parts')
    (hc : ∀ p ∈ parts, '/' ∉ p) (hne : parts ≠ [])
    (h : V2.Vector.fromStr (joinC '/' parts) = .ok v) : V2.Vector.fromStr (joinC '/' parts') = .ok v := by
  obtain ⟨hb, ps, hs, hg⟩ := (C34_parse_iff _ _).mp h
  have heq := congrArg (splitC '/') hs
  rw [splitC_joinC hne hc, splitC_joinC (V2.parts_ne hb hg) (V2.parts_clean hg)] at heq
  subst heq
  exact (C34_parse_iff _ _).mpr ⟨hb, parts', rfl, Gives.perm hg hp⟩

/-- **C34** A v2 vector that gives some metric twice is rejected. -/
theorem C34_duplicate (l₁ l₂ l₃ : List Str) (m : V2.MetricType) (x x' : m.Val)
    (hc : ∀ p ∈ l₁ ++ l₂ ++ l₃, '/' ∉ p) :
    V2.Vector.fromStr (joinC '/' (l₁ ++ (m.name ++ ':' :: m.asStr x) :: l₂ ++ (m.name ++ ':' :: m.asStr x') :: l₃)) = .err := by
  cases hb : V2.Vector.fromStr (joinC '/' (l₁ ++ (m.name ++ ':' :: m.asStr x) :: l₂ ++ (m.name ++ ':' :: m.asStr x') :: l₃)) with
  | err => rfl
  | panic => exact absurd hb (C34_total _)
  | ok v =>
    exfalso
    obtain ⟨hbase, ps, hs, hg⟩ := (C34_parse_iff _ _).mp hb
    have heq := congrArg (splitC '/') hs
    rw [splitC_joinC (by simp), splitC_joinC (V2.parts_ne hbase hg) (V2.parts_clean hg)] at heq
    · subst heq
      exact twice_not_gives (S := V2.scheme) (same := (· = ·)) (id_unique rfl V2.lawful) rfl rfl _ hg
    · have hshow : ∀ y : m.Val, '/' ∉ m.name ++ ':' :: m.asStr y := by
        intro y
        simp only [mem_append, mem_cons, not_or]
        exact ⟨(V2.lawful.name_clean m).2, by decide, (V2.lawful.value_clean m y).2⟩
      intro p hp
      simp only [mem_append, mem_cons] at hp hc
      rcases hp with (hp | rfl | hp) | rfl | hp
      · exact hc p (Or.inl (Or.inl hp))
      · exact hshow x
      · exact hc p (Or.inl (Or.inr hp))
      · exact hshow x'
      · exact hc p (Or.inr hp)

/-- The vector of the examples: `AV:N/AC:L/Au:N/C:N/I:N/A:C/E:F/RL:OF/CDP:LM/TD:H/CR:M`. -/
def exV2 : V2.Vector
  | .AV => some .network
  | .AC => some .low
  | .Au => some .none
  | .C => some .none
  | .I => some .none
  | .A => some .complete
  | .E => some .functional
  | .RL => some .officialFix
  | .RC => none
  | .CDP => some .lowMedium
  | .TD => some .high
  | .CR => some .medium
  | .IR => none
  | .AR => none

example : V2.Vector.display exV2 = "AV:N/AC:L/Au:N/C:N/I:N/A:C/E:F/RL:OF/CDP:LM/TD:H/CR:M".toList := by
  decide +kernel

example : V2.HasBase exV2 := by unfold V2.HasBase exV2; simp

/-! ### C35: v4 -/

/-- **C35** The texts of the v4 metric values are exactly those of the CVSS v4.0 specification. -/
theorem C35_vocabulary (t : Str) :
    (∃ m x, V4.scheme.show m x = t) ↔ t ∈ texts v4Table := by
  have h1 : ∀ m : V4.MetricType, ∀ x ∈ m.values, V4.scheme.show m x ∈ texts v4Table := by
    intro m; cases m <;> decide +kernel
  have h2 : ∀ t ∈ texts v4Table, ∃ m ∈ V4.MetricType.all, ∃ x ∈ m.values, V4.scheme.show m x = t := by
    decide +kernel
  constructor
  · rintro ⟨m, x, rfl⟩; exact h1 m x (V4.MetricType.mem_values m x)
  · intro ht; obtain ⟨m, -, x, -, h⟩ := h2 t ht; exact ⟨m, x, h⟩

/-- The eleven base metrics of CVSS v4 are present. -/
def V4.HasBase (v : V4.Vector) : Prop :=
  v.metrics .AV ≠ none ∧ v.metrics .AC ≠ none ∧ v.metrics .AT ≠ none ∧ v.metrics .PR ≠ none
    ∧ v.metrics .UI ≠ none ∧ v.metrics .VC ≠ none ∧ v.metrics .VI ≠ none ∧ v.metrics .VA ≠ none
    ∧ v.metrics .SC ≠ none ∧ v.metrics .SI ≠ none ∧ v.metrics .SA ≠ none

theorem V4.mandatory_iff (v : V4.scheme.Metrics) :
    (V4.mandatory.all fun m => (v m).isSome) = true ↔ V4.HasBase ⟨0, v⟩ := by
  unfold V4.HasBase V4.mandatory
  simp only [all_cons, all_nil, Bool.and_true, Bool.and_eq_true, Option.isSome_iff_ne_none]
  constructor
  · rintro ⟨h1, h2, h3, h4, h5, h6, h7, h8, h9, h10, h11⟩
    exact ⟨h3, h1, h2, h4, h8, h10, h11, h9, h6, h7, h5⟩
  · rintro ⟨h3, h1, h2, h4, h8, h10, h11, h9, h6, h7, h5⟩
    exact ⟨h1, h2, h3, h4, h5, h6, h7, h8, h9, h10, h11⟩

/-- **C35** Exactly which texts parse as a CVSS v4 vector, and to what: `CVSS:4.0`, then components naming each
metric at most once, in any order and in upper or lower case, with all eleven base metrics present. -/
theorem C35_parse_iff (s : Str) (v : V4.Vector) :
    V4.Vector.fromStr s = .ok v ↔
      v.minorVersion = 0 ∧ V4.HasBase v ∧ ∃ parts : List Str,
        s = joinC '/' ("CVSS:4.0".toList :: parts) ∧ Gives SameLetters parts v.metrics := by
  obtain ⟨minor, v⟩ := v
  have htext : "CVSS:4.0".toList = "CVSS".toList ++ ':' :: "4.0".toList := by decide +kernel
  constructor
  · intro h
    unfold V4.Vector.fromStr at h
    split at h
    · simp at h
    · simp at h
    · rename_i id version rest hc
      obtain ⟨-, hs, hcl⟩ := components_iff.mp hc
      split at h
      · simp at h
      · rename_i hid
        split at h
        · simp at h
        · rename_i hver
          split at h
          · rename_i w hrun
            split at h
            · rename_i hm
              simp only [Outcome.ok.injEq, V4.Vector.mk.injEq] at h
              obtain ⟨rfl, rfl⟩ := h
              refine ⟨rfl, (V4.mandatory_iff _).mp hm, rest.map (fun c => c.1 ++ ':' :: c.2), ?_,
                (reads_iff_upper rfl _ _).mp ((Scheme.run_empty_iff V4.lawful _ _).mp hrun).1⟩
              rw [hs, map_cons, htext]
              simp only [ne_eq, Decidable.not_not] at hid hver
              simp only [hid, hver]
            · simp at h
          · simp at h
          · simp at h
  · rintro ⟨h0, hb, parts, rfl, hg⟩
    simp only at h0
    subst h0
    obtain ⟨cs, hcs, hrun⟩ := components_prefixed (id := "CVSS".toList) (version := "4.0".toList) V4.lawful
      (by decide +kernel) (by decide +kernel) ((reads_iff_upper rfl _ _).mpr hg)
    unfold V4.Vector.fromStr
    rw [htext, hcs]
    simp only [ne_eq, not_true_eq_false, if_false]
    rw [hrun]
    simp only
    rw [if_pos ((V4.mandatory_iff _).mpr hb)]

/-- **C35** Parsing a v4 vector never panics. -/
theorem C35_total (s : Str) : V4.Vector.fromStr s ≠ .panic := by
  unfold V4.Vector.fromStr
  split
  · simp
  · simp
  · split
    · simp
    · split
      · simp
      · split
        · split <;> simp
        · simp
        · rename_i h; exact absurd h (run_ne_panic _ _)

theorem V4.display_eq (v : V4.Vector) (h : v.minorVersion = 0) :
    v.display = joinC '/' ("CVSS:4.0".toList :: Scheme.shown V4.displayOrder v.metrics) := by
  unfold V4.Vector.display
  rw [slashed_eq, h]
  have : "CVSS:4.".toList ++ showNat 0 = "CVSS:4.0".toList := by decide +kernel
  rw [this]

/-- **C35** Round trip: parsing the displayed form of a v4 vector with its eleven base metrics gives it back. -/
theorem C35_round_trip (v : V4.Vector) (h0 : v.minorVersion = 0) (h : V4.HasBase v) :
    V4.Vector.fromStr v.display = .ok v := by
  apply (C35_parse_iff _ _).mpr
  refine ⟨h0, h, _, V4.display_eq v h0, ?_⟩
  apply (reads_iff_upper rfl _ _).mp
  exact Scheme.reads_shown (by intro m; cases m <;> decide) (by decide) _

theorem V4.parts_clean {parts : List Str} {v : V4.scheme.Metrics} (hg : Gives SameLetters parts v) :
    ∀ q ∈ "CVSS:4.0".toList :: parts, '/' ∉ q := by
  intro q hq
  rcases mem_cons.mp hq with rfl | hq
  · decide +kernel
  · obtain ⟨cs, rfl, hcl, -⟩ := ((reads_iff_upper (S := V4.scheme) rfl _ _).mpr hg).ok V4.lawful
    obtain ⟨c, hc, rfl⟩ := mem_map.mp hq
    have := hcl c hc
    simp only [mem_append, mem_cons, not_or]
    exact ⟨this.2.2.1, by decide, this.2.2.2⟩

/-- **C35** The order of the metrics does not matter. -/
theorem C35_any_order (pre : Str) (parts parts' : List Str) (v : V4.Vector) (hp : parts.Perm parts')
    (hc : ∀ p ∈ pre :: parts, '/' ∉ p)
    (h : V4.Vector.fromStr (joinC '/' (pre :: parts)) = .ok v) :
    V4.Vector.fromStr (joinC '/' (pre :: parts')) = .ok v := by
  obtain ⟨h0, hb, ps, hs, hg⟩ := (C35_parse_iff _ _).mp h
  have heq := congrArg (splitC '/') hs
  rw [splitC_joinC (by simp) hc, splitC_joinC (by simp) (V4.parts_clean hg)] at heq
  simp only [cons.injEq] at heq
  obtain ⟨rfl, rfl⟩ := heq
  exact (C35_parse_iff _ _).mpr ⟨h0, hb, parts', rfl, Gives.perm hg hp⟩

/-- **C35** A v4 vector that gives some metric twice is rejected, whatever the two values are. -/
theorem C35_duplicate (pre : Str) (l₁ l₂ l₃ : List Str) (t t' : Str) (m : V4.MetricType) (x x' : m.Val)
    (hc : ∀ p ∈ pre :: (l₁ ++ t :: l₂ ++ t' :: l₃), '/' ∉ p)
    (h : SameLetters t (m.name ++ ':' :: m.asStr x)) (h' : SameLetters t' (m.name ++ ':' :: m.asStr x')) :
    V4.Vector.fromStr (joinC '/' (pre :: (l₁ ++ t :: l₂ ++ t' :: l₃))) = .err := by
  cases hb : V4.Vector.fromStr (joinC '/' (pre :: (l₁ ++ t :: l₂ ++ t' :: l₃))) with
  | err => rfl
  | panic => exact absurd hb (C35_total _)
  | ok b =>
    exfalso
    obtain ⟨-, -, ps, hs, hg⟩ := (C35_parse_iff _ _).mp hb
    have heq := congrArg (splitC '/') hs
    rw [splitC_joinC (by simp) hc, splitC_joinC (by simp) (V4.parts_clean hg)] at heq
    simp only [cons.injEq] at heq
    obtain ⟨-, rfl⟩ := heq
    exact twice_not_gives (S := V4.scheme) (upper_unique rfl V4.lawful) h h' _ hg

/-- The vector of the examples, with some environmental and supplemental metrics. -/
def exV4 : V4.Vector where
  minorVersion := 0
  metrics := fun
    | .AV => some .network
    | .AC => some .low
    | .AT => some .none
    | .PR => some .high
    | .UI => some .none
    | .VC => some .low
    | .VI => some .low
    | .VA => some .none
    | .SC => some .none
    | .SI => some .none
    | .SA => some .none
    | .E => some .unreported
    | .MSI => some .safety
    | .U => some .green
    | _ => none

example : exV4.display =
    "CVSS:4.0/AV:N/AC:L/AT:N/PR:H/UI:N/VC:L/VI:L/VA:N/SC:N/SI:N/SA:N/E:U/MSI:S/U:Green".toList := by
  decide +kernel

example : V4.HasBase exV4 ∧ exV4.minorVersion = 0 := by unfold V4.HasBase exV4; simp

/-! ### C59: the unified parser -/

theorem splitOnce_append {c : Char} {a : Str} (h : c ∉ a) (b : Str) : splitOnce c (a ++ c :: b) = some (a, b) := by
  induction a with
  | nil => simp [splitOnce]
  | cons x xs ih =>
    simp only [mem_cons, not_or] at h
    rw [cons_append, splitOnce, if_neg (fun he => h.1 he.symm), ih h.2]
    rfl

theorem splitOnce_none {c : Char} {a : Str} (h : c ∉ a) : splitOnce c a = none := by
  induction a with
  | nil => rfl
  | cons x xs ih =>
    simp only [mem_cons, not_or] at h
    rw [splitOnce, if_neg (fun he => h.1 he.symm), ih h.2]
    rfl

theorem mem_of_splitOnce {c : Char} {s : Str} {p : Str × Str} (h : splitOnce c s = some p) : c ∈ s := by
  by_contra hc
  rw [splitOnce_none hc] at h
  simp at h

theorem splitOnce_joinC {p : Str} (hp : '/' ∉ p) {t : List Str} (ht : t ≠ []) :
    splitOnce '/' (joinC '/' (p :: t)) = some (p, joinC '/' t) := by
  rw [joinC_cons _ _ ht, splitOnce_append hp]

theorem slash_mem_joinC {p : Str} {t : List Str} (ht : t ≠ []) : '/' ∈ joinC '/' (p :: t) := by
  rw [joinC_cons _ _ ht]; simp

theorem map_ok_iff {α β : Type} {f : α → β} {x : Outcome α} {b : β} :
    Outcome.map f x = .ok b ↔ ∃ a, x = .ok a ∧ f a = b := by
  cases x <;> simp [Outcome.map]

/-- A version that a text can be parsed as, and the result. -/
def ParsesAs (s : Str) : Cvss → Prop
  | .v20 v => V2.Vector.fromStr s = .ok v
  | .v30 b => V3.Base.fromStr s = .ok b ∧ b.minorVersion = 0 ∧ '/' ∈ s
  | .v31 b => V3.Base.fromStr s = .ok b ∧ b.minorVersion = 1 ∧ '/' ∈ s
  | .v40 v => V4.Vector.fromStr s = .ok v

theorem V2.value_no_dot (m : V2.MetricType) (x : m.Val) : '.' ∉ m.asStr x := by
  cases m <;> cases x <;> decide +kernel

theorem fromStr_v3 {s : Str} {b : V3.Base} (h : V3.Base.fromStr s = .ok b) (hs : '/' ∈ s) :
    Cvss.fromStr s = Outcome.map (if b.minorVersion = 0 then Cvss.v30 else Cvss.v31) (V3.Base.fromStr s) := by
  obtain ⟨hle, parts, rfl, -⟩ := (C33_parse_iff _ _).mp h
  have hne : parts ≠ [] := by
    rintro rfl
    simp only [joinC] at hs
    have : b.minorVersion = 0 ∨ b.minorVersion = 1 := by omega
    revert hs
    rcases this with h | h <;> rw [h] <;> decide +kernel
  have hm : b.minorVersion = 0 ∨ b.minorVersion = 1 := by omega
  unfold Cvss.fromStr
  rw [splitOnce_joinC _ hne]
  · simp only
    rcases hm with hm | hm
    · rw [hm, show splitOnce ':' ("CVSS:3.".toList ++ showNat 0) = some ("CVSS".toList, "3.0".toList) by decide +kernel]
      simp only
      rw [show splitOnce '.' "3.0".toList = some (['3'], ['0']) by decide +kernel]
      simp only
      rw [if_pos (by decide +kernel)]
      rfl
    · rw [hm, show splitOnce ':' ("CVSS:3.".toList ++ showNat 1) = some ("CVSS".toList, "3.1".toList) by decide +kernel]
      simp only
      rw [show splitOnce '.' "3.1".toList = some (['3'], ['1']) by decide +kernel]
      simp only
      rw [if_neg (by decide +kernel), if_pos (by decide +kernel)]
      rfl
  · rcases hm with hm | hm <;> rw [hm] <;> decide +kernel

theorem fromStr_v4 {s : Str} {v : V4.Vector} (h : V4.Vector.fromStr s = .ok v) :
    Cvss.fromStr s = Outcome.map Cvss.v40 (V4.Vector.fromStr s) := by
  obtain ⟨-, hb, parts, rfl, hg⟩ := (C35_parse_iff _ _).mp h
  have hne : parts ≠ [] := by
    rintro rfl
    obtain ⟨es, h1, -, h3⟩ := hg
    cases h1
    cases hv : v.metrics .AV with
    | none => exact hb.1 hv
    | some x => simpa using (h3 .AV x).mp hv
  unfold Cvss.fromStr
  rw [splitOnce_joinC (by decide +kernel) hne]
  simp only
  rw [show splitOnce ':' "CVSS:4.0".toList = some ("CVSS".toList, "4.0".toList) by decide +kernel]
  simp only
  rw [show splitOnce '.' "4.0".toList = some (['4'], ['0']) by decide +kernel]
  simp only
  rw [if_neg (by decide +kernel), if_neg (by decide +kernel), if_pos (by decide +kernel)]

theorem fromStr_v2 {s : Str} {v : V2.Vector} (h : V2.Vector.fromStr s = .ok v) :
    Cvss.fromStr s = Outcome.map Cvss.v20 (V2.Vector.fromStr s) := by
  obtain ⟨hb, parts, rfl, hg⟩ := (C34_parse_iff _ _).mp h
  have hclean := V2.parts_clean hg
  obtain ⟨es, h1, -, h3⟩ := hg
  cases h1 with
  | nil =>
    cases hv : v .AV with
    | none => exact absurd hv hb.1
    | some x => simpa using (h3 .AV x).mp hv
  | @cons p e ps es' hp hps =>
    obtain ⟨m, x⟩ := e
    have hne : ps ≠ [] := by
      rintro rfl
      cases hps
      cases hv : v .AV with
      | none => exact hb.1 hv
      | some y =>
        cases hw : v .AC with
        | none => exact hb.2.1 hw
        | some z =>
          have e1 := (h3 .AV y).mp hv
          have e2 := (h3 .AC z).mp hw
          simp only [mem_cons, not_mem_nil, or_false] at e1 e2
          have := congrArg Sigma.fst (e1.trans e2.symm)
          simp at this
    unfold Cvss.fromStr
    rw [splitOnce_joinC (hclean _ mem_cons_self) hne]
    simp only at hp ⊢
    subst hp
    rw [splitOnce_append (V2.lawful.name_clean m).1]
    simp only
    rw [splitOnce_none (V2.value_no_dot m x)]

/-- **C59** The unified parser returns exactly what the parser of the version returns: v2 for a text without a
`CVSS:` version, v3.0, v3.1 and v4.0 by the version in the text.  A text is never ambiguous: the result is
unique because parsing is a function.  (The only vectors it does not accept are v3 vectors without any metric.) -/
theorem C59_parse_iff (s : Str) (c : Cvss) : Cvss.fromStr s = .ok c ↔ ParsesAs s c := by
  constructor
  · intro h
    have hslash : '/' ∈ s := by
      unfold Cvss.fromStr at h
      split at h
      · simp at h
      · rename_i hs; exact mem_of_splitOnce hs
    have horig := h
    unfold Cvss.fromStr at h
    split at h
    · simp at h
    · split at h
      · simp at h
      · split at h
        · obtain ⟨v, hv, rfl⟩ := map_ok_iff.mp h
          exact hv
        · split at h
          · obtain ⟨b, hb, rfl⟩ := map_ok_iff.mp h
            have h2 := fromStr_v3 hb hslash
            rw [horig, hb] at h2
            by_cases hm : b.minorVersion = 0
            · exact ⟨hb, hm, hslash⟩
            · rw [if_neg hm] at h2; simp [Outcome.map] at h2
          · split at h
            · obtain ⟨b, hb, rfl⟩ := map_ok_iff.mp h
              have h2 := fromStr_v3 hb hslash
              rw [horig, hb] at h2
              by_cases hm : b.minorVersion = 0
              · rw [if_pos hm] at h2; simp [Outcome.map] at h2
              · have := ((C33_parse_iff _ _).mp hb).1
                exact ⟨hb, by omega, hslash⟩
            · split at h
              · obtain ⟨v, hv, rfl⟩ := map_ok_iff.mp h
                exact hv
              · simp at h
  · intro h
    cases c with
    | v20 v => have h' : V2.Vector.fromStr s = .ok v := h
               rw [fromStr_v2 h', h']; rfl
    | v30 b =>
      obtain ⟨h1, h2, h3⟩ := h
      rw [fromStr_v3 h1 h3, h1, if_pos h2]; rfl
    | v31 b =>
      obtain ⟨h1, h2, h3⟩ := h
      rw [fromStr_v3 h1 h3, h1, if_neg (by omega)]; rfl
    | v40 v => have h' : V4.Vector.fromStr s = .ok v := h
               rw [fromStr_v4 h', h']; rfl

/-- A vector as the unified parser can return it: the base metrics of v2 and v4 are present, the version number
matches, and a v3 vector has at least one metric. -/
def Cvss.WellFormed : Cvss → Prop
  | .v20 v => V2.HasBase v
  | .v30 b => b.minorVersion = 0 ∧ ∃ m, b.metrics m ≠ none
  | .v31 b => b.minorVersion = 1 ∧ ∃ m, b.metrics m ≠ none
  | .v40 v => v.minorVersion = 0 ∧ V4.HasBase v

theorem V3.slash_display (b : V3.Base) (h : ∃ m, b.metrics m ≠ none) : '/' ∈ b.display := by
  obtain ⟨m, hm⟩ := h
  unfold V3.Base.display
  rw [slashed_eq]
  apply slash_mem_joinC
  intro hnil
  cases hv : b.metrics m with
  | none => exact hm hv
  | some x =>
    have : (⟨m, x⟩ : V3.scheme.Entry) ∈ Scheme.entries V3.displayOrder b.metrics :=
      (Scheme.mem_entries (by intro m; cases m <;> decide) _ m x).mp hv
    rw [Scheme.shown_eq, map_eq_nil_iff] at hnil
    rw [hnil] at this
    simp at this

/-- **C59** Round trip through the unified type, for every version. -/
theorem C59_round_trip (c : Cvss) (h : c.WellFormed) : Cvss.fromStr c.display = .ok c := by
  apply (C59_parse_iff _ _).mpr
  cases c with
  | v20 v => exact C34_round_trip v h
  | v30 b => exact ⟨C33_round_trip b (by rw [h.1]; omega), h.1, V3.slash_display b h.2⟩
  | v31 b => exact ⟨C33_round_trip b (Nat.le_of_eq h.1), h.1, V3.slash_display b h.2⟩
  | v40 v => exact C35_round_trip v h.1 h.2

theorem V3.metric_of_slash {s : Str} {b : V3.Base} (h : V3.Base.fromStr s = .ok b) (hs : '/' ∈ s) :
    ∃ m, b.metrics m ≠ none := by
  obtain ⟨hle, parts, rfl, es, hf, -, hv⟩ := (C33_parse_iff _ _).mp h
  cases hf with
  | nil =>
    exfalso
    simp only [joinC] at hs
    have : b.minorVersion = 0 ∨ b.minorVersion = 1 := by omega
    revert hs
    rcases this with h | h <;> rw [h] <;> decide +kernel
  | @cons t e _ _ _ _ =>
    obtain ⟨m, x⟩ := e
    exact ⟨m, by rw [(hv m x).mpr List.mem_cons_self]; simp⟩

/-- **C59** What the unified parser returns is well-formed, hence is read back from its own text. -/
theorem C59_parsed_well_formed (s : Str) (c : Cvss) (h : Cvss.fromStr s = .ok c) :
    c.WellFormed ∧ Cvss.fromStr c.display = .ok c := by
  have hw : c.WellFormed := by
    have hp := (C59_parse_iff s c).mp h
    cases c with
    | v20 v => exact ((C34_parse_iff s v).mp hp).1
    | v30 b => exact ⟨hp.2.1, V3.metric_of_slash hp.1 hp.2.2⟩
    | v31 b => exact ⟨hp.2.1, V3.metric_of_slash hp.1 hp.2.2⟩
    | v40 v => exact ⟨((C35_parse_iff s v).mp hp).1, ((C35_parse_iff s v).mp hp).2.1⟩
  exact ⟨hw, C59_round_trip c hw⟩

/-- **C59** The unified parser never panics. -/
theorem C59_total (s : Str) : Cvss.fromStr s ≠ .panic := by
  have hmap : ∀ {α : Type} (f : α → Cvss) (x : Outcome α), x ≠ .panic → Outcome.map f x ≠ .panic := by
    intro α f x hx; cases x <;> simp_all [Outcome.map]
  unfold Cvss.fromStr
  split
  · simp
  · split
    · simp
    · split
      · exact hmap _ _ (C34_total s)
      · split
        · exact hmap _ _ (C33_total s)
        · split
          · exact hmap _ _ (C33_total s)
          · split
            · exact hmap _ _ (C35_total s)
            · simp

example : (Cvss.v31 exV3).WellFormed ∧ (Cvss.v20 exV2).WellFormed ∧ (Cvss.v40 exV4).WellFormed :=
  ⟨⟨rfl, .AV, by simp [exV3]⟩, by unfold Cvss.WellFormed V2.HasBase exV2; simp,
    rfl, by unfold V4.HasBase exV4; simp⟩

end Verif.Cvss
