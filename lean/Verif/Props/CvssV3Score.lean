import Verif.Lemmas.CvssV3Score
import Verif.Props.CvssText

/-!
# C36, C37, C40, C60: CVSS v3 scores
-/

namespace Verif.Cvss

open Verif.Cvss.Spec V3

namespace V3

/-- The weights of the model are those of the specification. -/
theorem weights (ch : Bool) (v : scheme.Metrics) (F : Fp) :
    weightOr F AttackVector.score 0 (v .AV) = F.fl (v3Value v ch .AV) ∧
    weightOr F AttackComplexity.score 0 (v .AC) = F.fl (v3Value v ch .AC) ∧
    weightOr F (PrivilegesRequired.scopedScore ch) 0 (v .PR) = F.fl (v3Value v ch .PR) ∧
    weightOr F UserInteraction.score 0 (v .UI) = F.fl (v3Value v ch .UI) ∧
    weightOr F Confidentiality.score 0 (v .C) = F.fl (v3Value v ch .C) ∧
    weightOr F Integrity.score 0 (v .I) = F.fl (v3Value v ch .I) ∧
    weightOr F Availability.score 0 (v .A) = F.fl (v3Value v ch .A) := by
  unfold v3Value
  refine ⟨?_, ?_, ?_, ?_, ?_, ?_, ?_⟩
  · cases v .AV with
    | none => rfl
    | some x => exact congrArg F.fl (by cases x <;> norm_num [AttackVector.score, v3Weight])
  · cases v .AC with
    | none => rfl
    | some x => exact congrArg F.fl (by cases x <;> norm_num [AttackComplexity.score, v3Weight])
  · cases v .PR with
    | none => rfl
    | some x => exact congrArg F.fl (by cases x <;> cases ch <;> norm_num [PrivilegesRequired.scopedScore, v3Weight])
  · cases v .UI with
    | none => rfl
    | some x => exact congrArg F.fl (by cases x <;> norm_num [UserInteraction.score, v3Weight])
  · cases v .C with
    | none => rfl
    | some x => exact congrArg F.fl (by cases x <;> norm_num [Confidentiality.score, v3Weight])
  · cases v .I with
    | none => rfl
    | some x => exact congrArg F.fl (by cases x <;> norm_num [Integrity.score, v3Weight])
  · cases v .A with
    | none => rfl
    | some x => exact congrArg F.fl (by cases x <;> norm_num [Availability.score, v3Weight])

theorem value_mem (ch : Bool) (v : scheme.Metrics) :
    v3Value v ch .AV ∈ [0, 0.2, 0.55, 0.62, 0.85] ∧ v3Value v ch .AC ∈ [0, 0.44, 0.77] ∧
    (v3Value v false .PR ∈ [0, 0.27, 0.62, 0.85] ∧ v3Value v true .PR ∈ [0, 0.5, 0.68, 0.85]) ∧
    v3Value v ch .UI ∈ [0, 0.62, 0.85] ∧ v3Value v ch .C ∈ [0, 0.22, 0.56] ∧ v3Value v ch .I ∈ [0, 0.22, 0.56] ∧
    v3Value v ch .A ∈ [0, 0.22, 0.56] := by
  unfold v3Value
  refine ⟨?_, ?_, ⟨?_, ?_⟩, ?_, ?_, ?_, ?_⟩
  · cases v .AV with
    | none => simp
    | some x => cases x <;> simp [v3Weight]
  · cases v .AC with
    | none => simp
    | some x => cases x <;> simp [v3Weight]
  · cases v .PR with
    | none => simp
    | some x => cases x <;> simp [v3Weight]
  · cases v .PR with
    | none => simp
    | some x => cases x <;> simp [v3Weight]
  · cases v .UI with
    | none => simp
    | some x => cases x <;> simp [v3Weight]
  · cases v .C with
    | none => simp
    | some x => cases x <;> simp [v3Weight]
  · cases v .I with
    | none => simp
    | some x => cases x <;> simp [v3Weight]
  · cases v .A with
    | none => simp
    | some x => cases x <;> simp [v3Weight]

theorem expl_mem_U : ∀ av ∈ [(0 : ℚ), 0.2, 0.55, 0.62, 0.85], ∀ ac ∈ [(0 : ℚ), 0.44, 0.77],
    ∀ pr ∈ [(0 : ℚ), 0.27, 0.62, 0.85], ∀ ui ∈ [(0 : ℚ), 0.62, 0.85], 8.22 * av * ac * pr * ui ∈ explU := by
  decide +kernel

theorem expl_mem_C : ∀ av ∈ [(0 : ℚ), 0.2, 0.55, 0.62, 0.85], ∀ ac ∈ [(0 : ℚ), 0.44, 0.77],
    ∀ pr ∈ [(0 : ℚ), 0.5, 0.68, 0.85], ∀ ui ∈ [(0 : ℚ), 0.62, 0.85], 8.22 * av * ac * pr * ui ∈ explC := by
  decide +kernel

theorem iss_mem : ∀ c ∈ [(0 : ℚ), 0.22, 0.56], ∀ i ∈ [(0 : ℚ), 0.22, 0.56], ∀ a ∈ [(0 : ℚ), 0.22, 0.56],
    1 - (1 - c) * (1 - i) * (1 - a) ∈ issL ∧ (1 - (1 - c) * (1 - i) * (1 - a) = 0 ↔ c = 0 ∧ i = 0 ∧ a = 0) := by
  decide +kernel

theorem small {l : List ℚ} (h : ∀ x ∈ l, 0 ≤ x ∧ x ≤ 1) {x : ℚ} (hx : x ∈ l) : |x| ≤ ((1 : ℕ) : ℚ) := by
  obtain ⟨h0, h1⟩ := h x hx
  rw [abs_of_nonneg h0]
  exact_mod_cast h1

theorem exploitability_near {F : Fp} (hF : F.Ok) {av ac pr ui : ℚ} (h1 : |av| ≤ ((1 : ℕ) : ℚ))
    (h2 : |ac| ≤ ((1 : ℕ) : ℚ)) (h3 : |pr| ≤ ((1 : ℕ) : ℚ)) (h4 : |ui| ≤ ((1 : ℕ) : ℚ)) :
    Near 45 (F.mul (F.mul (F.mul (F.mul (F.fl 8.22) (F.fl av)) (F.fl ac)) (F.fl pr)) (F.fl ui))
      (8.22 * av * ac * pr * ui) := by
  have l : Near 1 (F.fl 8.22) 8.22 := Near.lit hF (A := 9) (by norm_num [abs_of_nonneg]) (by norm_num)
  have b0 : |(8.22 : ℚ)| ≤ ((9 : ℕ) : ℚ) := by norm_num [abs_of_nonneg]
  have bm : ∀ {x y : ℚ}, |x| ≤ ((9 : ℕ) : ℚ) → |y| ≤ ((1 : ℕ) : ℚ) → |x * y| ≤ ((9 : ℕ) : ℚ) := by
    intro x y hx hy
    rw [abs_mul]
    have := mul_le_mul hx hy (abs_nonneg _) (by positivity)
    simpa using this
  have w : ∀ {x : ℚ}, |x| ≤ ((1 : ℕ) : ℚ) → Near 1 (F.fl x) x := fun hx => Near.lit hF hx (by norm_num)
  have s1 := Near.mul hF l (w h1) b0 h1 (by norm_num) (by norm_num) (by norm_num)
  have s2 := Near.mul hF s1 (w h2) (bm b0 h1) h2 (by norm_num) (by norm_num) (by norm_num)
  have s3 := Near.mul hF s2 (w h3) (bm (bm b0 h1) h2) h3 (by norm_num) (by norm_num) (by norm_num)
  have s4 := Near.mul hF s3 (w h4) (bm (bm (bm b0 h1) h2) h3) h4 (by norm_num) (by norm_num) (by norm_num)
  exact s4.mono (by norm_num)

theorem impact_near {F : Fp} (hF : F.Ok) {c i a : ℚ} (h1 : 0 ≤ c ∧ c ≤ 1) (h2 : 0 ≤ i ∧ i ≤ 1)
    (h3 : 0 ≤ a ∧ a ≤ 1) :
    Near 13 (F.sub 1 (absF (F.mul (F.mul (F.sub 1 (F.fl c)) (F.sub 1 (F.fl i))) (F.sub 1 (F.fl a)))))
      (1 - (1 - c) * (1 - i) * (1 - a)) := by
  have w : ∀ {x : ℚ}, 0 ≤ x ∧ x ≤ 1 → Near 2 (F.sub 1 (F.fl x)) (1 - x) := by
    intro x hx
    have : |x| ≤ ((1 : ℕ) : ℚ) := by rw [abs_of_nonneg hx.1]; exact_mod_cast hx.2
    exact (Near.sub hF (Near.refl 1) (Near.lit hF this (by norm_num)) (A := 1)
      (by rw [abs_of_nonneg (by linarith [hx.2])]; push_cast; linarith [hx.1]) (by norm_num) (by norm_num)).mono
      (by norm_num)
  have b : ∀ {x : ℚ}, 0 ≤ x ∧ x ≤ 1 → |1 - x| ≤ ((1 : ℕ) : ℚ) := by
    intro x hx
    rw [abs_of_nonneg (by linarith [hx.2])]; push_cast; linarith [hx.1]
  have bb : |(1 - c) * (1 - i)| ≤ ((1 : ℕ) : ℚ) := by
    rw [abs_mul]
    have := mul_le_mul (b h1) (b h2) (abs_nonneg _) (by positivity)
    simpa using this
  have s1 := Near.mul hF (w h1) (w h2) (b h1) (b h2) (by norm_num) (by norm_num) (by norm_num)
  have s2 := Near.mul hF s1 (w h3) bb (b h3) (by norm_num) (by norm_num) (by norm_num)
  have hp : 0 ≤ (1 - c) * (1 - i) * (1 - a) := by
    apply mul_nonneg (mul_nonneg _ _) _ <;> linarith [h1.2, h2.2, h3.2]
  have hp1 : (1 - c) * (1 - i) * (1 - a) ≤ 1 := by
    have := mul_le_mul bb (b h3) (abs_nonneg _) (by positivity)
    rw [← abs_mul, abs_of_nonneg hp] at this
    simpa using this
  have s3 : Near 12 (absF (F.mul (F.mul (F.sub 1 (F.fl c)) (F.sub 1 (F.fl i))) (F.sub 1 (F.fl a))))
      ((1 - c) * (1 - i) * (1 - a)) := by
    have s2' : Near 12 _ _ := s2.mono (by norm_num)
    unfold Near absF at *
    have := abs_abs_sub_abs_le (F.mul (F.mul (F.sub 1 (F.fl c)) (F.sub 1 (F.fl i))) (F.sub 1 (F.fl a)))
      ((1 - c) * (1 - i) * (1 - a))
    rw [abs_of_nonneg hp] at this
    exact this.trans s2'
  have := Near.sub hF (Near.refl 1) s3 (A := 1)
    (by rw [abs_of_nonneg (by linarith)]; push_cast; linarith) (by norm_num) (by norm_num)
  exact this.mono (by norm_num)

theorem unit_range : ∀ l ∈ [[(0 : ℚ), 0.2, 0.55, 0.62, 0.85], [(0 : ℚ), 0.44, 0.77], [(0 : ℚ), 0.27, 0.62, 0.85],
    [(0 : ℚ), 0.5, 0.68, 0.85], [(0 : ℚ), 0.62, 0.85], [(0 : ℚ), 0.22, 0.56]], ∀ x ∈ l, 0 ≤ x ∧ x ≤ 1 := by
  decide +kernel

theorem changed_eq (v : scheme.Metrics) : scopeChanged (v .S) = v3Changed v := by
  unfold v3Changed
  cases h : v .S with
  | none => rfl
  | some x => cases x <;> rfl

/-- The exact exploitability of a vector. -/
def explX (v : scheme.Metrics) : ℚ :=
  8.22 * v3Value v (v3Changed v) .AV * v3Value v (v3Changed v) .AC * v3Value v (v3Changed v) .PR *
    v3Value v (v3Changed v) .UI

/-- The exact impact sub-score of a vector. -/
def issX (v : scheme.Metrics) : ℚ :=
  1 - (1 - v3Value v (v3Changed v) .C) * (1 - v3Value v (v3Changed v) .I) * (1 - v3Value v (v3Changed v) .A)

theorem v3Tenths_eq (v : scheme.Metrics) : v3Tenths v = ⌈10 * equationX (v3Changed v) (explX v) (issX v)⌉ := rfl

theorem subscores (v : scheme.Metrics) :
    explX v ∈ (if v3Changed v then explC else explU) ∧ issX v ∈ issL := by
  unfold explX issX
  obtain ⟨m1, m2, m3, m4, m5, m6, m7⟩ := value_mem (v3Changed v) v
  refine ⟨?_, (iss_mem _ m5 _ m6 _ m7).1⟩
  cases h : v3Changed v with
  | false =>
    rw [h] at m1 m2 m4
    exact expl_mem_U _ m1 _ m2 _ m3.1 _ m4
  | true =>
    rw [h] at m1 m2 m4
    exact expl_mem_C _ m1 _ m2 _ m3.2 _ m4

theorem equationX_range (ch : Bool) {e i : ℚ} (he : 0 ≤ e) : 0 ≤ equationX ch e i ∧ equationX ch e i ≤ 10 := by
  unfold equationX
  split_ifs with h1 h2
  · norm_num
  · constructor
    · apply le_min _ (by norm_num)
      have := not_le.mp h1
      nlinarith
    · exact min_le_right _ _
  · constructor
    · apply le_min _ (by norm_num)
      linarith [not_le.mp h1]
    · exact min_le_right _ _

end V3

/-- **C60** (v3) In every arithmetic with the error bounds of binary64, the score of a v3 vector is the
(rounded) decimal with the tenths that the specification's base equations give in exact arithmetic. -/
theorem C60_v3 (F : Fp) (hF : F.Ok) (b : V3.Base) : b.score F = F.fl ((v3Tenths b.metrics : ℚ) / 10) := by
  have hch : b.isScopeChanged = v3Changed b.metrics := changed_eq b.metrics
  obtain ⟨w1, w2, w3, w4, w5, w6, w7⟩ := weights (v3Changed b.metrics) b.metrics F
  obtain ⟨m1, m2, m3, m4, m5, m6, m7⟩ := value_mem (v3Changed b.metrics) b.metrics
  obtain ⟨he, hi⟩ := subscores b.metrics
  have ur : ∀ {l x}, l ∈ [[(0 : ℚ), 0.2, 0.55, 0.62, 0.85], [(0 : ℚ), 0.44, 0.77], [(0 : ℚ), 0.27, 0.62, 0.85],
    [(0 : ℚ), 0.5, 0.68, 0.85], [(0 : ℚ), 0.62, 0.85], [(0 : ℚ), 0.22, 0.56]] → x ∈ l → 0 ≤ x ∧ x ≤ 1 :=
    fun hl hx => unit_range _ hl _ hx
  have ab : ∀ {x : ℚ}, 0 ≤ x ∧ x ≤ 1 → |x| ≤ ((1 : ℕ) : ℚ) := by
    intro x hx
    rw [abs_of_nonneg hx.1]; exact_mod_cast hx.2
  have hpr : 0 ≤ v3Value b.metrics (v3Changed b.metrics) .PR ∧ v3Value b.metrics (v3Changed b.metrics) .PR ≤ 1 := by
    cases v3Changed b.metrics with
    | false => exact ur (by simp) m3.1
    | true => exact ur (by simp) m3.2
  have ne : Near 45 (b.exploitability F) (explX b.metrics) := by
    unfold V3.Base.exploitability
    simp only
    rw [hch, w1, w2, w3, w4]
    exact exploitability_near hF (ab (ur (by simp) m1)) (ab (ur (by simp) m2)) (ab hpr) (ab (ur (by simp) m4))
  have ni : Near 13 (b.impact F) (issX b.metrics) := by
    unfold V3.Base.impact
    simp only
    rw [w5, w6, w7, fl_one hF]
    exact impact_near hF (ur (by simp) m5) (ur (by simp) m6) (ur (by simp) m7)
  have he4 : 0 ≤ explX b.metrics ∧ explX b.metrics ≤ 4 := by
    split_ifs at he
    · exact explC_range _ he
    · exact explU_range _ he
  have hz := (iss_mem _ m5 _ m6 _ m7).2
  have hraw := rawScore_near hF (v3Changed b.metrics) ne he4 ni hi (by
    intro h0
    obtain ⟨c0, i0, a0⟩ := hz.mp h0
    unfold V3.Base.impact
    simp only
    rw [w5, w6, w7, c0, i0, a0, fl_zero hF, fl_one hF]
    unfold Fp.sub Fp.mul absF
    simp [fl_one hF, fl_zero hF])
  have hclear : V3.Clear (V3.equationX (v3Changed b.metrics) (explX b.metrics) (issX b.metrics)) := by
    cases hc : v3Changed b.metrics with
    | false => rw [hc] at he; exact clear_unchanged _ hi _ he
    | true => rw [hc] at he; exact clear_changed _ hi _ he
  obtain ⟨r0, r1⟩ := equationX_range (v3Changed b.metrics) he4.1 (i := issX b.metrics)
  unfold V3.Base.score
  rw [hch, roundup_eq hF hraw r0 r1 hclear, v3Tenths_eq]

theorem V3.explX_nonneg (v : V3.scheme.Metrics) : 0 ≤ explX v := by
  obtain ⟨he, -⟩ := subscores v
  split_ifs at he
  · exact (explC_range _ he).1
  · exact (explU_range _ he).1

theorem v3Tenths_range (v : V3.scheme.Metrics) : 0 ≤ v3Tenths v ∧ v3Tenths v ≤ 100 := by
  have := equationX_range (v3Changed v) (explX_nonneg v) (i := issX v)
  rw [v3Tenths_eq]
  constructor
  · exact Int.ceil_nonneg (by linarith [this.1])
  · exact Int.ceil_le.mpr (by push_cast; linarith [this.2])

/-- **C36** (v3) A v3 score is a (rounded) decimal with one digit after the point, from 0 to 10. -/
theorem C36_v3 (F : Fp) (hF : F.Ok) (b : V3.Base) :
    ∃ k : ℕ, k ≤ 100 ∧ b.score F = F.fl ((k : ℚ) / 10) ∧ 0 ≤ b.score F ∧ b.score F ≤ 10 := by
  obtain ⟨h0, h1⟩ := v3Tenths_range b.metrics
  obtain ⟨k, hk⟩ := Int.eq_ofNat_of_zero_le h0
  have hs := C60_v3 F hF b
  refine ⟨k, by omega, by rw [hs, hk]; rfl, ?_, ?_⟩
  · rw [hs]
    have := fl_tenth_le hF (j := 0) (k := v3Tenths b.metrics) (by norm_num) (by rw [abs_of_nonneg h0]; omega) h0
    simpa [fl_zero hF] using this
  · rw [hs]
    have := fl_tenth_le hF (j := v3Tenths b.metrics) (k := 100) (by rw [abs_of_nonneg h0]; omega) (by norm_num) h1
    have h10 : F.fl (((100 : ℤ) : ℚ) / 10) = 10 := by
      rw [show (((100 : ℤ) : ℚ) / 10) = 10 by norm_num, fl_ten hF]
    rwa [h10] at this

theorem severityOf_band {F : Fp} (hF : F.Ok) {k : ℤ} (h0 : 0 ≤ k) (h1 : k ≤ 100) :
    Band k (severityOf F (F.fl ((k : ℚ) / 10))) := by
  have hk : |k| ≤ 1000 := by rw [abs_of_nonneg h0]; omega
  have e : ∀ j : ℤ, 0 ≤ j → j ≤ 100 → (F.fl ((k : ℚ) / 10) < F.fl ((j : ℚ) / 10) ↔ k < j) := fun j j0 j1 =>
    fl_tenth_lt_iff hF hk (by rw [abs_of_nonneg j0]; omega)
  have e1 := e 1 (by norm_num) (by norm_num)
  have e40 := e 40 (by norm_num) (by norm_num)
  have e70 := e 70 (by norm_num) (by norm_num)
  have e90 := e 90 (by norm_num) (by norm_num)
  rw [show ((1 : ℤ) : ℚ) / 10 = 0.1 by norm_num] at e1
  rw [show ((40 : ℤ) : ℚ) / 10 = 4 by norm_num] at e40
  rw [show ((70 : ℤ) : ℚ) / 10 = 7 by norm_num] at e70
  rw [show ((90 : ℤ) : ℚ) / 10 = 9 by norm_num] at e90
  unfold severityOf Band
  simp only [e1, e40, e70, e90]
  split_ifs
  · left; exact ⟨rfl, by omega⟩
  · right; left; exact ⟨rfl, by omega, by omega⟩
  · right; right; left; exact ⟨rfl, by omega, by omega⟩
  · right; right; right; left; exact ⟨rfl, by omega, by omega⟩
  · right; right; right; right; exact ⟨rfl, by omega, by omega⟩

/-- **C37** (v3) The severity of a v3 vector is the band of its score on the qualitative rating scale. -/
theorem C37_v3 (F : Fp) (hF : F.Ok) (b : V3.Base) : Band (v3Tenths b.metrics) (b.severity F) := by
  obtain ⟨h0, h1⟩ := v3Tenths_range b.metrics
  unfold V3.Base.severity
  rw [C60_v3 F hF b]
  exact severityOf_band hF h0 h1

/-! ### C40 -/

namespace V3

theorem impactX_mono : ∀ i ∈ issL, ∀ j ∈ issL, i ≤ j → impactX false i ≤ impactX false j ∧
    impactX true i ≤ impactX true j := by decide +kernel

theorem equationX_scope : ∀ i ∈ issL, ∀ e ∈ explU, equationX false e i ≤ equationX true e i := by decide +kernel

theorem equationX_mono {ch : Bool} {e e' i i' : ℚ} (he0 : 0 ≤ e) (he : e ≤ e')
    (hi : impactX ch i ≤ impactX ch i') : equationX ch e i ≤ equationX ch e' i' := by
  have he' : 0 ≤ e' := he0.trans he
  by_cases h : impactX ch i ≤ 0
  · have := (equationX_range ch he' (i := i')).1
    unfold equationX at this ⊢
    rw [if_pos h]
    exact this
  · have h' : ¬ impactX ch i' ≤ 0 := by linarith [not_le.mp h]
    unfold equationX
    rw [if_neg h, if_neg h']
    split_ifs
    · exact min_le_min (by linarith) le_rfl
    · exact min_le_min (by linarith) le_rfl

theorem value_nonneg (ch : Bool) (v : scheme.Metrics) (m : MetricType) : 0 ≤ v3Value v ch m ∧ v3Value v ch m ≤ 1 := by
  unfold v3Value
  cases h : v m with
  | none => norm_num
  | some x =>
    cases m <;> cases x <;> (try cases ch) <;> norm_num [v3Weight]

theorem issX_mono {v v' : scheme.Metrics} (h : ∀ m, v3Value v (v3Changed v) m ≤ v3Value v' (v3Changed v') m) :
    issX v ≤ issX v' := by
  unfold issX
  have n := fun m => value_nonneg (v3Changed v) v m
  have n' := fun m => value_nonneg (v3Changed v') v' m
  have h1 : (1 - v3Value v' (v3Changed v') .C) * (1 - v3Value v' (v3Changed v') .I) ≤
      (1 - v3Value v (v3Changed v) .C) * (1 - v3Value v (v3Changed v) .I) :=
    mul_le_mul (by linarith [h .C]) (by linarith [h .I]) (by linarith [(n' .I).2]) (by linarith [(n .C).2])
  have h2 : (1 - v3Value v' (v3Changed v') .C) * (1 - v3Value v' (v3Changed v') .I) *
      (1 - v3Value v' (v3Changed v') .A) ≤
      (1 - v3Value v (v3Changed v) .C) * (1 - v3Value v (v3Changed v) .I) * (1 - v3Value v (v3Changed v) .A) :=
    mul_le_mul h1 (by linarith [h .A]) (by linarith [(n' .A).2])
      (mul_nonneg (by linarith [(n .C).2]) (by linarith [(n .I).2]))
  linarith

theorem explX_mono {v v' : scheme.Metrics} (h : ∀ m, v3Value v (v3Changed v) m ≤ v3Value v' (v3Changed v') m) :
    explX v ≤ explX v' := by
  unfold explX
  have n := fun m => (value_nonneg (v3Changed v) v m).1
  have n' := fun m => (value_nonneg (v3Changed v') v' m).1
  refine mul_le_mul (mul_le_mul (mul_le_mul (mul_le_mul le_rfl (h .AV) (n .AV) (by norm_num)) (h .AC) (n .AC) ?_)
    (h .PR) (n .PR) ?_) (h .UI) (n .UI) ?_
  · exact mul_nonneg (by norm_num) (n' .AV)
  · exact mul_nonneg (mul_nonneg (by norm_num) (n' .AV)) (n' .AC)
  · exact mul_nonneg (mul_nonneg (mul_nonneg (by norm_num) (n' .AV)) (n' .AC)) (n' .PR)

theorem tenths_mono {v v' : scheme.Metrics}
    (hc : v3Changed v = true → v3Changed v' = true)
    (h : ∀ m, v3Value v (v3Changed v) m ≤ v3Value v' (v3Changed v') m) : v3Tenths v ≤ v3Tenths v' := by
  obtain ⟨he, hi⟩ := subscores v
  obtain ⟨he', hi'⟩ := subscores v'
  have hie := issX_mono h
  have hee := explX_mono h
  obtain ⟨m1, m2⟩ := impactX_mono _ hi _ hi' hie
  have n0 := explX_nonneg v
  rw [v3Tenths_eq, v3Tenths_eq]
  apply Int.ceil_mono
  suffices hs : equationX (v3Changed v) (explX v) (issX v) ≤ equationX (v3Changed v') (explX v') (issX v') by linarith
  cases h1 : v3Changed v with
  | true =>
    rw [hc h1]
    exact equationX_mono n0 hee m2
  | false =>
    cases h2 : v3Changed v' with
    | false => exact equationX_mono n0 hee m1
    | true =>
      rw [h1] at he
      exact (equationX_scope _ hi _ he).trans (equationX_mono n0 hee m2)

theorem set_same (v : scheme.Metrics) (m : MetricType) (x : m.Val) : Scheme.set v m x m = some x := by
  unfold Scheme.set
  rw [dif_pos rfl]

theorem set_ne (v : scheme.Metrics) {m m' : MetricType} (x : m.Val) (h : m' ≠ m) : Scheme.set v m x m' = v m' := by
  unfold Scheme.set
  rw [dif_neg h]

theorem weight_mono (ch : Bool) : ∀ (m : MetricType) (x y : m.Val), m ≠ .S → v3Rank m x ≤ v3Rank m y →
    v3Weight ch m x ≤ v3Weight ch m y := by
  intro m x y hm
  cases m <;> cases x <;> cases y <;> cases ch <;>
    first
    | (exact absurd rfl hm)
    | (intro h; norm_num [v3Weight]; done)
    | (intro h; exact absurd h (by decide))

theorem weight_scope (m : MetricType) (x : m.Val) : v3Weight false m x ≤ v3Weight true m x := by
  cases m <;> cases x <;> norm_num [v3Weight]

end V3

/-- **C40** (v3) Replacing the value of any one metric by a more severe one never lowers the score. -/
theorem C40_v3_monotone (F : Fp) (hF : F.Ok) (b : V3.Base) (m : V3.MetricType) (x y : m.Val)
    (h : v3Rank m x ≤ v3Rank m y) :
    V3.Base.score F ⟨b.minorVersion, Scheme.set b.metrics m x⟩ ≤
      V3.Base.score F ⟨b.minorVersion, Scheme.set b.metrics m y⟩ := by
  rw [C60_v3 F hF, C60_v3 F hF]
  obtain ⟨a0, a1⟩ := v3Tenths_range (Scheme.set b.metrics m x)
  obtain ⟨b0, b1⟩ := v3Tenths_range (Scheme.set b.metrics m y)
  apply fl_tenth_le hF (by rw [abs_of_nonneg a0]; omega) (by rw [abs_of_nonneg b0]; omega)
  have hS : m ≠ .S → v3Changed (Scheme.set b.metrics m x) = v3Changed b.metrics ∧
      v3Changed (Scheme.set b.metrics m y) = v3Changed b.metrics := by
    intro hm
    unfold v3Changed
    rw [set_ne _ _ (Ne.symm hm), set_ne _ _ (Ne.symm hm)]
    exact ⟨rfl, rfl⟩
  show v3Tenths (Scheme.set (S := V3.scheme) b.metrics m x) ≤ v3Tenths (Scheme.set (S := V3.scheme) b.metrics m y)
  apply tenths_mono
  · by_cases hm : m = .S
    · subst hm
      unfold v3Changed
      rw [set_same, set_same]
      intro hx
      have hx' : x = V3.Scope.changed := by
        have := of_decide_eq_true hx
        exact Option.some.inj this
      have : y = V3.Scope.changed := by
        subst hx'
        cases y with
        | changed => rfl
        | unchanged => exact absurd h (by decide)
      rw [this]
      rfl
    · obtain ⟨h1, h2⟩ := hS hm
      rw [h1, h2]; exact id
  · intro m'
    by_cases hm : m = .S
    · subst hm
      unfold v3Value
      by_cases hm' : m' = .S
      · subst hm'
        rw [set_same, set_same]
        exact le_rfl
      · rw [set_ne _ _ hm', set_ne _ _ hm']
        cases b.metrics m' with
        | none => exact le_rfl
        | some z =>
          simp only
          have hx : v3Changed (Scheme.set b.metrics .S x) = decide (x = V3.Scope.changed) := by
            unfold v3Changed
            rw [set_same]
            cases x <;> rfl
          have hy : v3Changed (Scheme.set b.metrics .S y) = decide (y = V3.Scope.changed) := by
            unfold v3Changed
            rw [set_same]
            cases y <;> rfl
          rw [hx, hy]
          cases x with
          | unchanged =>
            cases y with
            | unchanged => exact le_rfl
            | changed => exact V3.weight_scope m' z
          | changed =>
            cases y with
            | unchanged => exact absurd h (by decide)
            | changed => exact le_rfl
    · obtain ⟨h1, h2⟩ := hS hm
      rw [h1, h2]
      unfold v3Value
      by_cases hm' : m' = m
      · subst hm'
        rw [set_same, set_same]
        exact V3.weight_mono _ _ _ _ hm h
      · rw [set_ne _ _ hm', set_ne _ _ hm']

/-- **C40** (v3) The score is 0 exactly if the vector states no impact. -/
theorem C40_v3_zero (F : Fp) (hF : F.Ok) (b : V3.Base) : b.score F = 0 ↔ ¬ v3HasImpact b.metrics := by
  obtain ⟨a0, a1⟩ := v3Tenths_range b.metrics
  obtain ⟨he, hi⟩ := subscores b.metrics
  obtain ⟨_, _, _, _, m5, m6, m7⟩ := value_mem (v3Changed b.metrics) b.metrics
  have hz := (iss_mem _ m5 _ m6 _ m7).2
  have h1 : b.score F = 0 ↔ v3Tenths b.metrics = 0 := by
    rw [C60_v3 F hF]
    constructor
    · intro h
      by_contra hne
      have : (0 : ℤ) < v3Tenths b.metrics := by omega
      have := fl_tenth_lt hF (by norm_num) (by rw [abs_of_nonneg a0]; omega) this
      rw [h] at this
      simp [fl_zero hF] at this
    · intro h
      rw [h]
      simp [fl_zero hF]
  have h2 : v3Tenths b.metrics = 0 ↔ issX b.metrics = 0 := by
    rw [v3Tenths_eq, Int.ceil_eq_zero_iff]
    have hn := explX_nonneg b.metrics
    obtain ⟨i0, i1, i2⟩ := iss_range _ hi
    obtain ⟨_, _, _, q3, q4⟩ := impact_range _ hi
    have hpos : ∀ j ∈ issL, j = 0 ∨ (0.1 ≤ impactX false j ∧ 0.1 ≤ impactX true j) := by decide +kernel
    constructor
    · intro h
      rcases hpos _ hi with h0 | ⟨p1, p2⟩
      · exact h0
      · exfalso
        have hle := h.2
        unfold equationX at hle
        cases h9 : v3Changed b.metrics with
        | false =>
          rw [h9] at hle
          rw [if_neg (show ¬ impactX false (issX b.metrics) ≤ 0 by linarith), if_neg (by decide)] at hle
          rcases min_choice (impactX false (issX b.metrics) + explX b.metrics) 10 with hm | hm <;> rw [hm] at hle <;>
            linarith
        | true =>
          rw [h9] at hle
          rw [if_neg (show ¬ impactX true (issX b.metrics) ≤ 0 by linarith), if_pos rfl] at hle
          rcases min_choice (1.08 * (impactX true (issX b.metrics) + explX b.metrics)) 10 with hm | hm <;>
            rw [hm] at hle <;> linarith
    · intro h0
      rw [h0]
      have : equationX (v3Changed b.metrics) (explX b.metrics) 0 = 0 := by
        unfold equationX
        rw [if_pos]
        cases v3Changed b.metrics <;> norm_num [impactX]
      rw [this]
      norm_num
  rw [h1, h2]
  unfold issX
  rw [hz]
  unfold v3HasImpact v3Value
  constructor
  · rintro ⟨c0, i0, a0⟩ (h | h | h | h | h | h)
    · rw [h] at c0; norm_num [v3Weight] at c0
    · rw [h] at c0; norm_num [v3Weight] at c0
    · rw [h] at i0; norm_num [v3Weight] at i0
    · rw [h] at i0; norm_num [v3Weight] at i0
    · rw [h] at a0; norm_num [v3Weight] at a0
    · rw [h] at a0; norm_num [v3Weight] at a0
  · intro h
    refine ⟨?_, ?_, ?_⟩
    · cases hc : b.metrics .C with
      | none => rfl
      | some x => cases x <;> first | rfl | (exfalso; exact h (by tauto))
    · cases hc : b.metrics .I with
      | none => rfl
      | some x => cases x <;> first | rfl | (exfalso; exact h (by tauto))
    · cases hc : b.metrics .A with
      | none => rfl
      | some x => cases x <;> first | rfl | (exfalso; exact h (by tauto))

/-! ### A concrete case -/

/-- The exact score of `CVSS:3.1/AV:N/AC:H/PR:L/UI:R/S:C/C:L/I:H/A:N` is 6.5. -/
theorem v3Tenths_exV3 : v3Tenths exV3.metrics = 65 := by
  unfold v3Tenths
  rw [Int.ceil_eq_iff]
  norm_num [v3Changed, exV3, v3Value, v3Weight, v3Equation, Scheme.set]

/-- So it is in binary64, and its severity is Medium. -/
example : exV3.score binary64 = binary64.fl 6.5 := by
  rw [C60_v3 binary64 binary64_ok, v3Tenths_exV3]
  norm_num

example : exV3.severity binary64 = .medium := by
  have h := C37_v3 binary64 binary64_ok exV3
  rw [v3Tenths_exV3] at h
  rcases h with ⟨_, h⟩ | ⟨_, _, h⟩ | ⟨h, _⟩ | ⟨_, h, _⟩ | ⟨_, h, _⟩ <;> first | exact h | omega

/-- The same vector with low attack complexity. -/
def exV3low : V3.scheme.Metrics := fun m => match m with
  | .AV => some .network | .AC => some .low | .PR => some .low | .UI => some .required | .S => some .changed
  | .C => some .low | .I => some .high | .A => some .none

/-- Low attack complexity raises the score to 7.6. -/
example : v3Rank .AC V3.AttackComplexity.high ≤ v3Rank .AC V3.AttackComplexity.low ∧
    Scheme.set (S := V3.scheme) exV3.metrics .AC V3.AttackComplexity.low = exV3low ∧ v3Tenths exV3low = 76 := by
  refine ⟨by decide, by funext m; cases m <;> rfl, ?_⟩
  unfold v3Tenths
  rw [Int.ceil_eq_iff]
  norm_num [v3Changed, exV3low, v3Value, v3Weight, v3Equation]

example : v3HasImpact exV3.metrics := by unfold v3HasImpact exV3; simp

end Verif.Cvss
