import Verif.Lemmas.CvssV4Order
import Verif.Props.CvssV2Score
import Verif.Props.CvssText
import Verif.Model.CvssScore

/-!
# C36, C37, C38, C39, C60, C61: CVSS v4 scores
-/

namespace Verif.Cvss

open Verif.Cvss.Spec V4

namespace V4

theorem hasImpact_iff (z : ScoringVector) :
    z.eff.HasImpact ↔ ¬ (z.vc = .none ∧ z.vi = .none ∧ z.va = .none ∧ z.sc = .none ∧ z.si = .none ∧ z.sa = .none) := by
  have h1 : z.vc.letter = 'N' ↔ z.vc = .none := by cases z.vc <;> decide
  have h2 : z.vi.letter = 'N' ↔ z.vi = .none := by cases z.vi <;> decide
  have h3 : z.va.letter = 'N' ↔ z.va = .none := by cases z.va <;> decide
  have h4 : z.sc.letter = 'N' ↔ z.sc = .none := by cases z.sc <;> decide
  have h5 : z.si.letter = 'N' ↔ z.si = .none := by cases z.si <;> decide
  have h6 : z.sa.letter = 'N' ↔ z.sa = .none := by cases z.sa <;> decide
  unfold Eff.HasImpact
  rw [← h1, ← h2, ← h3, ← h4, ← h5, ← h6]
  show z.vc.letter ≠ 'N' ∨ z.vi.letter ≠ 'N' ∨ z.va.letter ≠ 'N' ∨ z.sc.letter ≠ 'N' ∨ z.si.letter ≠ 'N' ∨
    z.sa.letter ≠ 'N' ↔ _
  simp only [not_and_or, ne_eq]

theorem clear_of_int {x : ℚ} (h : ∃ k : ℤ, 50400 * x = k) : ClearTie (x / 10) := by
  obtain ⟨k, hk⟩ := h
  unfold ClearTie round1
  have e : 10 * (x / 10) + 1 / 2 = ((k + 25200 : ℤ) : ℚ) / 50400 := by push_cast; linarith
  rw [e]
  have h2 : (k + 25200) < (⌊((k + 25200 : ℤ) : ℚ) / 50400⌋ + 1) * 50400 := by
    have := Int.lt_floor_add_one (((k + 25200 : ℤ) : ℚ) / 50400)
    rw [div_lt_iff₀ (by norm_num)] at this
    exact_mod_cast this
  have h3 : ((k + 25200 : ℤ) : ℚ) + 1 ≤ ((⌊((k + 25200 : ℤ) : ℚ) / 50400⌋ : ℚ) + 1) * 50400 := by exact_mod_cast h2
  rw [div_le_iff₀ (by norm_num)]
  linarith

theorem round_near {F : Fp} (hF : F.Ok) {x r : ℚ} (hn : Near 40000 x r) (h0 : 0 ≤ r) (h1 : r ≤ 10) (hc : ClearTie r) :
    roundV4 F x = F.fl ((round1 r : ℚ) / 10) := by
  unfold roundV4
  have hy : Near 40000 (if x < F.fl 0 then F.fl 0 else if F.fl 10 < x then F.fl 10 else x) r := by
    rw [fl_zero hF, fl_ten hF]
    unfold Near at hn ⊢
    have := abs_le.mp hn
    rw [abs_le]
    split_ifs <;> constructor <;> linarith
  exact roundup_tie hF hy (by norm_num) (by rw [abs_of_nonneg h0]; linarith) hc

theorem tenths_eq (e : Eff) (h : e.HasImpact) : e.tenths = round1 (e.raw / 10) := by
  unfold Eff.tenths round1
  rw [if_pos h, show 10 * (e.raw / 10) + 1 / 2 = e.raw + 1 / 2 by ring]

theorem score_z {F : Fp} (hF : F.Ok) (z : ScoringVector) :
    ∃ x, z.score F = .ok x ∧ roundV4 F x = F.fl ((z.eff.tenths : ℚ) / 10) ∧ 0 ≤ z.eff.tenths ∧ z.eff.tenths ≤ 100 ∧
      (z.eff.HasImpact → 1 ≤ z.eff.tenths) := by
  by_cases hi : z.eff.HasImpact
  · obtain ⟨x, hx, hn, h1, h2, hk⟩ := score_near hF z ((hasImpact_iff z).mp hi)
    have hr := round_near hF hn (by linarith) (by linarith) (clear_of_int hk)
    have hb := V2.round1_range (x := z.eff.raw / 10) (a := 1) (b := 100) (by push_cast; linarith) (by push_cast; linarith)
    rw [← tenths_eq _ hi] at hr hb
    exact ⟨x, hx, hr, by omega, by omega, fun _ => hb.1⟩
  · have hz := not_not.mp (mt (hasImpact_iff z).mpr hi)
    have ht : z.eff.tenths = 0 := by unfold Eff.tenths; rw [if_neg hi]
    refine ⟨F.fl 0, by unfold ScoringVector.score; rw [if_pos hz], ?_, by omega, by omega, fun h => absurd h hi⟩
    rw [ht]
    have hc : ClearTie 0 := by simpa using clear_of_int (x := 0) ⟨0, by norm_num⟩
    have := round_near hF (x := F.fl 0) (r := 0) (by rw [fl_zero hF]; unfold Near; norm_num) le_rfl (by norm_num) hc
    rw [this]
    norm_num [round1]

theorem hasBase_iff (w : V4.Vector) : V4.HasBase w ↔ ∀ m ∈ v4Mandatory, w.metrics m ≠ none := by
  unfold V4.HasBase v4Mandatory
  simp only [List.mem_cons, List.not_mem_nil, or_false, forall_eq_or_imp, forall_eq]

theorem v4_full {F : Fp} (hF : F.Ok) (w : V4.Vector) (h : ∀ m ∈ v4Mandatory, w.metrics m ≠ none) :
    ∃ e, v4Eff w.metrics = some e ∧ w.score F = .ok (F.fl ((e.tenths : ℚ) / 10)) ∧ 0 ≤ e.tenths ∧ e.tenths ≤ 100 ∧
      (e.HasImpact → 1 ≤ e.tenths) := by
  obtain ⟨z, hz, he⟩ := ofVector_ok w h
  obtain ⟨x, hx, hr, h0, h1, h2⟩ := score_z hF z
  refine ⟨z.eff, he, ?_, h0, h1, h2⟩
  unfold Vector.score
  rw [hz]
  simp only [Outcome.bind_ok]
  rw [hx]
  simp only [Outcome.bind_ok]
  rw [hr]

end V4

/-- **C60** (v4) For every vector with the mandatory metrics, the score computed in floating point is the score of
the specification: the interpolated score of its MacroVector, rounded half up to one decimal. -/
theorem C60_v4 (F : Fp) (hF : F.Ok) (w : V4.Vector) (h : ∀ m ∈ v4Mandatory, w.metrics m ≠ none) :
    ∃ e, v4Eff w.metrics = some e ∧ w.score F = .ok (F.fl ((e.tenths : ℚ) / 10)) := by
  obtain ⟨e, h1, h2, -⟩ := v4_full hF w h
  exact ⟨e, h1, h2⟩

/-- **C36** (v4) A v4 score is a (rounded) decimal with one digit after the point, from 0 to 10. -/
theorem C36_v4 (F : Fp) (hF : F.Ok) (w : V4.Vector) (s : ℚ) (h : w.score F = .ok s) :
    ∃ k : ℕ, k ≤ 100 ∧ s = F.fl ((k : ℚ) / 10) ∧ 0 ≤ s ∧ s ≤ 10 := by
  by_cases hm : ∀ m ∈ v4Mandatory, w.metrics m ≠ none
  · obtain ⟨e, -, h2, h3, h4, -⟩ := v4_full hF w hm
    rw [h2] at h
    cases h
    exact fl_tenths_range hF h3 h4
  · unfold Vector.score at h
    rw [ofVector_panic w hm] at h
    cases h

/-- **C37** (v4) The severity of a v4 vector is the band of its score on the qualitative rating scale. -/
theorem C37_v4 (F : Fp) (hF : F.Ok) (w : V4.Vector) (h : ∀ m ∈ v4Mandatory, w.metrics m ≠ none) :
    ∃ e s, v4Eff w.metrics = some e ∧ w.severity F = .ok s ∧ Band e.tenths s := by
  obtain ⟨e, h1, h2, h3, h4, -⟩ := v4_full hF w h
  refine ⟨e, _, h1, ?_, severityOf_band hF h3 h4⟩
  unfold Vector.severity
  rw [h2]
  rfl

/-- **C37** Severity is monotone in the score, and every score has one severity (v3 and v4 scale). -/
theorem C37_monotone (F : Fp) (x y : ℚ) (h : x ≤ y) : (severityOf F x).rank ≤ (severityOf F y).rank := by
  unfold severityOf
  split_ifs <;> first | decide | (exfalso; linarith)

/-- **C37** The bands partition the scale: every score from 0 to 10 has exactly one. -/
theorem C37_partition (k : ℤ) (h0 : 0 ≤ k) (h1 : k ≤ 100) : ∃! s, Band k s := by
  unfold Band
  rcases (by omega : k = 0 ∨ (1 ≤ k ∧ k ≤ 39) ∨ (40 ≤ k ∧ k ≤ 69) ∨ (70 ≤ k ∧ k ≤ 89) ∨ 90 ≤ k) with h | h | h | h | h
  · exact ⟨.none, by simp [h], fun s hs => by rcases hs with hs | hs | hs | hs | hs <;> first | exact hs.1 | omega⟩
  · exact ⟨.low, by simp [h], fun s hs => by rcases hs with hs | hs | hs | hs | hs <;> first | exact hs.1 | omega⟩
  · exact ⟨.medium, by simp [h], fun s hs => by rcases hs with hs | hs | hs | hs | hs <;> first | exact hs.1 | omega⟩
  · exact ⟨.high, by simp [h], fun s hs => by rcases hs with hs | hs | hs | hs | hs <;> first | exact hs.1 | omega⟩
  · exact ⟨.critical, by simp [h, h1], fun s hs => by rcases hs with hs | hs | hs | hs | hs <;> first | exact hs.1 | omega⟩

/-- **C38** Scoring a vector that was parsed from a text never panics. -/
theorem C38_parsed (F : Fp) (hF : F.Ok) (s : Str) (w : V4.Vector) (h : V4.Vector.fromStr s = .ok w) :
    ∃ x sev, w.score F = .ok x ∧ w.severity F = .ok sev := by
  have hm := (hasBase_iff w).mp ((C35_parse_iff s w).mp h).2.1
  obtain ⟨e, -, h2, -⟩ := v4_full hF w hm
  refine ⟨_, severityOf F (F.fl ((e.tenths : ℚ) / 10)), h2, ?_⟩
  unfold Vector.severity
  rw [h2]
  rfl

/-- **C38** More exactly, scoring panics if and only if a mandatory metric is missing. -/
theorem C38_panic_iff (F : Fp) (hF : F.Ok) (w : V4.Vector) :
    w.score F = .panic ↔ ∃ m ∈ v4Mandatory, w.metrics m = none := by
  constructor
  · intro h
    by_contra hn
    push Not at hn
    obtain ⟨e, -, h2, -⟩ := v4_full hF w hn
    rw [h2] at h
    cases h
  · rintro ⟨m, hm, h⟩
    unfold Vector.score
    rw [ofVector_panic w (fun hall => hall m hm h)]
    rfl

/-- **C38**, what fails: the vector that `Vector::default()` gives cannot be scored. -/
theorem C38_default_violation (F : Fp) (hF : F.Ok) : V4.Vector.score F ⟨0, fun _ => none⟩ = .panic :=
  (C38_panic_iff F hF _).mpr ⟨.AV, by decide, rfl⟩

/-! ### C39 -/

/-- The supplemental metrics. -/
def v4Supplemental : List V4.MetricType := [.S, .AU, .R, .V, .RE, .U]

/-- Two metrics' letters say the same: equal, or both absent or `X`. -/
def v4Same (a b : Option Char) : Prop := a = b ∨ ((a = none ∨ a = some 'X') ∧ (b = none ∨ b = some 'X'))

theorem v4Modified_congr {v v' : V4.scheme.Metrics} {b m : V4.MetricType} (hb : v4Letter v b = v4Letter v' b)
    (hm : v4Same (v4Letter v m) (v4Letter v' m)) : v4Modified v b m = v4Modified v' b m := by
  unfold v4Modified
  rw [hb]
  rcases hm with hm | ⟨h1 | h1, h2 | h2⟩
  · rw [hm]
  all_goals rw [h1, h2] <;> rfl

theorem v4Or_congr {v v' : V4.scheme.Metrics} {m : V4.MetricType} {c : Char}
    (hm : v4Same (v4Letter v m) (v4Letter v' m)) : v4Or v m c = v4Or v' m c := by
  unfold v4Or
  rcases hm with hm | ⟨h1 | h1, h2 | h2⟩
  · rw [hm]
  all_goals rw [h1, h2] <;> rfl

/-- **C39** Which metrics matter: two vectors with the same mandatory metrics, and the same threat and
environmental metrics up to `X` and absent being the same, have the same score and severity, whatever their
supplemental metrics are (and scoring one panics exactly if scoring the other does). -/
theorem C39_score (F : Fp) (hF : F.Ok) (w w' : V4.Vector)
    (hb : ∀ m ∈ v4Mandatory, w.metrics m = w'.metrics m)
    (ho : ∀ m, m ∉ v4Mandatory → m ∉ v4Supplemental → v4Same (v4Letter w.metrics m) (v4Letter w'.metrics m)) :
    w.score F = w'.score F ∧ w.severity F = w'.severity F := by
  have hs : w.score F = w'.score F := by
    by_cases hm : ∀ m ∈ v4Mandatory, w.metrics m ≠ none
    · have hm' : ∀ m ∈ v4Mandatory, w'.metrics m ≠ none := fun m h => by rw [← hb m h]; exact hm m h
      obtain ⟨e, he, h2, -⟩ := v4_full hF w hm
      obtain ⟨e', he', h2', -⟩ := v4_full hF w' hm'
      have : v4Eff w.metrics = v4Eff w'.metrics := by
        have hl : ∀ m ∈ v4Mandatory, v4Letter w.metrics m = v4Letter w'.metrics m := fun m h => by
          unfold v4Letter; rw [hb m h]
        unfold v4Eff
        rw [v4Modified_congr (hl .AV (by decide)) (ho .MAV (by decide) (by decide)),
          v4Modified_congr (hl .PR (by decide)) (ho .MPR (by decide) (by decide)),
          v4Modified_congr (hl .UI (by decide)) (ho .MUI (by decide) (by decide)),
          v4Modified_congr (hl .AC (by decide)) (ho .MAC (by decide) (by decide)),
          v4Modified_congr (hl .AT (by decide)) (ho .MAT (by decide) (by decide)),
          v4Modified_congr (hl .VC (by decide)) (ho .MVC (by decide) (by decide)),
          v4Modified_congr (hl .VI (by decide)) (ho .MVI (by decide) (by decide)),
          v4Modified_congr (hl .VA (by decide)) (ho .MVA (by decide) (by decide)),
          v4Modified_congr (hl .SC (by decide)) (ho .MSC (by decide) (by decide)),
          v4Modified_congr (hl .SI (by decide)) (ho .MSI (by decide) (by decide)),
          v4Modified_congr (hl .SA (by decide)) (ho .MSA (by decide) (by decide)),
          v4Or_congr (ho .E (by decide) (by decide)), v4Or_congr (ho .CR (by decide) (by decide)),
          v4Or_congr (ho .IR (by decide) (by decide)), v4Or_congr (ho .AR (by decide) (by decide))]
      rw [this, he'] at he
      cases he
      rw [h2, h2']
    · push Not at hm
      have hm' : ∃ m ∈ v4Mandatory, w'.metrics m = none := by
        obtain ⟨m, h, hn⟩ := hm
        exact ⟨m, h, by rw [← hb m h]; exact hn⟩
      rw [(C38_panic_iff F hF w).mpr hm, (C38_panic_iff F hF w').mpr hm']
  exact ⟨hs, by unfold Vector.severity; rw [hs]⟩

/-- **C39** The nomenclature names exactly the groups of metrics that are present. -/
theorem C39_nomenclature (w : V4.Vector) :
    (Nomenclature.ofVector w = .bte ↔ v4HasThreat w.metrics ∧ v4HasEnvironmental w.metrics) ∧
    (Nomenclature.ofVector w = .bt ↔ v4HasThreat w.metrics ∧ ¬ v4HasEnvironmental w.metrics) ∧
    (Nomenclature.ofVector w = .be ↔ ¬ v4HasThreat w.metrics ∧ v4HasEnvironmental w.metrics) ∧
    (Nomenclature.ofVector w = .b ↔ ¬ v4HasThreat w.metrics ∧ ¬ v4HasEnvironmental w.metrics) := by
  have ht : ∀ m : V4.MetricType, (w.metrics m).isSome = true ↔ w.metrics m ≠ none := fun m => by
    cases w.metrics m <;> simp
  generalize hthr : (w.metrics .E).isSome = t
  generalize henv : ((w.metrics .AR).isSome || (w.metrics .CR).isSome || (w.metrics .IR).isSome ||
    (w.metrics .MAC).isSome || (w.metrics .MAT).isSome || (w.metrics .MAV).isSome || (w.metrics .MPR).isSome ||
    (w.metrics .MSA).isSome || (w.metrics .MSC).isSome || (w.metrics .MSI).isSome || (w.metrics .MUI).isSome ||
    (w.metrics .MVA).isSome || (w.metrics .MVC).isSome || (w.metrics .MVI).isSome) = n
  have h1 : v4HasThreat w.metrics ↔ t = true := by unfold v4HasThreat; rw [← ht, hthr]
  have h2 : v4HasEnvironmental w.metrics ↔ n = true := by
    rw [← henv]
    unfold v4HasEnvironmental
    simp only [Bool.or_eq_true, ht, List.mem_cons, List.not_mem_nil, or_false, exists_eq_or_imp, exists_eq_left]
    tauto
  rw [h1, h2]
  unfold Nomenclature.ofVector
  simp only
  rw [hthr, henv]
  cases t <;> cases n <;> decide

/-- **C39** The name of a nomenclature parses back to it, and no other text parses. -/
theorem C39_nomenclature_text (s : Str) (n : Nomenclature) : Nomenclature.fromStr s = .ok n ↔ s = n.display := by
  constructor
  · intro h
    unfold Nomenclature.fromStr at h
    split at h
    · rename_i n' hn
      cases h
      have := mem_of_lookupStr hn
      simp only [List.mem_cons, List.not_mem_nil, or_false, Prod.mk.injEq] at this
      rcases this with ⟨rfl, rfl⟩ | ⟨rfl, rfl⟩ | ⟨rfl, rfl⟩ | ⟨rfl, rfl⟩ <;> rfl
    · cases h
  · rintro rfl
    cases n <;> decide +kernel

/-! ### C61 -/

/-- `e` is nowhere less severe than `e'`. -/
def Spec.Eff.AtLeast (e e' : Eff) : Prop :=
  stepAV e.AV ≤ stepAV e'.AV ∧ stepPR e.PR ≤ stepPR e'.PR ∧ stepUI e.UI ≤ stepUI e'.UI ∧
  stepAC e.AC ≤ stepAC e'.AC ∧ stepAT e.AT ≤ stepAT e'.AT ∧
  stepV e.VC ≤ stepV e'.VC ∧ stepV e.VI ≤ stepV e'.VI ∧ stepV e.VA ≤ stepV e'.VA ∧
  stepS e.SC ≤ stepS e'.SC ∧ stepS e.SI ≤ stepS e'.SI ∧ stepS e.SA ≤ stepS e'.SA ∧
  stepE e.E ≤ stepE e'.E ∧ stepR e.CR ≤ stepR e'.CR ∧ stepR e.IR ≤ stepR e'.IR ∧ stepR e.AR ≤ stepR e'.AR

theorem tenths_mono {z y : ScoringVector} (h : z.eff.AtLeast y.eff) : y.eff.tenths ≤ z.eff.tenths := by
  have ha : Above z y := by
    obtain ⟨a1, a2, a3, b1, b2, c1, c2, c3, d1, d2, d3, e, r1, r2, r3⟩ := h
    exact ⟨⟨a1, a2, a3⟩, ⟨b1, b2⟩, ⟨c1, c2, c3⟩, ⟨r1, r2, r3⟩, ⟨d1, d2, d3⟩, e⟩
  have hr := raw_mono ha
  by_cases hy : y.eff.HasImpact
  · have hz : z.eff.HasImpact := by
      rw [hasImpact_iff] at hy ⊢
      rintro ⟨h1, h2, h3, h4, h5, h6⟩
      obtain ⟨-, -, ⟨c1, c2, c3⟩, -, ⟨d1, d2, d3⟩, -⟩ := ha
      rw [h1] at c1; rw [h2] at c2; rw [h3] at c3; rw [h4] at d1; rw [h5] at d2; rw [h6] at d3
      apply hy
      refine ⟨?_, ?_, ?_, ?_, ?_, ?_⟩
      · revert c1; cases y.vc <;> decide
      · revert c2; cases y.vi <;> decide
      · revert c3; cases y.va <;> decide
      · revert d1; cases y.sc <;> decide
      · revert d2; cases y.si <;> decide
      · revert d3; cases y.sa <;> decide
    unfold Eff.tenths
    rw [if_pos hy, if_pos hz]
    exact Int.floor_mono (by linarith)
  · have : y.eff.tenths = 0 := by unfold Eff.tenths; rw [if_neg hy]
    rw [this]
    exact (score_z exact_ok z).choose_spec.2.2.1

/-- **C61** If one vector is nowhere less severe than another, its score is not lower. -/
theorem C61_monotone (F : Fp) (hF : F.Ok) (w w' : V4.Vector) (e e' : Eff)
    (h : v4Eff w.metrics = some e) (h' : v4Eff w'.metrics = some e')
    (hm : ∀ m ∈ v4Mandatory, w.metrics m ≠ none) (hm' : ∀ m ∈ v4Mandatory, w'.metrics m ≠ none)
    (hle : e.AtLeast e') : ∃ x x', w.score F = .ok x ∧ w'.score F = .ok x' ∧ x' ≤ x := by
  obtain ⟨z, -, he⟩ := ofVector_ok w hm
  obtain ⟨z', -, he'⟩ := ofVector_ok w' hm'
  obtain ⟨f, hf, h2, h3, h4, -⟩ := v4_full hF w hm
  obtain ⟨f', hf', h2', h3', h4', -⟩ := v4_full hF w' hm'
  rw [h] at hf he
  rw [h'] at hf' he'
  cases hf; cases hf'
  injection he with he
  injection he' with he'
  refine ⟨_, _, h2, h2', fl_tenth_le hF (by rw [abs_of_nonneg h3']; omega) (by rw [abs_of_nonneg h3]; omega) ?_⟩
  subst he he'
  exact tenths_mono hle

/-- How many steps below the most severe value of its metric a value is, by metric. -/
def v4Step : V4.MetricType → Char → ℕ
  | .AV | .MAV => stepAV
  | .PR | .MPR => stepPR
  | .UI | .MUI => stepUI
  | .AC | .MAC => stepAC
  | .AT | .MAT => stepAT
  | .VC | .MVC | .VI | .MVI | .VA | .MVA => stepV
  | .SC | .MSC | .SI | .MSI | .SA | .MSA => stepS
  | .E => stepE
  | .CR | .IR | .AR => stepR
  | .S | .AU | .R | .V | .RE | .U => fun _ => 0

/-- The letter of a metric value. -/
def v4ValueLetter (m : V4.MetricType) (x : m.Val) : Option Char := (m.asStr x).head?

/-- Both absent, or both `X`, or two other letters of which the first is at least as severe. -/
inductive V4LetterLe (step : Char → ℕ) : Option Char → Option Char → Prop
  | refl (o) : V4LetterLe step o o
  | step (c c' : Char) : c ≠ 'X' → c' ≠ 'X' → step c ≤ step c' → V4LetterLe step (some c) (some c')

theorem v4Modified_le {step : Char → ℕ} {v v' : V4.scheme.Metrics} {b m : V4.MetricType}
    (hb : V4LetterLe step (v4Letter v b) (v4Letter v' b)) (hm : V4LetterLe step (v4Letter v m) (v4Letter v' m)) :
    (v4Modified v b m = none ↔ v4Modified v' b m = none) ∧
    ∀ c c', v4Modified v b m = some c → v4Modified v' b m = some c' → step c ≤ step c' := by
  unfold v4Modified
  grind [V4LetterLe]

theorem v4Or_le {step : Char → ℕ} {v v' : V4.scheme.Metrics} {m : V4.MetricType} {d : Char}
    (hm : V4LetterLe step (v4Letter v m) (v4Letter v' m)) : step (v4Or v m d) ≤ step (v4Or v' m d) := by
  unfold v4Or
  grind [V4LetterLe]

theorem eff_atLeast {v v' : V4.scheme.Metrics} (hL : ∀ m, V4LetterLe (v4Step m) (v4Letter v m) (v4Letter v' m))
    {e e' : Eff} (h : v4Eff v = some e) (h' : v4Eff v' = some e') : e.AtLeast e' := by
  unfold v4Eff at h h'
  simp only [Option.bind_eq_bind, Option.bind_eq_some_iff, Option.some.injEq] at h h'
  obtain ⟨a1, p1, a2, p2, a3, p3, a4, p4, a5, p5, a6, p6, a7, p7, a8, p8, a9, p9, a10, p10, a11, p11, rfl⟩ := h
  obtain ⟨b1, q1, b2, q2, b3, q3, b4, q4, b5, q5, b6, q6, b7, q7, b8, q8, b9, q9, b10, q10, b11, q11, rfl⟩ := h'
  exact ⟨(v4Modified_le (hL .AV) (hL .MAV)).2 _ _ p1 q1, (v4Modified_le (hL .PR) (hL .MPR)).2 _ _ p2 q2,
    (v4Modified_le (hL .UI) (hL .MUI)).2 _ _ p3 q3, (v4Modified_le (hL .AC) (hL .MAC)).2 _ _ p4 q4,
    (v4Modified_le (hL .AT) (hL .MAT)).2 _ _ p5 q5, (v4Modified_le (hL .VC) (hL .MVC)).2 _ _ p6 q6,
    (v4Modified_le (hL .VI) (hL .MVI)).2 _ _ p7 q7, (v4Modified_le (hL .VA) (hL .MVA)).2 _ _ p8 q8,
    (v4Modified_le (hL .SC) (hL .MSC)).2 _ _ p9 q9, (v4Modified_le (hL .SI) (hL .MSI)).2 _ _ p10 q10,
    (v4Modified_le (hL .SA) (hL .MSA)).2 _ _ p11 q11, v4Or_le (hL .E), v4Or_le (hL .CR), v4Or_le (hL .IR),
    v4Or_le (hL .AR)⟩

theorem v4_set_same (v : V4.scheme.Metrics) (m : V4.MetricType) (x : m.Val) :
    Scheme.set (S := V4.scheme) v m x m = some x := by
  unfold Scheme.set
  simp

theorem v4_set_ne (v : V4.scheme.Metrics) {m m' : V4.MetricType} (x : m.Val) (h : m' ≠ m) :
    Scheme.set (S := V4.scheme) v m x m' = v m' := by
  unfold Scheme.set
  rw [dif_neg h]

/-- **C61** Raising any single metric of a vector to a more severe value does not lower the score.  (`X` is left
out: it stands for another value, see C39.) -/
theorem C61_single (F : Fp) (hF : F.Ok) (w : V4.Vector) (m : V4.MetricType) (x y : m.Val) (c c' : Char)
    (hm : ∀ m' ∈ v4Mandatory, m' ≠ m → w.metrics m' ≠ none)
    (hx : v4ValueLetter m x = some c) (hy : v4ValueLetter m y = some c') (hcx : c ≠ 'X') (hcy : c' ≠ 'X')
    (hle : v4Step m c ≤ v4Step m c') :
    ∃ s s', V4.Vector.score F { w with metrics := Scheme.set (S := V4.scheme) w.metrics m x } = .ok s ∧
      V4.Vector.score F { w with metrics := Scheme.set (S := V4.scheme) w.metrics m y } = .ok s' ∧ s' ≤ s := by
  have hL : ∀ m', V4LetterLe (v4Step m') (v4Letter (Scheme.set (S := V4.scheme) w.metrics m x) m')
      (v4Letter (Scheme.set (S := V4.scheme) w.metrics m y) m') := by
    intro m'
    by_cases h : m' = m
    · subst h
      have e1 : v4Letter (Scheme.set (S := V4.scheme) w.metrics m' x) m' = some c := by
        unfold v4Letter
        rw [v4_set_same]
        exact hx
      have e2 : v4Letter (Scheme.set (S := V4.scheme) w.metrics m' y) m' = some c' := by
        unfold v4Letter
        rw [v4_set_same]
        exact hy
      rw [e1, e2]
      exact .step _ _ hcx hcy hle
    · unfold v4Letter
      rw [v4_set_ne _ _ h, v4_set_ne _ _ h]
      exact .refl _
  have hall : ∀ z : m.Val, ∀ m' ∈ v4Mandatory, Scheme.set (S := V4.scheme) w.metrics m z m' ≠ none := by
    intro z m' hm'
    by_cases h : m' = m
    · subst h; rw [v4_set_same]; simp
    · rw [v4_set_ne _ _ h]; exact hm m' hm' h
  obtain ⟨e, he, -⟩ := v4_full hF { w with metrics := Scheme.set (S := V4.scheme) w.metrics m x } (hall x)
  obtain ⟨e', he', -⟩ := v4_full hF { w with metrics := Scheme.set (S := V4.scheme) w.metrics m y } (hall y)
  exact C61_monotone F hF _ _ e e' he he' (hall x) (hall y) (eff_atLeast hL he he')

/-- **C61** The score is 0 exactly when there is no impact on the vulnerable and subsequent systems. -/
theorem C61_zero (F : Fp) (hF : F.Ok) (w : V4.Vector) (h : ∀ m ∈ v4Mandatory, w.metrics m ≠ none) :
    ∃ e x, v4Eff w.metrics = some e ∧ w.score F = .ok x ∧ (x = 0 ↔ ¬ e.HasImpact) := by
  obtain ⟨e, he, h2, h3, h4, h5⟩ := v4_full hF w h
  refine ⟨e, _, he, h2, ?_, ?_⟩
  · intro h0 hi
    have := fl_tenth_lt hF (j := 0) (k := e.tenths) (by norm_num) (by rw [abs_of_nonneg h3]; omega) (h5 hi)
    rw [h0] at this
    simp [fl_zero hF] at this
  · intro hi
    have : e.tenths = 0 := by unfold Eff.tenths; rw [if_neg hi]
    rw [this]
    simpa using fl_zero hF

/-! ### Any version -/

/-- **C36, C37, C38** A vector of any version that was parsed from a text has a score and a severity: no panic; the
score is a (rounded) decimal with one digit after the point from 0 to 10, and the severity is the band of that
score on the scale of its version. -/
theorem C38_any_version (F : Fp) (hF : F.Ok) (s : Str) (c : Cvss) (h : Cvss.fromStr s = .ok c) :
    ∃ (k : ℕ) (sev : Adv.Severity), k ≤ 100 ∧ c.score F = .ok (F.fl ((k : ℚ) / 10)) ∧ c.severity F = .ok sev ∧
      (match c with
        | .v20 _ => BandV2 k sev
        | _ => Band k sev) := by
  have hp := (C59_parse_iff s c).mp h
  cases c with
  | v20 v =>
    obtain ⟨k, hk⟩ := Int.eq_ofNat_of_zero_le (v2_range v).1.1
    have h1 := (v2_range v).1.2
    have h2 := C37_v2 F hF v
    have h3 := (C60_v2 F hF v).1
    rw [hk] at h1 h2 h3
    exact ⟨k, _, by exact_mod_cast h1, congrArg Outcome.ok h3, rfl, h2⟩
  | v30 b =>
    obtain ⟨k, hk⟩ := Int.eq_ofNat_of_zero_le (v3Tenths_range b.metrics).1
    have h1 := (v3Tenths_range b.metrics).2
    have h2 := C37_v3 F hF b
    have h3 := C60_v3 F hF b
    rw [hk] at h1 h2 h3
    exact ⟨k, _, by exact_mod_cast h1, congrArg Outcome.ok h3, rfl, h2⟩
  | v31 b =>
    obtain ⟨k, hk⟩ := Int.eq_ofNat_of_zero_le (v3Tenths_range b.metrics).1
    have h1 := (v3Tenths_range b.metrics).2
    have h2 := C37_v3 F hF b
    have h3 := C60_v3 F hF b
    rw [hk] at h1 h2 h3
    exact ⟨k, _, by exact_mod_cast h1, congrArg Outcome.ok h3, rfl, h2⟩
  | v40 w =>
    have hm := (hasBase_iff w).mp ((C35_parse_iff s w).mp hp).2.1
    obtain ⟨e, -, h2, h3, h4, -⟩ := v4_full hF w hm
    have hb := severityOf_band hF h3 h4
    obtain ⟨k, hk⟩ := Int.eq_ofNat_of_zero_le h3
    rw [hk] at h2 h4 hb
    refine ⟨k, _, by exact_mod_cast h4, h2, ?_, hb⟩
    show Vector.severity F w = _
    unfold Vector.severity
    rw [h2]
    rfl

/-! ### A concrete case: `exV4` -/

/-- The letters that count: the subsequent system's integrity is `S` because of `MSI:S`, `E` is `U`, and the
requirements that are not given count as `H`. -/
def exV4eff : Eff := ⟨'N', 'H', 'N', 'L', 'N', 'L', 'L', 'N', 'N', 'S', 'N', 'U', 'H', 'H', 'H'⟩

theorem exV4_eff : v4Eff exV4.metrics = some exV4eff := by decide +kernel

theorem exV4_mandatory : ∀ m ∈ v4Mandatory, exV4.metrics m ≠ none := (hasBase_iff _).mp (by unfold V4.HasBase exV4; simp)

theorem exV4_tenths : exV4eff.tenths = 43 := by
  unfold Eff.tenths
  rw [if_pos (by decide)]
  decide +kernel

example : exV4.score binary64 = .ok (binary64.fl 4.3) ∧ Nomenclature.ofVector exV4 = .bte := by
  obtain ⟨e, h1, h2⟩ := C60_v4 binary64 binary64_ok exV4 exV4_mandatory
  rw [exV4_eff] at h1
  cases h1
  rw [h2, exV4_tenths]
  exact ⟨by norm_num, by decide⟩

/-- More severe: network instead of local. -/
example : v4ValueLetter .AV V4.AttackVector.network = some 'N' ∧ v4ValueLetter .AV V4.AttackVector.local = some 'L' ∧
    v4Step .AV 'N' ≤ v4Step .AV 'L' := by decide

/-- `MSI:S` makes the example count as one with an impact on the subsequent system. -/
example : exV4eff.HasImpact ∧ exV4eff.AtLeast { exV4eff with SI := 'L' } := by
  unfold Eff.AtLeast
  decide

/-- A hypothesis of C39: without the urgency and with `CR:X`. -/
example : ∀ m, m ∉ v4Mandatory → m ∉ v4Supplemental → v4Same (v4Letter exV4.metrics m)
    (v4Letter (fun m => match m with | .U => none | .CR => some .notDefined | m => exV4.metrics m) m) := by
  intro m h1 h2
  cases m <;> first | exact Or.inl rfl | exact Or.inr ⟨Or.inl rfl, Or.inr rfl⟩ | exact absurd (by decide) h1 | exact absurd (by decide) h2

end Verif.Cvss
