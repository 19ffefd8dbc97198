import Verif.Model.CvssV2Score
import Verif.Lemmas.Float
import Verif.Spec.CvssScore

/-!
# CVSS v2 scores: floating point against the exact formula
-/

namespace Verif.Cvss

open Verif.Cvss.Spec

/-- Not just below a tie, so that adding `1e-6` before rounding does not lift over it. -/
def ClearTie (x : ℚ) : Prop := 10 * x + 1 / 2 ≤ (round1 x : ℚ) + 1 - 1 / 60000

instance (x : ℚ) : Decidable (ClearTie x) := by unfold ClearTie; infer_instance

/-- Rounding with the epsilon finds the exact half-up rounding in spite of an inaccurate input. -/
theorem roundup_tie {F : Fp} (hF : F.Ok) {k : ℕ} {x' x : ℚ} (h : Near k x' x) (hk : k ≤ 100000)
    (h0 : |x| ≤ 20) (hc : ClearTie x) :
    F.div (roundAway (F.mul (F.add x' (F.fl (1 / 10 ^ 6))) (F.fl 10))) (F.fl 10) = F.fl ((round1 x : ℚ) / 10) := by
  have e : Near 1 (F.fl (1 / 10 ^ 6)) (1 / 10 ^ 6) :=
    Near.lit hF (A := 1) (by rw [abs_of_nonneg (by positivity)]; norm_num) (by norm_num)
  have hb : |x + 1 / 10 ^ 6| ≤ ((21 : ℕ) : ℚ) := by
    rw [abs_le] at h0 ⊢
    push_cast
    constructor <;> linarith [h0.1, h0.2]
  have s1 := Near.add hF (h.mono hk) e hb (by norm_num) (by norm_num)
  have s2 := Near.mul hF s1 (Near.refl 10) (A := 21) (B := 10) hb (by norm_num [abs_of_nonneg]) (by norm_num)
    (by norm_num) (by norm_num)
  have s3 : Near 1050000 (F.mul (F.add x' (F.fl (1 / 10 ^ 6))) (F.fl 10)) ((x + 1 / 10 ^ 6) * 10) := by
    rw [fl_ten hF]
    exact s2.mono (by norm_num)
  unfold Near at s3
  have e1 : ((1050000 : ℕ) : ℚ) / 2 ^ 40 ≤ 1 / 10 ^ 6 := by norm_num
  have s4 := abs_le.mp (s3.trans e1)
  have f1 : (round1 x : ℚ) ≤ 10 * x + 1 / 2 := Int.floor_le _
  unfold ClearTie at hc
  have hr : roundAway (F.mul (F.add x' (F.fl (1 / 10 ^ 6))) (F.fl 10)) = round1 x := by
    apply roundAway_eq
    · linarith [s4.1]
    · linarith [s4.2]
  rw [hr, fl_ten hF]
  rfl

namespace V2

/-- The exploitability values. -/
def explL : List ℚ :=
  [0, 4977/4000, 3871/2500, 6083/3125, 20349/10000, 43371/20000, 50481/20000, 15827/6250, 33733/12500,
   39263/12500, 63/20, 49742/15625, 53009/15625, 177327/50000, 98/25, 61699/15625, 206397/50000,
   137921/31250, 616/125, 160531/31250, 549/100, 433466/78125, 639/100, 504526/78125, 854/125, 994/125,
   5368/625, 6248/625]

/-- The impact and adjusted impact values. -/
def impL : List ℚ :=
  [0, 11451/8000, 1706199/640000, 11451/4000, 34353/10000, 191014131/51200000, 1248159/320000,
   1729101/400000, 3515457/800000, 122766171/25600000, 790119/160000, 165111969/32000000, 334174533/64000000,
   2141337/400000, 72839811/12800000, 5736951/1000000, 15057045861/2560000000, 95947929/16000000,
   193556253/32000000, 253261767/40000000, 510359619/80000000, 41235051/6400000, 8452567101/1280000000,
   107902773/16000000, 10960771239/1600000000, 34353/5000, 22055461923/3200000000, 280881579/40000000,
   4614649941/640000000, 727905717/100000000, 939509215491/128000000000, 2942907/400000,
   11924991243/1600000000, 30709738389/4000000000, 248864583/32000000, 501078365931/64000000000,
   1568787/200000, 1284019673013/160000000000, 4019301/500000, 131148303/16000000,
   53302859928021/6400000000000, 166806717/20000000, 334586769/40000000, 68396823/8000000,
   13799863473/1600000000, 173814729/20000000, 441058167/50000000, 7127594793/800000000,
   18046650039/2000000000, 735981111063/80000000000, 2301651/250000, 187441419/20000000, 95375379/10000000,
   240093117/25000000, 9706314189/1000000000, 10, 125010567/12500000]

/-- The products of temporal weights. -/
def tempL : List ℚ :=
  [13311/20000, 1377/2000, 28101/40000, 7047/10000, 2907/4000, 729/1000, 1479/2000, 14877/20000, 153/200,
   6137/8000, 1539/2000, 783/1000, 31407/40000, 323/400, 81/100, 3249/4000, 1653/2000, 17/20, 171/200,
   6859/8000, 87/100, 9/10, 361/400, 19/20, 1]

/-- The tenths of base and temporal scores. -/
def tenthsL : List ℤ := (List.range 109).map (fun n : ℕ => (n : ℤ) - 8)

theorem mem_tenthsL {k : ℤ} : k ∈ tenthsL ↔ -8 ≤ k ∧ k ≤ 100 := by
  unfold tenthsL
  rw [List.mem_map]
  constructor
  · rintro ⟨n, hn, rfl⟩
    rw [List.mem_range] at hn
    omega
  · rintro ⟨h1, h2⟩
    exact ⟨(k + 8).toNat, by rw [List.mem_range]; omega, by omega⟩

/-- The base equation is clear of ties, and its tenths are between -8 and 100 (between 0 and 100 without
requirements). -/
theorem clear_base : ∀ i ∈ impL, ∀ e ∈ explL, ClearTie (v2Equation i e) ∧ -8 ≤ round1 (v2Equation i e) ∧
    round1 (v2Equation i e) ≤ 100 := by decide +kernel

theorem clear_temporal : ∀ k ∈ tenthsL, ∀ w ∈ tempL, ClearTie ((k : ℚ) / 10 * w) := by decide +kernel

theorem clear_env : ∀ k ∈ tenthsL, ∀ c ∈ [(0 : ℚ), 0.1, 0.3, 0.4, 0.5], ∀ d ∈ [(0 : ℚ), 0.25, 0.75, 1],
    ClearTie (((k : ℚ) / 10 + (10 - (k : ℚ) / 10) * c) * d) := by decide +kernel

theorem expl_mem : ∀ av ∈ [(0 : ℚ), 0.395, 0.646, 1], ∀ ac ∈ [(0 : ℚ), 0.35, 0.61, 0.71],
    ∀ au ∈ [(0 : ℚ), 0.45, 0.56, 0.704], 20 * av * ac * au ∈ explL := by decide +kernel

/-- Impact weights, and their products with requirement weights. -/
def adjL : List ℚ := [0, 0.1375, 0.275, 0.41525, 0.33, 0.66, 0.9966]

theorem adj_mem : ∀ c ∈ [(0 : ℚ), 0.275, 0.66], (c ∈ adjL) ∧ ∀ r ∈ [(0.5 : ℚ), 1, 1.51], c * r ∈ adjL := by
  decide +kernel

theorem imp_mem : ∀ c ∈ [(0 : ℚ), 0.275, 0.66], ∀ i ∈ [(0 : ℚ), 0.275, 0.66], ∀ a ∈ [(0 : ℚ), 0.275, 0.66],
    10.41 * (1 - (1 - c) * (1 - i) * (1 - a)) ∈ impL ∧
    (10.41 * (1 - (1 - c) * (1 - i) * (1 - a)) = 0 ↔ c = 0 ∧ i = 0 ∧ a = 0) := by decide +kernel

theorem adjImp_mem : ∀ c ∈ adjL, ∀ i ∈ adjL, ∀ a ∈ adjL,
    min 10 (10.41 * (1 - (1 - c) * (1 - i) * (1 - a))) ∈ impL ∧
    (min 10 (10.41 * (1 - (1 - c) * (1 - i) * (1 - a))) = 0 ↔ c = 0 ∧ i = 0 ∧ a = 0) := by decide +kernel

theorem temp_mem : ∀ e ∈ [(0.85 : ℚ), 0.9, 0.95, 1], ∀ rl ∈ [(0.87 : ℚ), 0.9, 0.95, 1], ∀ rc ∈ [(0.9 : ℚ), 0.95, 1],
    e * rl * rc ∈ tempL := by decide +kernel

theorem range_lists : (∀ x ∈ explL, 0 ≤ x ∧ x ≤ 10) ∧ (∀ x ∈ impL, (x = 0 ∨ 1 ≤ x) ∧ 0 ≤ x ∧ x ≤ 11) ∧
    (∀ x ∈ tempL, 0 ≤ x ∧ x ≤ 1) ∧ (∀ x ∈ adjL, 0 ≤ x ∧ x ≤ 1) := by
  refine ⟨?_, ?_, ?_, ?_⟩ <;> decide +kernel

end V2

end Verif.Cvss
