import Verif.Lemmas.CvssV4Float

/-!
# CVSS v4: the exact score before rounding is monotone
-/

namespace Verif.Cvss.V4

open Verif.Cvss.Spec

/-- The interpolation of one MacroVector as an affine function of the distances, times 50400. -/
structure Row where
  t : ℤ
  k1 : ℤ
  k2 : ℤ
  k36 : ℤ
  k4 : ℤ
  deriving DecidableEq

/-- One coefficient. -/
def kOf (t : ℕ) (N : ℕ) (m : ℕ) : Option ℕ → ℤ
  | some l => ((t : ℤ) - l) * ((840 / m * (60 / N) : ℕ) : ℤ)
  | none => 0

/-- The coefficients. -/
def row (e1 e2 e3 e4 e5 e6 : ℕ) : Row :=
  let t := (lookupTenths e1 e2 e3 e4 e5 e6).getD 0
  let o1 := lookupTenths (e1 + 1) e2 e3 e4 e5 e6
  let o2 := lookupTenths e1 (e2 + 1) e3 e4 e5 e6
  let o36 := v4Lower36 e1 e2 e3 e4 e5 e6
  let o4 := lookupTenths e1 e2 e3 (e4 + 1) e5 e6
  let o5 := lookupTenths e1 e2 e3 e4 (e5 + 1) e6
  let N := cnt o1 + cnt o2 + cnt o36 + cnt o4 + cnt o5
  ⟨50400 * t, kOf t N (v4Depth1 e1) o1, kOf t N (v4Depth2 e2) o2, kOf t N (v4Depth36 e3 e6) o36,
    kOf t N (v4Depth4 e4) o4⟩

/-- The affine function. -/
def Row.at (r : Row) (d1 d2 d36 d4 : ℕ) : ℤ := r.t - r.k1 * d1 - r.k2 * d2 - r.k36 * d36 - r.k4 * d4

theorem kOf_eq {t N m : ℕ} {o : Option ℕ} (hm : 840 % m = 0) (hm1 : 1 ≤ m) (hN : 60 % N = 0) (hN1 : cnt o ≤ N) (d : ℕ) :
    (50400 : ℚ) * (partOf t o d m / N) = ((kOf t N m o * d : ℤ) : ℚ) := by
  cases o with
  | none => simp [partOf, kOf]
  | some l =>
    simp only [cnt] at hN1
    obtain ⟨c, hc⟩ := Nat.dvd_of_mod_eq_zero hm
    obtain ⟨q, hq⟩ := Nat.dvd_of_mod_eq_zero hN
    have e1 : 840 / m = c := by rw [hc]; exact Nat.mul_div_cancel_left c hm1
    have e2 : 60 / N = q := by rw [hq]; exact Nat.mul_div_cancel_left q hN1
    have hm0 : (m : ℚ) ≠ 0 := by exact_mod_cast (by omega : m ≠ 0)
    have hN0 : (N : ℚ) ≠ 0 := by exact_mod_cast (by omega : N ≠ 0)
    have hc' : (840 : ℚ) = m * c := by exact_mod_cast hc
    have hq' : (60 : ℚ) = N * q := by exact_mod_cast hq
    simp only [partOf, kOf, e1, e2]
    rw [show (50400 : ℚ) = 840 * 60 by norm_num, hc', hq']
    push_cast
    field_simp

theorem row_eq {e1 e2 e3 e4 e5 e6 : ℕ} (h1 : e1 < 3) (h2 : e2 < 2)
    (h36 : (e3, e6) ∈ [(0, 0), (0, 1), (1, 0), (1, 1), (2, 1)]) (h4 : e4 < 3) (h5 : e5 < 3) (d1 d2 d36 d4 : ℕ) :
    (50400 : ℚ) * v4Interpolate e1 e2 e3 e4 e5 e6 d1 d2 d36 d4 = (((row e1 e2 e3 e4 e5 e6).at d1 d2 d36 d4 : ℤ) : ℚ) := by
  obtain ⟨D1, D2, D36, D4⟩ := depths
  obtain ⟨_, _, y1, _, u1⟩ := D1 _ h1
  obtain ⟨_, _, y2, _, u2⟩ := D2 _ h2
  obtain ⟨_, _, y36, _, u36⟩ := D36 _ h36
  obtain ⟨_, _, y4, _, u4⟩ := D4 _ h4
  obtain ⟨t, ht, -⟩ := table_ok _ (List.mem_range.mpr h1) _ (List.mem_range.mpr h2) _ h36 _
    (List.mem_range.mpr h4) _ (List.mem_range.mpr h5)
  rw [Option.mem_def] at ht
  simp only at ht y36 u36
  rw [interpolate_exact _ _ _ _ _ _ d1 d2 d36 d4 ht]
  unfold row Row.at
  simp only [ht, Option.getD_some]
  generalize lookupTenths (e1 + 1) e2 e3 e4 e5 e6 = o1
  generalize lookupTenths e1 (e2 + 1) e3 e4 e5 e6 = o2
  generalize v4Lower36 e1 e2 e3 e4 e5 e6 = o36
  generalize lookupTenths e1 e2 e3 (e4 + 1) e5 e6 = o4
  generalize lookupTenths e1 e2 e3 e4 (e5 + 1) e6 = o5
  generalize hN : cnt o1 + cnt o2 + cnt o36 + cnt o4 + cnt o5 = N
  have c : ∀ o : Option ℕ, cnt o ≤ 1 := by intro o; cases o <;> simp [cnt]
  have hN5 : N ≤ 5 := by
    have := c o1; have := c o2; have := c o36; have := c o4; have := c o5
    omega
  have cz : ∀ (o : Option ℕ) (d m : ℕ), cnt o = 0 → partOf t o d m = 0 ∧ kOf t N m o = 0 := by
    intro o d m ho
    cases o with
    | none => exact ⟨rfl, rfl⟩
    | some l => simp [cnt] at ho
  by_cases hN0 : N = 0
  · obtain ⟨p1, q1⟩ := cz o1 d1 (v4Depth1 e1) (by omega)
    obtain ⟨p2, q2⟩ := cz o2 d2 (v4Depth2 e2) (by omega)
    obtain ⟨p3, q3⟩ := cz o36 d36 (v4Depth36 e3 e6) (by omega)
    obtain ⟨p4, q4⟩ := cz o4 d4 (v4Depth4 e4) (by omega)
    rw [p1, p2, p3, p4, q1, q2, q3, q4]
    push_cast
    simp
  · have hN60 : 60 % N = 0 := by
      have : N = 1 ∨ N = 2 ∨ N = 3 ∨ N = 4 ∨ N = 5 := by omega
      rcases this with h | h | h | h | h <;> rw [h]
    have r1 := kOf_eq (t := t) u1 y1 hN60 (o := o1) (by omega) d1
    have r2 := kOf_eq (t := t) u2 y2 hN60 (o := o2) (by omega) d2
    have r3 := kOf_eq (t := t) u36 y36 hN60 (o := o36) (by omega) d36
    have r4 := kOf_eq (t := t) u4 y4 hN60 (o := o4) (by omega) d4
    push_cast at r1 r2 r3 r4 ⊢
    rw [← r1, ← r2, ← r3, ← r4]
    ring

/-! ### Comparing rows -/

/-- The positive part. -/
def pos (x : ℤ) : ℤ := if 0 ≤ x then x else 0

theorem le_pos {x : ℤ} {d D : ℕ} (h : d ≤ D) : x * d ≤ pos x * D := by
  have hd : (d : ℤ) ≤ D := by exact_mod_cast h
  unfold pos
  split_ifs with hx
  · exact mul_le_mul_of_nonneg_left hd hx
  · have : 0 ≤ (-x) * d := mul_nonneg (by omega) (by positivity)
    rw [zero_mul]
    linarith [neg_mul x (d : ℤ)]

/-- `a` with own distance `d` is at least `b` with `d'`, whatever the other distances are. -/
def ge1 (a b : Row) (d d' D2 D36 D4 : ℕ) : Bool :=
  decide (pos (a.k2 - b.k2) * D2 + pos (a.k36 - b.k36) * D36 + pos (a.k4 - b.k4) * D4 ≤
    (a.t - a.k1 * d) - (b.t - b.k1 * d'))
def ge2 (a b : Row) (d d' D1 D36 D4 : ℕ) : Bool :=
  decide (pos (a.k1 - b.k1) * D1 + pos (a.k36 - b.k36) * D36 + pos (a.k4 - b.k4) * D4 ≤
    (a.t - a.k2 * d) - (b.t - b.k2 * d'))
def ge36 (a b : Row) (d d' D1 D2 D4 : ℕ) : Bool :=
  decide (pos (a.k1 - b.k1) * D1 + pos (a.k2 - b.k2) * D2 + pos (a.k4 - b.k4) * D4 ≤
    (a.t - a.k36 * d) - (b.t - b.k36 * d'))
def ge4 (a b : Row) (d d' D1 D2 D36 : ℕ) : Bool :=
  decide (pos (a.k1 - b.k1) * D1 + pos (a.k2 - b.k2) * D2 + pos (a.k36 - b.k36) * D36 ≤
    (a.t - a.k4 * d) - (b.t - b.k4 * d'))
def ge5 (a b : Row) (D1 D2 D36 D4 : ℕ) : Bool :=
  decide (pos (a.k1 - b.k1) * D1 + pos (a.k2 - b.k2) * D2 + pos (a.k36 - b.k36) * D36 +
    pos (a.k4 - b.k4) * D4 ≤ a.t - b.t)

/-- The class changes that matter: class, largest distance before, class, smallest distance after. -/
def crit1 : List (ℕ × ℕ × ℕ × ℕ) := [(0, 0, 1, 0), (0, 0, 2, 0), (1, 1, 2, 0), (1, 2, 2, 1), (1, 3, 2, 2)]
def crit2 : List (ℕ × ℕ × ℕ × ℕ) := [(0, 0, 1, 0)]
def crit4 : List (ℕ × ℕ × ℕ × ℕ) :=
  [(0, 1, 1, 0), (0, 2, 1, 1), (0, 3, 1, 2), (0, 3, 2, 0), (0, 4, 1, 3), (0, 4, 2, 1), (0, 5, 1, 4), (0, 5, 2, 2),
   (1, 2, 2, 0), (1, 3, 2, 1), (1, 4, 2, 2)]
def crit36 : List ((ℕ × ℕ) × ℕ × (ℕ × ℕ) × ℕ) :=
  [((0, 0), 0, (1, 0), 0), ((0, 0), 1, (1, 0), 1), ((0, 0), 2, (0, 1), 0), ((0, 0), 2, (1, 0), 2), ((0, 0), 2, (1, 1), 0),
   ((0, 0), 3, (0, 1), 1), ((0, 0), 3, (1, 0), 3), ((0, 0), 3, (1, 1), 1), ((0, 0), 4, (0, 1), 2), ((0, 0), 4, (1, 0), 4),
   ((0, 0), 4, (1, 1), 2), ((0, 0), 5, (0, 1), 3), ((0, 0), 5, (1, 0), 5), ((0, 0), 5, (1, 1), 3), ((0, 0), 6, (0, 1), 4),
   ((0, 0), 6, (1, 0), 6), ((0, 0), 6, (1, 1), 4), ((0, 1), 0, (1, 1), 1), ((0, 1), 1, (1, 1), 2), ((0, 1), 2, (1, 1), 3),
   ((0, 1), 3, (1, 1), 4), ((0, 1), 4, (1, 1), 5), ((0, 1), 5, (1, 1), 6), ((1, 0), 1, (1, 1), 0), ((1, 0), 1, (2, 1), 0),
   ((1, 0), 2, (1, 1), 1), ((1, 0), 2, (2, 1), 1), ((1, 0), 3, (1, 1), 2), ((1, 0), 3, (2, 1), 2), ((1, 0), 4, (1, 1), 3),
   ((1, 0), 4, (2, 1), 3), ((1, 0), 5, (1, 1), 4), ((1, 0), 5, (2, 1), 4), ((1, 0), 6, (1, 1), 5), ((1, 0), 6, (2, 1), 5),
   ((1, 0), 7, (1, 1), 6), ((1, 0), 7, (2, 1), 6), ((1, 1), 0, (2, 1), 1), ((1, 1), 1, (2, 1), 2), ((1, 1), 2, (2, 1), 3),
   ((1, 1), 3, (2, 1), 4), ((1, 1), 4, (2, 1), 5), ((1, 1), 5, (2, 1), 6), ((1, 1), 6, (2, 1), 7), ((1, 1), 7, (2, 1), 8)]

def P36 : List (ℕ × ℕ) := [(0, 0), (0, 1), (1, 0), (1, 1), (2, 1)]

/-- The coefficients of all MacroVectors, computed beforehand: by EQ1, EQ2, EQ3 and EQ6, EQ4, EQ5. -/
def rowTable : List (List (List (List (List Row)))) := [
  [[[[⟨5040000, 20160, 10080, 1440, 0⟩, ⟨4939200, 40320, 30240, 4320, 8400⟩, ⟨4788000, 50400, 37800, 5400, 8400⟩],
     [⟨5040000, 60480, 50400, 5760, 14112⟩, ⟨4687200, 70560, 30240, 5760, 8064⟩, ⟨4586400, 176400, 88200, 18000, 25200⟩],
     [⟨4687200, 75600, 12600, 5400, 0⟩, ⟨4485600, 189000, 88200, 16200, 0⟩, ⟨4082400, 302400, 151200, 28800, 0⟩]],
    [[⟨4989600, 40320, 20160, 6720, 5040⟩, ⟨4788000, 80640, 30240, 5040, 13440⟩, ⟨4636800, 138600, 88200, 16800, 23100⟩],
     [⟨4838400, 70560, 50400, 6720, 12096⟩, ⟨4384800, 131040, 40320, 10080, 14112⟩, ⟨4082400, 214200, 126000, 33600, 32760⟩],
     [⟨4536000, 189000, 113400, 21000, 0⟩, ⟨4032000, 214200, 113400, 21000, 0⟩, ⟨3427200, 319200, 252000, 56000, 0⟩]],
    [[⟨4939200, 40320, 30240, 3780, 8400⟩, ⟨4788000, 70560, 30240, 3780, 10080⟩, ⟨4536000, 176400, 63000, 9450, 18900⟩],
     [⟨4687200, 70560, 10080, 1260, 10080⟩, ⟨4485600, 151200, 90720, 10080, 22176⟩, ⟨4082400, 277200, 138600, 25200, 30240⟩],
     [⟨4435200, 201600, 50400, 12600, 0⟩, ⟨3931200, 264600, 88200, 12600, 0⟩, ⟨3477600, 285600, 319200, 44100, 0⟩]],
    [[⟨4788000, 60480, 20160, 3780, 5040⟩, ⟨4636800, 151200, 70560, 12600, 18480⟩, ⟨4233600, 214200, 138600, 18900, 39900⟩],
     [⟨4636800, 161280, 100800, 16380, 24192⟩, ⟨4082400, 231840, 90720, 15120, 22176⟩, ⟨3276000, 189000, 75600, 23625, 42840⟩],
     [⟨4032000, 289800, 126000, 17325, 0⟩, ⟨3528000, 226800, 226800, 23625, 0⟩, ⟨2419200, 386400, 302400, 44100, 0⟩]],
    [[⟨4636800, 113400, 75600, 0, 27300⟩, ⟨4132800, 151200, 88200, 0, 27300⟩, ⟨3628800, 302400, 336000, 0, 61600⟩],
     [⟨3981600, 176400, 100800, 0, 25200⟩, ⟨3477600, 138600, 214200, 0, 35280⟩, ⟨2520000, 403200, 352800, 0, 77280⟩],
     [⟨3477600, 268800, 100800, 0, 0⟩, ⟨2772000, 571200, 436800, 0, 0⟩, ⟨1360800, 352800, 252000, 0, 0⟩]]],
   [[[⟨4989600, 50400, 0, 3600, 8400⟩, ⟨4788000, 88200, 0, 5400, 10500⟩, ⟨4636800, 268800, 0, 16800, 22400⟩],
     [⟨4788000, 63000, 0, 5400, 7560⟩, ⟨4536000, 189000, 0, 12600, 20160⟩, ⟨4233600, 386400, 0, 31200, 40320⟩],
     [⟨4636800, 252000, 0, 19200, 0⟩, ⟨4132800, 235200, 0, 26400, 0⟩, ⟨3628800, 504000, 0, 68400, 0⟩]],
    [[⟨4888800, 88200, 0, 8400, 12600⟩, ⟨4636800, 201600, 0, 14700, 18900⟩, ⟨4284000, 252000, 0, 33600, 39200⟩],
     [⟨4586400, 176400, 0, 18900, 25200⟩, ⟨4183200, 264600, 0, 23100, 30240⟩, ⟨3578400, 302400, 0, 33600, 60480⟩],
     [⟨4082400, 252000, 0, 30800, 0⟩, ⟨3578400, 201600, 0, 53200, 0⟩, ⟨2671200, 579600, 0, 96600, 0⟩]],
    [[⟨4788000, 75600, 0, 3150, 6300⟩, ⟨4636800, 201600, 0, 11025, 25200⟩, ⟨4284000, 386400, 0, 25200, 42000⟩],
     [⟨4636800, 226800, 0, 15750, 20160⟩, ⟨4032000, 289800, 0, 12600, 22680⟩, ⟨3528000, 386400, 0, 23100, 67200⟩],
     [⟨4233600, 386400, 0, 29400, 0⟩, ⟨3578400, 235200, 0, 39900, 0⟩, ⟨2520000, 655200, 0, 63000, 0⟩]],
    [[⟨4687200, 189000, 0, 11025, 23100⟩, ⟨4284000, 226800, 0, 15750, 27300⟩, ⟨3679200, 252000, 0, 44100, 39200⟩],
     [⟨4132800, 289800, 0, 17325, 30240⟩, ⟨3628800, 189000, 0, 31500, 50400⟩, ⟨2973600, 604800, 0, 63000, 97440⟩],
     [⟨3528000, 302400, 0, 14700, 0⟩, ⟨2620800, 386400, 0, 48300, 0⟩, ⟨1512000, 352800, 0, 40950, 0⟩]],
    [[⟨4334400, 252000, 0, 0, 42000⟩, ⟨3780000, 268800, 0, 0, 64400⟩, ⟨2620800, 554400, 0, 0, 96600⟩],
     [⟨3578400, 218400, 0, 0, 26880⟩, ⟨2620800, 436800, 0, 0, 77280⟩, ⟨1461600, 352800, 0, 0, 60480⟩],
     [⟨3175200, 1008000, 0, 0, 0⟩, ⟨1461600, 403200, 0, 0, 0⟩, ⟨856800, 554400, 0, 0, 0⟩]]]],
  [[[[⟨4939200, 12600, 30240, 4320, 6720⟩, ⟨4737600, 20160, 60480, 8640, 13440⟩, ⟨4586400, 50400, 189000, 18000, 29400⟩],
     [⟨4737600, 20160, 40320, 7200, 14112⟩, ⟨4334400, 30240, 110880, 17280, 24192⟩, ⟨3880800, 66150, 201600, 23400, 35280⟩],
     [⟨4384800, 53550, 126000, 21600, 0⟩, ⟨3729600, 69300, 75600, 19800, 0⟩, ⟨3175200, 96600, 184800, 26400, 0⟩]],
    [[⟨4788000, 20160, 50400, 10080, 10080⟩, ⟨4384800, 37800, 110880, 16800, 21840⟩, ⟨4082400, 72450, 138600, 29400, 35700⟩],
     [⟨4485600, 37800, 120960, 21840, 28224⟩, ⟨3729600, 32760, 120960, 26880, 22176⟩, ⟨3225600, 94500, 138600, 29400, 37800⟩],
     [⟨3780000, 66150, 113400, 37800, 0⟩, ⟨3175200, 72450, 50400, 23100, 0⟩, ⟨2469600, 113400, 319200, 67200, 0⟩]],
    [[⟨4737600, 22680, 50400, 6300, 13440⟩, ⟨4435200, 35280, 120960, 13860, 23520⟩, ⟨3830400, 44100, 176400, 14175, 35700⟩],
     [⟨4334400, 35280, 120960, 12600, 28224⟩, ⟨3729600, 47880, 171360, 20160, 34272⟩, ⟨2973600, 40950, 151200, 14175, 17640⟩],
     [⟨3628800, 59850, 138600, 23625, 0⟩, ⟨2872800, 72450, 0, 7875, 0⟩, ⟨2620800, 138600, 470400, 56700, 0⟩]],
    [[⟨4485600, 35280, 110880, 7560, 21840⟩, ⟨3880800, 55440, 100800, 8820, 31920⟩, ⟨3376800, 50400, 113400, 20475, 35700⟩],
     [⟨3830400, 47880, 171360, 13860, 38304⟩, ⟨2923200, 42840, 10080, 0, 12096⟩, ⟨2520000, 97650, 340200, 37800, 63000⟩],
     [⟨2872800, 66150, 63000, 6300, 0⟩, ⟨2620800, 103950, 289800, 48825, 0⟩, ⟨1260000, 71400, 151200, 25200, 0⟩]],
    [[⟨4183200, 59850, 151200, 0, 37800⟩, ⟨3528000, 59850, 138600, 0, 25200⟩, ⟨2721600, 142800, 403200, 0, 78400⟩],
     [⟨3276000, 56700, 88200, 0, 30240⟩, ⟨2923200, 116550, 403200, 0, 93240⟩, ⟨1310400, 63000, 184800, 0, 43680⟩],
     [⟨2671200, 121800, 504000, 0, 0⟩, ⟨1058400, 50400, 134400, 0, 0⟩, ⟨655200, 56700, 176400, 0, 0⟩]]],
   [[[⟨4788000, 22050, 0, 9000, 10500⟩, ⟨4435200, 47250, 0, 21600, 27300⟩, ⟨3830400, 67200, 0, 14400, 42000⟩],
     [⟨4536000, 53550, 0, 23400, 32760⟩, ⟨3780000, 50400, 0, 23400, 17640⟩, ⟨3074400, 84000, 0, 19200, 30240⟩],
     [⟨3880800, 96600, 0, 26400, 0⟩, ⟨3427200, 96600, 0, 21600, 0⟩, ⟨2620800, 201600, 0, 79200, 0⟩]],
    [[⟨4536000, 47250, 0, 25200, 27300⟩, ⟨3830400, 72450, 0, 18900, 29400⟩, ⟨3528000, 84000, 0, 33600, 47600⟩],
     [⟨3880800, 69300, 0, 37800, 27720⟩, ⟨3124800, 69300, 0, 10500, 7560⟩, ⟨2671200, 138600, 0, 84000, 77280⟩],
     [⟨3326400, 96600, 0, 39200, 0⟩, ⟨2973600, 155400, 0, 84000, 0⟩, ⟨1512000, 119700, 0, 58800, 0⟩]],
    [[⟨4485600, 44100, 0, 17325, 31500⟩, ⟨3830400, 56700, 0, 14175, 39900⟩, ⟨3124800, 92400, 0, 8400, 42000⟩],
     [⟨3729600, 40950, 0, 23625, 32760⟩, ⟨2872800, 28350, 0, 0, 0⟩, ⟨2368800, 113400, 0, 50400, 77280⟩],
     [⟨3074400, 63000, 0, 18900, 0⟩, ⟨2872800, 168000, 0, 58800, 0⟩, ⟨1209600, 100800, 0, 25200, 0⟩]],
    [[⟨3931200, 72450, 0, 11025, 39900⟩, ⟨3376800, 69300, 0, 12600, 21000⟩, ⟨2923200, 155400, 0, 58800, 98000⟩],
     [⟨2973600, 25200, 0, 1575, 17640⟩, ⟨2872800, 122850, 0, 48825, 70560⟩, ⟨1159200, 58800, 0, 16800, 23520⟩],
     [⟨2620800, 142800, 0, 60900, 0⟩, ⟨1461600, 92400, 0, 33600, 0⟩, ⟨806400, 88200, 0, 31500, 0⟩]],
    [[⟨3578400, 75600, 0, 0, 36400⟩, ⟨2973600, 147000, 0, 0, 92400⟩, ⟨1512000, 100800, 0, 0, 63000⟩],
     [⟨2923200, 142800, 0, 0, 117600⟩, ⟨1310400, 58800, 0, 0, 43680⟩, ⟨756000, 63000, 0, 0, 45360⟩],
     [⟨1159200, 81900, 0, 0, 0⟩, ⟨655200, 63000, 0, 0, 0⟩, ⟨302400, 63000, 0, 0, 0⟩]]]],
  [[[[⟨4687200, 0, 63000, 10800, 14700⟩, ⟨4334400, 0, 163800, 21600, 25200⟩, ⟨3780000, 0, 252000, 31200, 53200⟩],
     [⟨4334400, 0, 163800, 21600, 40320⟩, ⟨3729600, 0, 189000, 23400, 55440⟩, ⟨2822400, 0, 252000, 24000, 53760⟩],
     [⟨3528000, 0, 268800, 38400, 0⟩, ⟨2620800, 0, 117600, 28800, 0⟩, ⟨2016000, 0, 504000, 64800, 0⟩]],
    [[⟨4384800, 0, 151200, 25200, 27300⟩, ⟨3628800, 0, 239400, 35700, 23100⟩, ⟨2923200, 0, 134400, 19600, 67200⟩],
     [⟨3729600, 0, 239400, 35700, 50400⟩, ⟨3074400, 0, 264600, 42000, 52920⟩, ⟨1713600, 0, 235200, 42000, 40320⟩],
     [⟨2721600, 0, 184800, 50400, 0⟩, ⟨2016000, 0, 302400, 58800, 0⟩, ⟨1108800, 0, 277200, 58800, 0⟩]],
    [[⟨4284000, 0, 126000, 15750, 27300⟩, ⟨3729600, 0, 201600, 29925, 39900⟩, ⟨3124800, 0, 369600, 23100, 44800⟩],
     [⟨3628800, 0, 138600, 23625, 47880⟩, ⟨2772000, 0, 88200, 22050, 52920⟩, ⟨2318400, 0, 436800, 56700, 90720⟩],
     [⟨2671200, 0, 117600, 35700, 0⟩, ⟨1713600, 0, 285600, 31500, 0⟩, ⟨957600, 0, 277200, 34650, 0⟩]],
    [[⟨3780000, 0, 252000, 17325, 37800⟩, ⟨2772000, 0, 126000, 6300, 29400⟩, ⟨2570400, 0, 504000, 65100, 89600⟩],
     [⟨2872800, 0, 75600, 15750, 52920⟩, ⟨2066400, 0, 289800, 31500, 55440⟩, ⟨957600, 0, 168000, 16800, 36960⟩],
     [⟨1814400, 0, 302400, 25200, 0⟩, ⟨957600, 0, 201600, 21000, 0⟩, ⟨403200, 0, 151200, 12600, 0⟩]],
    [[⟨3225600, 0, 184800, 0, 47600⟩, ⟨2570400, 0, 453600, 0, 84000⟩, ⟨1008000, 0, 151200, 0, 37800⟩],
     [⟨2368800, 0, 386400, 0, 77280⟩, ⟨1058400, 0, 151200, 0, 40320⟩, ⟨554400, 0, 151200, 0, 35280⟩],
     [⟨1209600, 0, 352800, 0, 0⟩, ⟨453600, 0, 151200, 0, 0⟩, ⟨201600, 0, 151200, 0, 0⟩]]],
   [[[⟨4435200, 0, 0, 31200, 42000⟩, ⟨3679200, 0, 0, 36000, 39200⟩, ⟨3024000, 0, 0, 36000, 79800⟩],
     [⟨3679200, 0, 0, 28800, 63840⟩, ⟨2973600, 0, 0, 26400, 47040⟩, ⟨2066400, 0, 0, 75600, 105840⟩],
     [⟨2721600, 0, 0, 28800, 0⟩, ⟨2268000, 0, 0, 82800, 0⟩, ⟨1008000, 0, 0, 64800, 0⟩]],
    [[⟨3780000, 0, 0, 56000, 56000⟩, ⟨2671200, 0, 0, 22400, 36400⟩, ⟨2520000, 0, 0, 121800, 126000⟩],
     [⟨2772000, 0, 0, 11200, 40320⟩, ⟨2016000, 0, 0, 61600, 60480⟩, ⟨1008000, 0, 0, 46200, 45360⟩],
     [⟨2167200, 0, 0, 105000, 0⟩, ⟨1108800, 0, 0, 63000, 0⟩, ⟨554400, 0, 0, 75600, 0⟩]],
    [[⟨3780000, 0, 0, 42000, 39200⟩, ⟨2923200, 0, 0, 27300, 28000⟩, ⟨2016000, 0, 0, 59850, 84000⟩],
     [⟨3074400, 0, 0, 21000, 50400⟩, ⟨2419200, 0, 0, 63000, 104160⟩, ⟨1008000, 0, 0, 34650, 60480⟩],
     [⟨2318400, 0, 0, 88200, 0⟩, ⟨856800, 0, 0, 31500, 0⟩, ⟨403200, 0, 0, 37800, 0⟩]],
    [[⟨2772000, 0, 0, 4200, 11200⟩, ⟨2268000, 0, 0, 44100, 75600⟩, ⟨1058400, 0, 0, 22050, 50400⟩],
     [⟨2570400, 0, 0, 56700, 110880⟩, ⟨907200, 0, 0, 12600, 36960⟩, ⟨453600, 0, 0, 12600, 35280⟩],
     [⟨907200, 0, 0, 25200, 0⟩, ⟨352800, 0, 0, 12600, 0⟩, ⟨100800, 0, 0, 6300, 0⟩]],
    [[⟨2671200, 0, 0, 0, 121800⟩, ⟨1209600, 0, 0, 0, 50400⟩, ⟨705600, 0, 0, 0, 75600⟩],
     [⟨1209600, 0, 0, 0, 70560⟩, ⟨604800, 0, 0, 0, 45360⟩, ⟨252000, 0, 0, 0, 40320⟩],
     [⟨504000, 0, 0, 0, 0⟩, ⟨151200, 0, 0, 0, 0⟩, ⟨50400, 0, 0, 0, 0⟩]]]]]

/-- The position of a pair of EQ3 and EQ6 in `P36`. -/
def pos36 : ℕ × ℕ → ℕ
  | (0, 0) => 0
  | (0, _) => 1
  | (1, 0) => 2
  | (1, _) => 3
  | _ => 4

/-- The row in the table. -/
def tab (e1 e2 : ℕ) (p : ℕ × ℕ) (e4 e5 : ℕ) : Row :=
  (((((rowTable.getD e1 []).getD e2 []).getD (pos36 p) []).getD e4 []).getD e5 ⟨0, 0, 0, 0, 0⟩)

theorem tab_ok : ((List.range 3).all fun e1 => (List.range 2).all fun e2 => P36.all fun p =>
    (List.range 3).all fun e4 => (List.range 3).all fun e5 =>
    decide (row e1 e2 p.1 e4 e5 p.2 = tab e1 e2 p e4 e5)) = true := by decide +kernel

theorem row_tab {e1 e2 e4 e5 : ℕ} {p : ℕ × ℕ} (h1 : e1 ∈ List.range 3) (h2 : e2 ∈ List.range 2) (hp : p ∈ P36)
    (h4 : e4 ∈ List.range 3) (h5 : e5 ∈ List.range 3) : row e1 e2 p.1 e4 e5 p.2 = tab e1 e2 p e4 e5 := by
  have h := tab_ok
  simp only [List.all_eq_true, decide_eq_true_eq] at h
  exact h e1 h1 e2 h2 p hp e4 h4 e5 h5

theorem crit1_range : ∀ x ∈ crit1, x.1 ∈ List.range 3 ∧ x.2.2.1 ∈ List.range 3 := by decide +kernel
theorem crit2_range : ∀ x ∈ crit2, x.1 ∈ List.range 2 ∧ x.2.2.1 ∈ List.range 2 := by decide +kernel
theorem crit4_range : ∀ x ∈ crit4, x.1 ∈ List.range 3 ∧ x.2.2.1 ∈ List.range 3 := by decide +kernel
theorem crit36_range : ∀ x ∈ crit36, x.1 ∈ P36 ∧ x.2.2.1 ∈ P36 := by decide +kernel

theorem all1 : (crit1.all fun x => (List.range 2).all fun e2 => P36.all fun p => (List.range 3).all fun e4 =>
    (List.range 3).all fun e5 => ge1 (tab x.1 e2 p e4 e5) (tab x.2.2.1 e2 p e4 e5) x.2.1 x.2.2.2 (dmax2 e2)
      (dmax36 p.1 p.2) (dmax4 e4)) = true := by decide +kernel

theorem all2 : (crit2.all fun x => (List.range 3).all fun e1 => P36.all fun p => (List.range 3).all fun e4 =>
    (List.range 3).all fun e5 => ge2 (tab e1 x.1 p e4 e5) (tab e1 x.2.2.1 p e4 e5) x.2.1 x.2.2.2 (dmax1 e1)
      (dmax36 p.1 p.2) (dmax4 e4)) = true := by decide +kernel

theorem all4 : (crit4.all fun x => (List.range 3).all fun e1 => (List.range 2).all fun e2 => P36.all fun p =>
    (List.range 3).all fun e5 => ge4 (tab e1 e2 p x.1 e5) (tab e1 e2 p x.2.2.1 e5) x.2.1 x.2.2.2 (dmax1 e1)
      (dmax2 e2) (dmax36 p.1 p.2)) = true := by decide +kernel

theorem all36 : (crit36.all fun x => (List.range 3).all fun e1 => (List.range 2).all fun e2 =>
    (List.range 3).all fun e4 => (List.range 3).all fun e5 =>
    ge36 (tab e1 e2 x.1 e4 e5) (tab e1 e2 x.2.2.1 e4 e5) x.2.1 x.2.2.2 (dmax1 e1) (dmax2 e2) (dmax4 e4)) = true := by
  decide +kernel

theorem all5 : ([(0, 1), (0, 2), (1, 2)].all fun x => (List.range 3).all fun e1 => (List.range 2).all fun e2 =>
    P36.all fun p => (List.range 3).all fun e4 =>
    ge5 (tab e1 e2 p e4 x.1) (tab e1 e2 p e4 x.2) (dmax1 e1) (dmax2 e2) (dmax36 p.1 p.2) (dmax4 e4)) = true := by
  decide +kernel

theorem check1 : ∀ x ∈ crit1, ∀ e2 ∈ List.range 2, ∀ p ∈ P36, ∀ e4 ∈ List.range 3, ∀ e5 ∈ List.range 3,
    ge1 (row x.1 e2 p.1 e4 e5 p.2) (row x.2.2.1 e2 p.1 e4 e5 p.2) x.2.1 x.2.2.2 (dmax2 e2) (dmax36 p.1 p.2)
      (dmax4 e4) = true := by
  intro x hx e2 h2 p hp e4 h4 e5 h5
  have h := all1
  simp only [List.all_eq_true] at h
  rw [row_tab (crit1_range x hx).1 h2 hp h4 h5, row_tab (crit1_range x hx).2 h2 hp h4 h5]
  exact h x hx e2 h2 p hp e4 h4 e5 h5

theorem check2 : ∀ x ∈ crit2, ∀ e1 ∈ List.range 3, ∀ p ∈ P36, ∀ e4 ∈ List.range 3, ∀ e5 ∈ List.range 3,
    ge2 (row e1 x.1 p.1 e4 e5 p.2) (row e1 x.2.2.1 p.1 e4 e5 p.2) x.2.1 x.2.2.2 (dmax1 e1) (dmax36 p.1 p.2)
      (dmax4 e4) = true := by
  intro x hx e1 h1 p hp e4 h4 e5 h5
  have h := all2
  simp only [List.all_eq_true] at h
  rw [row_tab h1 (crit2_range x hx).1 hp h4 h5, row_tab h1 (crit2_range x hx).2 hp h4 h5]
  exact h x hx e1 h1 p hp e4 h4 e5 h5

theorem check4 : ∀ x ∈ crit4, ∀ e1 ∈ List.range 3, ∀ e2 ∈ List.range 2, ∀ p ∈ P36, ∀ e5 ∈ List.range 3,
    ge4 (row e1 e2 p.1 x.1 e5 p.2) (row e1 e2 p.1 x.2.2.1 e5 p.2) x.2.1 x.2.2.2 (dmax1 e1) (dmax2 e2)
      (dmax36 p.1 p.2) = true := by
  intro x hx e1 h1 e2 h2 p hp e5 h5
  have h := all4
  simp only [List.all_eq_true] at h
  rw [row_tab h1 h2 hp (crit4_range x hx).1 h5, row_tab h1 h2 hp (crit4_range x hx).2 h5]
  exact h x hx e1 h1 e2 h2 p hp e5 h5

theorem check36 : ∀ x ∈ crit36, ∀ e1 ∈ List.range 3, ∀ e2 ∈ List.range 2, ∀ e4 ∈ List.range 3, ∀ e5 ∈ List.range 3,
    ge36 (row e1 e2 x.1.1 e4 e5 x.1.2) (row e1 e2 x.2.2.1.1 e4 e5 x.2.2.1.2) x.2.1 x.2.2.2 (dmax1 e1) (dmax2 e2)
      (dmax4 e4) = true := by
  intro x hx e1 h1 e2 h2 e4 h4 e5 h5
  have h := all36
  simp only [List.all_eq_true] at h
  rw [row_tab h1 h2 (crit36_range x hx).1 h4 h5, row_tab h1 h2 (crit36_range x hx).2 h4 h5]
  exact h x hx e1 h1 e2 h2 e4 h4 e5 h5

theorem check5 : ∀ x ∈ [(0, 1), (0, 2), (1, 2)], ∀ e1 ∈ List.range 3, ∀ e2 ∈ List.range 2, ∀ p ∈ P36,
    ∀ e4 ∈ List.range 3,
    ge5 (row e1 e2 p.1 e4 x.1 p.2) (row e1 e2 p.1 e4 x.2 p.2) (dmax1 e1) (dmax2 e2) (dmax36 p.1 p.2)
      (dmax4 e4) = true := by
  intro x hx e1 h1 e2 h2 p hp e4 h4
  have h := all5
  simp only [List.all_eq_true] at h
  have hr : x.1 ∈ List.range 3 ∧ x.2 ∈ List.range 3 := by
    rcases List.mem_cons.mp hx with rfl | hx
    · decide
    rcases List.mem_cons.mp hx with rfl | hx
    · decide
    rcases List.mem_cons.mp hx with rfl | hx
    · decide
    · cases hx
  rw [row_tab h1 h2 hp h4 hr.1, row_tab h1 h2 hp h4 hr.2]
  exact h x hx e1 h1 e2 h2 p hp e4 h4

theorem allPos : ((List.range 3).all fun e1 => (List.range 2).all fun e2 => P36.all fun p =>
    (List.range 3).all fun e4 => (List.range 3).all fun e5 =>
    decide (0 ≤ (tab e1 e2 p e4 e5).k1 ∧ 0 ≤ (tab e1 e2 p e4 e5).k2 ∧ 0 ≤ (tab e1 e2 p e4 e5).k36 ∧
    0 ≤ (tab e1 e2 p e4 e5).k4)) = true := by decide +kernel

/-- The coefficients are not negative. -/
theorem checkPos : ∀ e1 ∈ List.range 3, ∀ e2 ∈ List.range 2, ∀ p ∈ P36, ∀ e4 ∈ List.range 3, ∀ e5 ∈ List.range 3,
    0 ≤ (row e1 e2 p.1 e4 e5 p.2).k1 ∧ 0 ≤ (row e1 e2 p.1 e4 e5 p.2).k2 ∧ 0 ≤ (row e1 e2 p.1 e4 e5 p.2).k36 ∧
    0 ≤ (row e1 e2 p.1 e4 e5 p.2).k4 := by
  intro e1 h1 e2 h2 p hp e4 h4 e5 h5
  have h := allPos
  simp only [List.all_eq_true, decide_eq_true_eq] at h
  rw [row_tab h1 h2 hp h4 h5]
  exact h e1 h1 e2 h2 p hp e4 h4 e5 h5

end Verif.Cvss.V4
