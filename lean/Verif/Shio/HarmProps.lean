import Verif.Shio.HarmModel
import Mathlib.Analysis.SpecialFunctions.Trigonometric.Bounds
import Mathlib.Analysis.Real.Pi.Bounds
import Mathlib.Algebra.Order.BigOperators.Group.List
import Mathlib.Tactic.Linarith
import Mathlib.Tactic.NormNum
import Mathlib.Tactic.FieldSimp
import Mathlib.Tactic.Ring

/-!
# C338: tides are the sum of their constituents
-/
namespace Verif.Shio.Harm

open Real

/-! ## Specification -/

/-- The sum of the constituents: amplitudes and phases of the station, corrected for the year. -/
noncomputable def tide (t : ℝ) (cs : List Con) : ℝ :=
  ((freq.zip cs).map fun p => p.2.h * p.2.x * cos ((p.1 * t + p.2.v - p.2.k) * (π / 180))).sum

/-- The sum of the amplitudes of the constituents that have a speed -/
noncomputable def amplitudes (cs : List Con) : ℝ := ((freq.zip cs).map fun p => |p.2.h * p.2.x|).sum

/-- Degrees per hour: of the sun's hour angle, and of the mean longitudes of the moon, the sun, the moon's perigee and the sun's perigee
(Doodson's variables, with the hour angle of the sun instead of that of the moon). -/
def astro : ℚ × ℚ × ℚ × ℚ × ℚ := (15, 0.54901653, 0.04106864, 0.00464183, 0.00000196)

/-- The speed of a constituent with these numbers -/
def speed (n : Int × Int × Int × Int × Int) : ℚ :=
  n.1 * astro.1 + n.2.1 * astro.2.1 + n.2.2.1 * astro.2.2.1 + n.2.2.2.1 * astro.2.2.2.1 + n.2.2.2.2 * astro.2.2.2.2

/-- The numbers of the 114 constituents, in the order M2, S2, N2, K1, M4, O1, … of the year files. -/
def numbers : List (Int × Int × Int × Int × Int) :=
  [(2, -2, 2, 0, 0), (2, 0, 0, 0, 0), (2, -3, 2, 1, 0), (1, 0, 1, 0, 0), (4, -4, 4, 0, 0), (1, -2, 1, 0, 0),
   (6, -6, 6, 0, 0), (3, -2, 3, 0, 0), (4, 0, 0, 0, 0), (4, -5, 4, 1, 0), (2, -3, 4, -1, 0), (6, 0, 0, 0, 0),
   (2, -4, 4, 0, 0), (2, -4, 2, 2, 0), (1, 2, 1, 0, 0), (2, -1, 0, 1, 0), (1, 0, 0, 0, 0), (1, -1, 1, 1, 0),
   (1, 1, 1, -1, 0), (0, 1, 0, -1, 0), (0, 0, 2, 0, 0), (0, 0, 1, 0, 0), (0, 2, -2, 0, 0), (0, 2, 0, 0, 0),
   (1, -3, 3, -1, 0), (1, -3, 1, 1, 0), (2, 0, -1, 0, 1), (2, 0, 1, 0, -1), (1, -4, 1, 2, 0), (1, 0, -1, 0, 0),
   (2, 2, -2, 0, 0), (3, -3, 3, 0, 0), (2, -1, 2, -1, 0), (3, -4, 3, 0, 0), (2, 0, 2, 0, 0), (8, -8, 8, 0, 0),
   (4, -2, 2, 0, 0), (1, -4, 3, 0, 0), (1, -2, 3, 0, 0), (1, -1, 3, -1, 0), (1, 2, -3, 0, 0), (1, 2, -1, 0, 0),
   (2, 1, 0, -1, 0), (2, -5, 4, 1, 0), (2, -2, 0, 0, 0), (2, -2, 4, 0, 0), (2, -6, 4, 2, 0), (2, -6, 6, 0, 0),
   (2, -5, 6, -1, 0), (2, 2, 0, 0, 0), (2, -4, 0, 0, 0), (2, -3, 6, -1, 0), (2, -2, 6, 0, 0), (2, -1, -2, 1, 0),
   (2, 1, 4, -1, 0), (3, -2, 1, 0, 0), (3, 0, 1, 0, 0), (3, -5, 3, 1, 0), (4, -2, 4, 0, 0), (4, -3, 2, 1, 0),
   (4, -5, 6, -1, 0), (4, -6, 6, 0, 0), (4, -3, 4, -1, 0), (4, -6, 4, 2, 0), (4, -1, 2, -1, 0), (5, -7, 5, 1, 0),
   (5, -6, 5, 0, 0), (5, -4, 5, 0, 0), (5, -2, 3, 0, 0), (5, -2, 5, 0, 0), (5, -4, 3, 0, 0), (5, -6, 7, 0, 0),
   (5, -5, 5, 1, 0), (6, -2, 2, 0, 0), (6, -7, 6, 1, 0), (6, -5, 4, 1, 0), (6, -4, 4, 0, 0), (6, -9, 8, 1, 0),
   (6, -8, 6, 2, 0), (6, -3, 4, -1, 0), (6, -5, 6, -1, 0), (6, -2, 4, 0, 0), (6, -8, 8, 0, 0), (6, -7, 8, -1, 0),
   (6, -4, 6, 0, 0), (7, -9, 7, 1, 0), (7, -8, 7, 2, 0), (7, -6, 5, 0, 0), (7, -4, 5, 0, 0), (8, -7, 6, 1, 0),
   (8, -6, 6, 0, 0), (8, -4, 4, 0, 0), (8, -10, 8, 2, 0), (8, -9, 8, 1, 0), (8, -5, 6, -1, 0), (8, -9, 10, -1, 0),
   (8, -7, 8, -1, 0), (8, -6, 8, 0, 0), (8, -4, 6, 0, 0), (9, -10, 9, 2, 0), (9, -9, 9, 1, 0), (9, -8, 9, 0, 0),
   (9, -6, 7, 0, 0), (10, -11, 10, 1, 0), (10, -10, 10, 0, 0), (10, -9, 8, 1, 0), (10, -8, 8, 0, 0), (10, -7, 8, -1, 0),
   (10, -6, 6, 0, 0), (11, -8, 9, 0, 0), (12, -11, 10, 1, 0), (12, -10, 10, 0, 0), (12, -9, 10, -1, 0), (12, -8, 8, 0, 0)]

/-! ## Proofs -/

/-- C338: the speeds are those of the constituents, to two tenths of a millionth of a degree per hour. -/
theorem C338_speeds : List.Forall₂ (fun f n => |f - speed n| ≤ 2 / 10 ^ 7) freq numbers := by
  decide +kernel

theorem trunc_bounds (x : ℝ) : |x - trunc x| ≤ 1 := by
  unfold trunc
  split
  · have := Int.floor_le x
    have := Int.lt_floor_add_one x
    rw [abs_le]
    constructor <;> linarith
  · have := Int.le_ceil x
    have := Int.ceil_lt_add_one x
    rw [abs_le]
    constructor <;> linarith

theorem fmod_bounds (d : ℝ) : |fmod d| ≤ 360 := by
  have h := trunc_bounds (d / 360)
  have e : fmod d = 360 * (d / 360 - trunc (d / 360)) := by
    unfold fmod
    ring
  rw [e, abs_mul, abs_of_pos (by norm_num : (0 : ℝ) < 360)]
  linarith

theorem cos_fmod (d : ℝ) : cos (d * (π / 180)) = cos (fmod d * (π / 180)) := by
  have e : d * (π / 180) = fmod d * (π / 180) + (trunc (d / 360) : ℝ) * (2 * π) := by
    unfold fmod
    ring
  rw [e, cos_add_int_mul_two_pi]

theorem cos_near (d : ℝ) : |cos (fmod d * degToRad) - cos (d * (π / 180))| ≤ 21 / 10 ^ 12 := by
  rw [cos_fmod]
  refine (abs_cos_sub_cos_le _ _).trans ?_
  rw [← mul_sub, abs_mul]
  have h1 := fmod_bounds d
  have h2 : |degToRad - π / 180| ≤ 21 / 10 ^ 12 / 360 := by
    have := pi_gt_d20
    have := pi_lt_d20
    unfold degToRad
    rw [abs_le]
    constructor <;> norm_num <;> linarith
  calc |fmod d| * |degToRad - π / 180| ≤ 360 * (21 / 10 ^ 12 / 360) :=
        mul_le_mul h1 h2 (abs_nonneg _) (by norm_num)
    _ = 21 / 10 ^ 12 := by norm_num

theorem term_near (t : ℝ) (p : ℚ × Con) :
    |term t p - p.2.h * p.2.x * cos ((p.1 * t + p.2.v - p.2.k) * (π / 180))| ≤ 21 / 10 ^ 12 * |p.2.h * p.2.x| := by
  unfold term Con.amp Con.epoch
  rw [← add_sub_assoc]
  split
  · rw [← mul_sub, abs_mul, mul_comm]
    exact mul_le_mul_of_nonneg_right (cos_near _) (abs_nonneg _)
  · rename_i h
    rw [not_not] at h
    rw [h]
    simp

theorem sum_near (t : ℝ) (l : List (ℚ × Con)) :
    |(l.map (term t)).sum - (l.map fun p => p.2.h * p.2.x * cos ((p.1 * t + p.2.v - p.2.k) * (π / 180))).sum| ≤
      21 / 10 ^ 12 * (l.map fun p => |p.2.h * p.2.x|).sum := by
  induction l with
  | nil => simp
  | cons p l ih =>
    simp only [List.map_cons, List.sum_cons]
    rw [mul_add, add_sub_add_comm]
    exact (abs_add_le _ _).trans (add_le_add (term_near t p) ih)

theorem total_near (t : ℝ) (cs : List Con) : |total t cs - tide t cs| ≤ 21 / 10 ^ 12 * amplitudes cs := sum_near t _

theorem take_min (cs : List Con) : freq.zip (cs.take (min (max cs.length 37) 114)) = freq.zip cs := by
  have h : freq.length = 114 := by decide +kernel
  by_cases hc : cs.length ≤ 114
  · rw [List.take_of_length_le]
    omega
  · have : min (max cs.length 37) 114 = 114 := by omega
    rw [this]
    conv_lhs => rw [← List.take_of_length_le (l := freq) (i := 114) (by omega)]
    unfold List.zip
    rw [← List.take_zipWith, List.take_of_length_le]
    simp only [List.length_zipWith]
    omega

/-- C338: the height of a station is its datum and the sum of its constituents. -/
theorem C338_height (datum : ℝ) (cs : List Con) (t : ℝ) :
    |height datum cs t - (datum + tide t cs)| ≤ 21 / 10 ^ 12 * amplitudes cs := by
  have h := total_near t cs
  unfold height total
  rw [take_min]
  unfold total at h
  have e : ∀ a b c : ℝ, a + b - (b + c) = a - c := by intros; ring
  rw [e]
  exact h

/-- C338: the current of a station that is not hydraulic -/
theorem C338_current (ref : ℝ) (cs : List Con) (t : ℝ) :
    |current false ref cs t - (ref + tide t cs)| ≤ 21 / 10 ^ 12 * amplitudes cs := by
  have h := total_near t cs
  unfold current
  rw [add_sub_add_left_eq_sub]
  exact h

theorem root_sq (c : ℝ) : root c * |root c| = c := by
  unfold root
  split
  · rename_i h
    rw [abs_of_nonneg (sqrt_nonneg c), mul_self_sqrt h.le]
  · split
    · rename_i _ h
      rw [abs_neg, abs_of_nonneg (sqrt_nonneg _), neg_mul, mul_self_sqrt (by linarith)]
      ring
    · have : c = 0 := by linarith
      rw [this]
      simp

/-- C338: the current of a hydraulic station has the direction of the sum of its constituents, which is the square of its speed. -/
theorem C338_hydraulic (ref : ℝ) (cs : List Con) (t : ℝ) :
    |(current true ref cs t - ref) * |current true ref cs t - ref| - tide t cs| ≤ 21 / 10 ^ 12 * amplitudes cs := by
  have e : current true ref cs t - ref = root (total t cs) := by
    unfold current
    simp
  rw [e, root_sq]
  exact total_near t cs

theorem sum_range (t : ℝ) (l : List (ℚ × Con)) : |(l.map (term t)).sum| ≤ (l.map fun p => |p.2.h * p.2.x|).sum := by
  induction l with
  | nil => simp
  | cons p l ih =>
    simp only [List.map_cons, List.sum_cons]
    refine (abs_add_le _ _).trans (add_le_add ?_ ih)
    unfold term Con.amp
    split
    · rw [abs_mul]
      exact mul_le_of_le_one_right (abs_nonneg _) (abs_cos_le_one _)
    · rw [abs_zero]
      exact abs_nonneg _

/-- C338: the water is never further from the datum than the amplitudes together. -/
theorem C338_range (datum : ℝ) (cs : List Con) (t : ℝ) : |height datum cs t - datum| ≤ amplitudes cs := by
  unfold height total amplitudes
  rw [take_min, add_sub_cancel_right]
  exact sum_range t _

/-- C338: nor is the current, of a hydraulic station its square. -/
theorem C338_strongest (ref : ℝ) (cs : List Con) (t : ℝ) :
    |current false ref cs t - ref| ≤ amplitudes cs ∧ |current true ref cs t - ref| ≤ sqrt (amplitudes cs) := by
  have h : |total t cs| ≤ amplitudes cs := sum_range t _
  constructor
  · unfold current
    simpa using h
  · have e : current true ref cs t - ref = root (total t cs) := by
      unfold current
      simp
    rw [e]
    apply le_sqrt_of_sq_le
    have := root_sq (total t cs)
    have h2 : |root (total t cs)| ^ 2 = |total t cs| := by
      conv_rhs => rw [← this]
      rw [abs_mul, abs_abs]
      ring
    rw [h2]
    exact h

/-! ## Cases that meet the hypotheses -/

/-- One constituent, M2, of a metre, at its high water: hour 0 with no phase. -/
example : tide 0 [⟨1, 0, 1, 0⟩] = 1 ∧ amplitudes [⟨1, 0, 1, 0⟩] = 1 := by
  simp [tide, amplitudes, freq]

/-- At a third of its period a constituent of 30 degrees per hour (S2) is at minus half of its amplitude. -/
example : tide 4 [⟨0, 0, 1, 0⟩, ⟨2, 0, 1, 0⟩] = -1 := by
  have h : cos (2 * π / 3) = -(1 / 2) := by
    rw [show 2 * π / 3 = π - π / 3 by ring, cos_pi_sub, cos_pi_div_three]
  simp only [tide, freq, List.zip_cons_cons, List.zip_nil_right, List.map_cons, List.map_nil, List.sum_cons, List.sum_nil]
  have e : ((30.0000000 : ℚ) : ℝ) = 30 := by norm_num
  rw [e, show ((30 : ℝ) * 4 + 0 - 0) * (π / 180) = 2 * π / 3 by ring, h]
  norm_num

end Verif.Shio.Harm
