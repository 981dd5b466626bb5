import Verif.Mover.MoveModel
import Mathlib.Analysis.SpecialFunctions.Integrals.Basic
import Mathlib.Analysis.Real.Pi.Bounds
import Mathlib.Tactic.Ring
import Mathlib.Tactic.Linarith
import Mathlib.Tactic.NormNum
import Mathlib.Tactic.Positivity
import Mathlib.Tactic.FieldSimp

/-!
# C101: diffusion

The numbers of `Random_c` (`lib_gnome/Random_c.cpp` 167-175): on the first step a point of the unit disc, otherwise a point of the
square from −1 to 1 (`lib_gnome/CompFunctions.cpp` 161-179), uniformly.
-/

namespace Verif.Mover
open intervalIntegral

/-- Mean over the square. -/
noncomputable def meanSquare (g : ℝ → ℝ → ℝ) : ℝ := (1 / 4) * ∫ y in (-1 : ℝ)..1, ∫ x in (-1 : ℝ)..1, g x y

/-- Mean over the disc: the points of the square with `x² + y² ≤ 1`, which are kept. -/
noncomputable def meanDisc (g : ℝ → ℝ → ℝ) : ℝ := (1 / Real.pi) * ∫ y in (-1 : ℝ)..1, ∫ x in (-√(1 - y ^ 2))..√(1 - y ^ 2), g x y

/-- Mean over the numbers of a step (167-175). -/
noncomputable def meanDraw (first : Bool) (g : ℝ → ℝ → ℝ) : ℝ := if first then meanDisc g else meanSquare g

/-- What an element of the surface in the water moves north and east, in metres: degrees times the metres in a degree there. -/
noncomputable def north (coef factor dt : ℝ) (e : LE) (x y : ℝ) : ℝ := (randomRow true coef factor dt x y e).2.1 * metresPerDegree

noncomputable def east (coef factor dt : ℝ) (e : LE) (x y : ℝ) : ℝ :=
  (randomRow true coef factor dt x y e).1 * (metresPerDegree * ratio e.pos)

/-- The claim: in every step, the mean square of the move along each axis is twice the coefficient (in m²/s) times the step, times the
factor for uncertain elements. -/
def C101_claim : Prop := ∀ (first : Bool) (coef factor dt : ℝ) (e : LE), 0 ≤ coef → 0 ≤ factor → e.status = 2 → e.pos.2.2 ≤ 0 →
  ratio e.pos ≠ 0 →
  meanDraw first (fun x y => north coef factor dt e x y ^ 2) = 2 * (coef / 10000) * |dt| * factor ∧
  meanDraw first (fun x y => east coef factor dt e x y ^ 2) = 2 * (coef / 10000) * |dt| * factor

theorem metres_pos : 0 < metresPerDegree := by norm_num [metresPerDegree]

theorem north_eq (coef factor dt : ℝ) (e : LE) (hs : e.status = 2) (hz : e.pos.2.2 ≤ 0) (x y : ℝ) :
    north coef factor dt e x y = y * √(factor * 6 * (coef / 10000) * |dt|) := by
  have h : inWater e := hs
  have := metres_pos.ne'
  simp only [north, randomRow, h, if_true, if_neg (not_lt.mpr hz)]
  field_simp

theorem east_eq (coef factor dt : ℝ) (e : LE) (hs : e.status = 2) (hz : e.pos.2.2 ≤ 0) (hr : ratio e.pos ≠ 0) (x y : ℝ) :
    east coef factor dt e x y = x * √(factor * 6 * (coef / 10000) * |dt|) := by
  have h : inWater e := hs
  have := metres_pos.ne'
  simp only [east, randomRow, h, if_true, if_neg (not_lt.mpr hz)]
  field_simp

/-- **C101** for every step but the first: along both axes the mean square is `2 D |dt|`, forward and backward. -/
theorem C101_variance_partial (coef factor dt : ℝ) (e : LE) (hc : 0 ≤ coef) (hf : 0 ≤ factor) (hs : e.status = 2) (hz : e.pos.2.2 ≤ 0)
    (hr : ratio e.pos ≠ 0) :
    meanDraw false (fun x y => north coef factor dt e x y ^ 2) = 2 * (coef / 10000) * |dt| * factor ∧
    meanDraw false (fun x y => east coef factor dt e x y ^ 2) = 2 * (coef / 10000) * |dt| * factor := by
  have hq : √(factor * 6 * (coef / 10000) * |dt|) ^ 2 = factor * 6 * (coef / 10000) * |dt| := Real.sq_sqrt (by positivity)
  have i2 : ∫ x in (-1 : ℝ)..1, x ^ 2 = 2 / 3 := by rw [integral_pow]; norm_num
  simp only [meanDraw, Bool.false_eq_true, if_false, meanSquare, north_eq coef factor dt e hs hz, east_eq coef factor dt e hs hz hr, mul_pow, hq]
  constructor
  · simp only [integral_const, smul_eq_mul, integral_const_mul, integral_mul_const, i2]
    ring
  · simp only [integral_const, smul_eq_mul, integral_mul_const, i2]
    ring

/-- The means of the moves are zero: diffusion does not drift. -/
theorem C101_mean (coef factor dt : ℝ) (e : LE) (hs : e.status = 2) (hz : e.pos.2.2 ≤ 0) (hr : ratio e.pos ≠ 0) (first : Bool) :
    meanDraw first (fun x y => north coef factor dt e x y) = 0 ∧ (first = false → meanDraw first (fun x y => east coef factor dt e x y) = 0) := by
  have i1 : ∫ x in (-1 : ℝ)..1, x = 0 := by rw [integral_id]; norm_num
  simp only [north_eq coef factor dt e hs hz, east_eq coef factor dt e hs hz hr]
  constructor
  · cases first with
    | false =>
      simp only [meanDraw, Bool.false_eq_true, if_false, meanSquare, integral_const, smul_eq_mul, integral_const_mul, integral_mul_const, i1]
      ring
    | true =>
      simp only [meanDraw, if_true, meanDisc, integral_const, smul_eq_mul]
      have hodd : ∫ y in (-1 : ℝ)..1, (√(1 - y ^ 2) - -√(1 - y ^ 2)) * (y * √(factor * 6 * (coef / 10000) * |dt|)) = 0 := by
        have h := integral_comp_neg (a := -1) (b := 1)
          (fun y : ℝ => (√(1 - y ^ 2) - -√(1 - y ^ 2)) * (y * √(factor * 6 * (coef / 10000) * |dt|)))
        simp only [neg_neg, neg_sq] at h
        have h2 : ∫ y in (-1 : ℝ)..1, (√(1 - y ^ 2) - -√(1 - y ^ 2)) * (-y * √(factor * 6 * (coef / 10000) * |dt|)) =
            -∫ y in (-1 : ℝ)..1, (√(1 - y ^ 2) - -√(1 - y ^ 2)) * (y * √(factor * 6 * (coef / 10000) * |dt|)) := by
          rw [← integral_neg]
          congr 1
          ext y
          ring
        rw [h2] at h
        linarith
      rw [hodd, mul_zero]
  · rintro rfl
    simp only [meanDraw, Bool.false_eq_true, if_false, meanSquare, integral_const, smul_eq_mul, integral_mul_const, i1]
    ring

/-- The second moment of the disc: `∫ y² √(1 − y²) = π / 8`, by `y = sin θ`. -/
theorem disc_moment : ∫ y in (-1 : ℝ)..1, y ^ 2 * √(1 - y ^ 2) = Real.pi / 8 := by
  have hsub : ∫ θ in (-(Real.pi / 2))..(Real.pi / 2), (fun y : ℝ => y ^ 2 * √(1 - y ^ 2)) (Real.sin θ) * Real.cos θ =
      ∫ y in Real.sin (-(Real.pi / 2))..Real.sin (Real.pi / 2), y ^ 2 * √(1 - y ^ 2) :=
    integral_comp_mul_deriv (g := fun y : ℝ => y ^ 2 * √(1 - y ^ 2)) (fun θ _ => Real.hasDerivAt_sin θ)
      Real.continuous_cos.continuousOn (by fun_prop)
  rw [Real.sin_neg, Real.sin_pi_div_two] at hsub
  rw [← hsub]
  have hcongr : ∫ θ in (-(Real.pi / 2))..(Real.pi / 2), (fun y : ℝ => y ^ 2 * √(1 - y ^ 2)) (Real.sin θ) * Real.cos θ =
      ∫ θ in (-(Real.pi / 2))..(Real.pi / 2), Real.sin θ ^ 2 * Real.cos θ ^ 2 := by
    apply integral_congr
    intro θ hθ
    rw [Set.uIcc_of_le (by linarith [Real.pi_pos])] at hθ
    have hc : 0 ≤ Real.cos θ := Real.cos_nonneg_of_mem_Icc hθ
    have : 1 - Real.sin θ ^ 2 = Real.cos θ ^ 2 := by rw [Real.cos_sq']
    simp only [this, Real.sqrt_sq hc]
    ring
  rw [hcongr, integral_sin_sq_mul_cos_sq]
  have e1 : Real.sin (4 * (Real.pi / 2)) = 0 := by rw [show 4 * (Real.pi / 2) = 2 * Real.pi by ring, Real.sin_two_pi]
  have e2 : Real.sin (4 * -(Real.pi / 2)) = 0 := by
    rw [show 4 * -(Real.pi / 2) = -(2 * Real.pi) by ring, Real.sin_neg, Real.sin_two_pi, neg_zero]
  rw [e1, e2]
  ring

/-- In the first step the mean square is a quarter less: `3/2 D |dt|`. -/
theorem C101_first_step (coef factor dt : ℝ) (e : LE) (hc : 0 ≤ coef) (hf : 0 ≤ factor) (hs : e.status = 2) (hz : e.pos.2.2 ≤ 0) :
    meanDraw true (fun x y => north coef factor dt e x y ^ 2) = 3 / 2 * (coef / 10000) * |dt| * factor := by
  have hq : √(factor * 6 * (coef / 10000) * |dt|) ^ 2 = factor * 6 * (coef / 10000) * |dt| := Real.sq_sqrt (by positivity)
  simp only [meanDraw, if_true, meanDisc, north_eq coef factor dt e hs hz, mul_pow, hq, integral_const, smul_eq_mul]
  have : ∫ y in (-1 : ℝ)..1, (√(1 - y ^ 2) - -√(1 - y ^ 2)) * (y ^ 2 * (factor * 6 * (coef / 10000) * |dt|)) =
      (2 * (factor * 6 * (coef / 10000) * |dt|)) * ∫ y in (-1 : ℝ)..1, y ^ 2 * √(1 - y ^ 2) := by
    rw [← integral_const_mul]
    congr 1
    ext y
    ring
  rw [this, disc_moment]
  have := Real.pi_ne_zero
  field_simp
  ring

/-- **C101** fails in the first step of a run. -/
theorem C101_counterexample : ¬ C101_claim := by
  intro h
  have hr : ratio (0, 0, 0) ≠ 0 := by simp [ratio]
  have h1 := (h true 100000 1 900 ⟨(0, 0, 0), 2, 0, 0⟩ (by norm_num) (by norm_num) rfl le_rfl hr).1
  rw [C101_first_step 100000 1 900 ⟨(0, 0, 0), 2, 0, 0⟩ (by norm_num) (by norm_num) rfl le_rfl] at h1
  norm_num at h1

/-- **C101**, independence of the step: over a given time the sum of the mean squares of equal steps does not depend on how many. -/
theorem C101_steps (coef factor T : ℝ) (n : Nat) (hn : 0 < n) (e : LE) (hc : 0 ≤ coef) (hf : 0 ≤ factor) (hs : e.status = 2)
    (hz : e.pos.2.2 ≤ 0) (hr : ratio e.pos ≠ 0) :
    ((List.replicate n (T / n)).map fun dt => meanDraw false (fun x y => north coef factor dt e x y ^ 2)).sum =
      meanDraw false (fun x y => north coef factor T e x y ^ 2) := by
  have hn' : (0 : ℝ) < n := by exact_mod_cast hn
  simp only [List.map_replicate, List.sum_replicate, (C101_variance_partial coef factor _ e hc hf hs hz hr).1, nsmul_eq_mul, abs_div,
    abs_of_pos hn']
  field_simp

/-- No element below the surface is diffused by this mover. -/
theorem C101_surface_only (active : Bool) (coef factor dt r1 r2 : ℝ) (e : LE) (h : 0 < e.pos.2.2) :
    randomRow active coef factor dt r1 r2 e = (0, 0, 0) := by
  simp only [randomRow, if_pos h]
  split_ifs <;> rfl

/-- No element moves farther along an axis than the root of six times coefficient and step. -/
theorem C101_bounded (coef factor dt : ℝ) (e : LE) (hs : e.status = 2) (hz : e.pos.2.2 ≤ 0) (x y : ℝ) (hy : |y| ≤ 1) :
    |north coef factor dt e x y| ≤ √(factor * 6 * (coef / 10000) * |dt|) := by
  rw [north_eq coef factor dt e hs hz, abs_mul, abs_of_nonneg (Real.sqrt_nonneg _)]
  exact mul_le_of_le_one_left (Real.sqrt_nonneg _) hy

/-- The defaults: 100000 cm²/s, a step of 15 minutes: 18000 m². -/
example : meanDraw false (fun x y => north 100000 1 900 ⟨(0, 60, 0), 2, 0, 0⟩ x y ^ 2) = 18000 := by
  have hr : ratio (0, 60, 0) ≠ 0 := by
    unfold ratio
    apply ne_of_gt
    apply Real.cos_pos_of_mem_Ioo
    constructor
    · have := Real.pi_pos; norm_num; linarith
    · have := Real.pi_gt_three; norm_num; linarith
  rw [(C101_variance_partial 100000 1 900 ⟨(0, 60, 0), 2, 0, 0⟩ (by norm_num) (by norm_num) rfl le_rfl hr).1]
  norm_num

end Verif.Mover
