import Verif.Mover.SteadyProps
import Verif.Cats.Model
import Mathlib.Analysis.SpecialFunctions.Trigonometric.Bounds
import Mathlib.Analysis.Real.Pi.Bounds
import Mathlib.Tactic.NormNum
import Mathlib.Tactic.FieldSimp

/-!
# Movers in Python and movers of the library move alike

`Verif.Mover.MoveModel` has both wind movers, `Verif.Cats.Model` the movers with current patterns; here what they do to the same element in the
same wind or current is compared. The Python movers have 8.9992801e-06 degrees to the metre and take the cosine of the latitude; the library has
111120.00024 metres to the degree (`lib_gnome/Units.h` 7) and takes 3.14159 for π (`lib_gnome/GEOMETRY.cpp` 66-71).
-/
namespace Verif.Mover
open Verif.Integ Verif.TimeUtil

/-- Two displacements in degrees that agree: to two hundred-thousandths east, one hundred-millionth north, and in depth. -/
def Alike (a b : V) : Prop :=
  |a.1 - b.1| ≤ 2 / 10 ^ 5 * |b.1| ∧ |a.2.1 - b.2.1| ≤ 1 / 10 ^ 8 * |b.2.1| ∧ a.2.2 = b.2.2

/-- What the library makes of a velocity at a latitude (`WindMover_c.cpp` 612-613, `CATSMover_c.cpp` 400-401). -/
noncomputable def libMove (u v dt lat : ℝ) : V :=
  (u / metresPerDegree * dt / Real.cos (lat * (314159 / 100000) / 180), v / metresPerDegree * dt, 0)

private theorem cos_low (lat : ℝ) (h : |lat| ≤ 80) : 1 / 9 ≤ Real.cos (lat * (Real.pi / 180)) := by
  have hp := Real.pi_pos
  rw [← Real.cos_abs, abs_mul, abs_of_pos (show 0 < Real.pi / 180 by positivity)]
  have h1 : |lat| * (Real.pi / 180) ≤ 80 * (Real.pi / 180) := by nlinarith
  have h2 : Real.cos (80 * (Real.pi / 180)) ≤ Real.cos (|lat| * (Real.pi / 180)) :=
    Real.cos_le_cos_of_nonneg_of_le_pi (by positivity) (by nlinarith) h1
  refine le_trans ?_ h2
  have h3 : Real.cos (80 * (Real.pi / 180)) = Real.sin (Real.pi / 18) := by
    rw [← Real.cos_pi_div_two_sub]; congr 1; ring
  rw [h3]
  have := Real.mul_le_sin (x := Real.pi / 18) (by positivity) (by linarith)
  refine le_trans (le_of_eq ?_) this
  field_simp
  norm_num

private theorem cos_close (lat : ℝ) (h : |lat| ≤ 80) :
    |Real.cos (lat * (Real.pi / 180)) - Real.cos (lat * (314159 / 100000) / 180)| ≤ 1.4 / 10 ^ 6 := by
  have h1 := Real.pi_gt_d6
  have h2 := Real.pi_lt_d6
  refine le_trans (Real.abs_cos_sub_cos_le _ _) ?_
  rw [show lat * (Real.pi / 180) - lat * (314159 / 100000) / 180 = lat * ((Real.pi - 314159 / 100000) / 180) by ring, abs_mul,
    abs_of_pos (show 0 < (Real.pi - 314159 / 100000) / 180 by linarith)]
  have h3 : (Real.pi - 314159 / 100000) / 180 ≤ 3 / 10 ^ 6 / 180 := by linarith
  nlinarith [abs_nonneg lat]

/-- Within 80 degrees of the equator the Python movers and the library make the same of a velocity. -/
theorem m2l_alike (u v dt : ℝ) (p : V) (h : |p.2.1| ≤ 80) : Alike (m2l (u * dt, v * dt, 0) p) (libMove u v dt p.2.1) := by
  have hl := cos_low _ h
  have hc := cos_close _ h
  set c := Real.cos (p.2.1 * (Real.pi / 180)) with hcd
  set c' := Real.cos (p.2.1 * (314159 / 100000) / 180) with hcd'
  have hc0 : 0 < c := by linarith
  have hc1 : 0 < c' := by have := (abs_le.1 hc).2; linarith
  refine ⟨?_, ?_, rfl⟩
  · simp only [m2l, libMove, ← hcd, ← hcd']
    unfold metresPerDegree
    have e1 : u * dt * (89992801 / 10 ^ 13) / c - u / (11112000024 / 100000) * dt / c' =
        (u / (11112000024 / 100000) * dt / c') * ((89992801 / 10 ^ 13) * (11112000024 / 100000) * c' / c - 1) := by
      field_simp
    rw [e1, abs_mul, mul_comm]
    refine mul_le_mul_of_nonneg_right ?_ (abs_nonneg _)
    have e2 : (89992801 / 10 ^ 13 : ℝ) * (11112000024 / 100000) * c' / c - 1 = ((89992801 / 10 ^ 13) * (11112000024 / 100000) * c' - c) / c := by
      field_simp
    rw [e2, abs_div, abs_of_pos hc0, div_le_iff₀ hc0, abs_le]
    have hc2 : c' ≤ 1 := Real.cos_le_one _
    obtain ⟨h1, h2⟩ := abs_le.1 hc
    constructor <;> nlinarith
  · simp only [m2l, libMove]
    unfold metresPerDegree
    have e1 : v * dt * (89992801 / 10 ^ 13) - v / (11112000024 / 100000) * dt =
        (v / (11112000024 / 100000) * dt) * ((89992801 / 10 ^ 13) * (11112000024 / 100000) - 1) := by
      field_simp
    rw [e1, abs_mul, mul_comm]
    refine mul_le_mul_of_nonneg_right ?_ (abs_nonneg _)
    rw [abs_le]
    constructor <;> norm_num

private theorem wind_delta (m : Method) (z : Zone) (f : Rat → ℝ × ℝ) (dt t : Int) (p : V) (h : m = .euler ∨ ∀ s, f s = f t) :
    delta m z (windAt (.point f)) (dt : Rat) t p = (dt : ℝ) • ((f t).1, (f t).2, (0 : ℝ)) := by
  rcases h with rfl | h
  · simp only [delta, euler, windAt]
    rw [rat_smul_real, Rat.cast_intCast]
  · have hw : windAt (.point f) = fun _ _ => ((f t).1, (f t).2, (0 : ℝ)) := by
      funext p s
      simp only [windAt, h s]
    rw [hw]
    have hc := C47_constant z m2l ((f t).1, (f t).2, (0 : ℝ)) (dt : Rat) t p
    rw [rat_smul_real, Rat.cast_intCast] at hc
    cases m with
    | euler => exact hc.1
    | rk2 => exact hc.2.1
    | rk4 => exact hc.2.2

/-- **C342**: a WindMover and a PointWindMover with the same wind move every element at the surface alike, without uncertainty; with the method
Euler in any wind, with the others in a steady wind. -/
theorem C342_wind (m : Method) (z : Zone) (f : Rat → ℝ × ℝ) (dt t : Int) (active : Bool) (e : LE) (h : m = .euler ∨ ∀ s, f s = f t)
    (hz : e.pos.2.2 ≤ 0) (hl : |e.pos.2.1| ≤ 80) :
    Alike (windRow active 1 dt (delta m z (windAt (.point f)) (dt : Rat) t) none e) (pointWindRow active dt (f t) none e) := by
  unfold windRow pointWindRow
  cases active
  · simp [Alike]
  · simp only [if_true, wind_delta m z f dt t e.pos h, mul_one]
    by_cases hw : inWater e
    · rw [if_pos hw, if_pos hw, if_neg (not_lt.2 hz)]
      have := m2l_alike ((f t).1 * e.windage) ((f t).2 * e.windage) dt e.pos hl
      simp only [libMove] at this
      have e1 : ((((dt : ℝ) • ((f t).1, (f t).2, (0 : ℝ)) : V)).1 * e.windage, ((dt : ℝ) • ((f t).1, (f t).2, (0 : ℝ)) : V).2.1 * e.windage,
          ((dt : ℝ) • ((f t).1, (f t).2, (0 : ℝ)) : V).2.2) = (((f t).1 * e.windage * dt, (f t).2 * e.windage * dt, 0) : V) := by
        ext <;> simp <;> ring
      rw [e1]
      exact this
    · rw [if_neg hw, if_neg hw]
      simp [Alike]

/-- **C342**: a CurrentMover with the current of a CatsMover as it is in a step moves every element at the surface as the CatsMover does. -/
theorem C342_current (m : Method) (z : Zone) (P : Cats.Pattern) (c : Cats.Mover) (q : Cats.Place) (dt t : Int) (e : LE)
    (hq : q.lat = e.pos.2.1 * 10 ^ 6) (hl : |e.pos.2.1| ≤ 80) :
    Alike (currentRow true 1 (delta m z (fun _ _ => ((Cats.velocity P c q).1, (Cats.velocity P c q).2, (0 : ℝ))) (dt : Rat) t) none e)
      (Cats.getMove P (fun l => Real.cos (l / 10 ^ 6 * (314159 / 100000) / 180)) c (decide (inWater e)) dt q) := by
  unfold currentRow Cats.getMove
  have hc := C47_constant z m2l ((Cats.velocity P c q).1, (Cats.velocity P c q).2, (0 : ℝ)) (dt : Rat) t e.pos
  rw [rat_smul_real, Rat.cast_intCast] at hc
  have hd : delta m z (fun _ _ => ((Cats.velocity P c q).1, (Cats.velocity P c q).2, (0 : ℝ))) (dt : Rat) t e.pos =
      (dt : ℝ) • ((Cats.velocity P c q).1, (Cats.velocity P c q).2, (0 : ℝ)) := by
    cases m with
    | euler => exact hc.1
    | rk2 => exact hc.2.1
    | rk4 => exact hc.2.2
  simp only [if_true, hd, one_smul]
  by_cases hw : inWater e
  · rw [if_pos hw, if_pos (by simpa using hw)]
    have := m2l_alike (Cats.velocity P c q).1 (Cats.velocity P c q).2 dt e.pos hl
    simp only [libMove] at this
    have e1 : ((dt : ℝ) • ((Cats.velocity P c q).1, (Cats.velocity P c q).2, (0 : ℝ)) : V) =
        ((Cats.velocity P c q).1 * dt, (Cats.velocity P c q).2 * dt, 0) := by
      ext <;> simp <;> ring
    rw [e1]
    have e2 : q.lat / 10 ^ 6 = e.pos.2.1 := by rw [hq]; field_simp
    simp only [e2]
    exact this
  · rw [if_neg hw, if_neg (by simpa using hw)]
    simp [Alike]

/-- **C342**: the factor `scale_value` multiplies the horizontal move of a WindMover, with and without uncertainty, and the move of a CurrentMover without
uncertainty. -/
theorem C342_scale (active : Bool) (k dt : ℝ) (dm : V → V) (unc : Option WUnc) (e : LE) :
    windRow active k dt dm unc e =
      (k * (windRow active 1 dt dm unc e).1, k * (windRow active 1 dt dm unc e).2.1, (windRow active 1 dt dm unc e).2.2) ∧
    currentRow active k dm none e = k • currentRow active 1 dm none e := by
  constructor
  · unfold windRow
    cases active
    · simp; rfl
    · simp only [if_true, mul_one]
      by_cases hw : inWater e
      · simp only [if_pos hw, m2l]
        ext
        · simp only; ring
        · simp only; ring
        · rfl
      · simp only [if_neg hw]
        ext <;> simp
  · unfold currentRow
    cases active
    · simp
    · simp only [if_true, one_smul]
      by_cases hw : inWater e
      · simp only [if_pos hw, m2l]
        ext
        · simp only [Prod.smul_fst, smul_eq_mul]; ring
        · simp only [Prod.smul_fst, Prod.smul_snd, smul_eq_mul]; ring
        · rfl
      · simp only [if_neg hw, smul_zero]

/-- Twice the wind, twice the way: 540 metres instead of 270. -/
example : (windRow true 2 900 (fun _ => (0, 9000, 0)) none ⟨(-125, 48, 0), 2, 3 / 100, 0⟩).2.1 =
    2 * (windRow true 1 900 (fun _ => (0, 9000, 0)) none ⟨(-125, 48, 0), 2, 3 / 100, 0⟩).2.1 := by
  rw [(C342_scale true 2 900 _ none _).1]

/-- An element at 48 degrees north that goes with three percent of a wind of ten metres per second: 270 metres in a quarter of an hour. -/
example : (pointWindRow true (900 : Int) (0, 10) none ⟨(-125, 48, 0), 2, 3 / 100, 0⟩).2.1 * 111120.00024 = 270 := by
  simp only [pointWindRow, if_true]
  rw [if_pos (show inWater ⟨(-125, 48, 0), 2, 3 / 100, 0⟩ from rfl), if_neg (by norm_num)]
  simp only [metresPerDegree]
  norm_num

end Verif.Mover
