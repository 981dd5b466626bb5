import Verif.Mover.WindUncModel
import Verif.Mover.MoveSpec
import Mathlib.Analysis.Complex.ExponentialBounds
import Mathlib.Tactic.Ring
import Mathlib.Tactic.LinearCombination
import Mathlib.Tactic.Linarith
import Mathlib.Tactic.NormNum
import Mathlib.Tactic.Positivity
import Mathlib.Tactic.FieldSimp

/-!
# C100: uncertainty of the wind
-/

namespace Verif.Mover

/-- The claim: the two wind movers, `PointWindMover` and `WindMover`, perturb the same wind in the same way, given the same numbers. -/
def C100_claim_same : Prop := ∀ (w : WUnc) (dt u v : ℝ), 0 < dt → 0 ≤ w.σ2 →
  addWindUnc w dt (u * dt, v * dt, 0) = ((addWindUncC w u v).1 * dt, (addWindUncC w u v).2 * dt, 0)

/-- The claim: within the duration of a draw (three hours) the wind is turned by at most 60 degrees, as long as one of the draws
offered is good for that. -/
def C100_claim_angle : Prop := ∀ (angleScale drawn elapsed delay : ℝ) (first : Draw) (retries : List Draw), 0 ≤ angleScale →
  delay ≤ drawn → drawn ≤ elapsed → elapsed < drawn + 10800 → first.Possible → (∀ d ∈ retries, d.Possible) →
  (∃ d ∈ retries.take 10, d.ok (sigmaTheta angleScale elapsed delay)) →
  |(pick (sigmaTheta angleScale drawn delay) first retries).sinTerm * sigmaTheta angleScale elapsed delay| ≤ 60

theorem max_eq_ite (x : ℝ) : max x (1 / 1000) = if x < 1 / 1000 then 1 / 1000 else x := by
  split
  · rename_i h; exact max_eq_right h.le
  · rename_i h; exact max_eq_left (not_lt.mp h)

/-- **C100** from 1 m/s up: the two movers agree, for every wind, step and draw. -/
theorem C100_same_partial (w : WUnc) (dt u v : ℝ) (hdt : 0 < dt) (h : 1 ≤ √(u * u + v * v)) :
    addWindUnc w dt (u * dt, v * dt, 0) = ((addWindUncC w u v).1 * dt, (addWindUncC w u v).2 * dt, 0) := by
  have e1 : u * dt / dt = u := by field_simp
  have e2 : v * dt / dt = v := by field_simp
  have e3 : v * v + u * u = u * u + v * v := by ring
  have e4 : max (√(u * u + v * v)) (1 / 1000) = √(u * u + v * v) := max_eq_left (by linarith)
  simp only [addWindUnc, addWindUncC, e1, e2, e3, if_neg (not_lt.mpr h), max_eq_ite (Real.cos _)]
  rw [e4]

/-- The two disagree in light wind: of half a metre per second nothing is left in one, all of it in the other, for the same draw. -/
theorem C100_counterexample_same : ¬ C100_claim_same := by
  intro h
  have := h ⟨0, 0, 1, 0, 0, 0, 0⟩ 900 (1 / 2) 0 (by norm_num) le_rfl
  have h2 := congrArg (fun v : V => v.1) this
  have hs : √((1 : ℝ) / 2 * (1 / 2)) = 1 / 2 := Real.sqrt_mul_self (by norm_num)
  have hq : ((1 : ℝ) / 2 * 900) / 900 = 1 / 2 := by norm_num
  simp only [addWindUnc, addWindUncC, hq, zero_mul, mul_zero, zero_div, add_zero, zero_add, hs] at h2
  norm_num at h2

/-- In light wind the move of `WindMover` does not know how long the step is: the same in metres for one second and for an hour. -/
theorem C100_light_wind_ignores_step (w : WUnc) (dt dt' u v : ℝ) (h0 : 0 < dt) (h0' : 0 < dt') (h : √(u * u + v * v) < 1) :
    addWindUnc w dt (u * dt, v * dt, 0) = addWindUnc w dt' (u * dt', v * dt', 0) := by
  have e1 : u * dt / dt = u := by field_simp
  have e2 : v * dt / dt = v := by field_simp
  have e3 : u * dt' / dt' = u := by field_simp
  have e4 : v * dt' / dt' = v := by field_simp
  simp only [addWindUnc, e1, e2, e3, e4, if_pos h]

/-- **C100**, along the wind: after the turn and its compensation, the part along the wind is the perturbed strength; the part across
that times the tangent of the turn. -/
theorem C100_along (w : WUnc) (u v : ℝ) (h : 1 ≤ √(v * v + u * u)) (hc : 1 / 1000 ≤ Real.cos (turn w)) :
    (addWindUncC w u v).1 * u + (addWindUncC w u v).2 * v = perturbed w (√(v * v + u * u)) * √(v * v + u * u) ∧
      u * (addWindUncC w u v).2 - v * (addWindUncC w u v).1 =
        perturbed w (√(v * v + u * u)) * √(v * v + u * u) * Real.tan (turn w) := by
  have hn : √(v * v + u * u) ^ 2 = v * v + u * u := Real.sq_sqrt (add_nonneg (mul_self_nonneg v) (mul_self_nonneg u))
  have hc0 : Real.cos (turn w) ≠ 0 := by
    intro h0; rw [h0] at hc; norm_num at hc
  simp only [addWindUncC, if_neg (not_lt.mpr h), if_neg (not_lt.mpr hc)]
  generalize √(v * v + u * u) = n at *
  have hn0 : n ≠ 0 := by intro h0; rw [h0] at h; norm_num at h
  rw [Real.tan_eq_sin_div_cos]
  constructor
  · field_simp
    have : n ^ 2 = v ^ 2 + u ^ 2 := by rw [hn]; ring
    rw [this]; ring
  · field_simp
    have : n ^ 2 = v ^ 2 + u ^ 2 := by rw [hn]; ring
    rw [this]; ring

theorem perturbed_nonneg (w : WUnc) (n : ℝ) : 0 ≤ perturbed w n := mul_self_nonneg _

/-- **C100**, strength: for draws whose mean is 0 and mean square 1, the strength is the wind's on average.  The draws are the list
`cs`, all equally likely. -/
theorem C100_unbiased (σ2 σθ diff s r1 r2 n : ℝ) (cs : List ℝ) (hσ : 0 ≤ σ2) (hn : 0 ≤ n) (h0 : cs.sum = 0)
    (h1 : (cs.map fun c => c * c).sum = cs.length) :
    (cs.map fun c => perturbed ⟨σ2, σθ, diff, c, s, r1, r2⟩ n).sum = n * cs.length := by
  have hm : max (n * n - σ2) 0 ≤ n * n := max_le (by linarith) (by positivity)
  have hq : √(max (n * n - σ2) 0) ≤ n := by
    calc √(max (n * n - σ2) 0) ≤ √(n * n) := Real.sqrt_le_sqrt hm
      _ = n := Real.sqrt_mul_self hn
  have hq0 : 0 ≤ √(max (n * n - σ2) 0) := Real.sqrt_nonneg _
  simp only [perturbed]
  generalize √(max (n * n - σ2) 0) = q at *
  have ea : √(n - q) * √(n - q) = n - q := Real.mul_self_sqrt (by linarith)
  have eb : √q * √q = q := Real.mul_self_sqrt hq0
  have key : ∀ l : List ℝ, (l.map fun c => (c * √(n - q) + √q) * (c * √(n - q) + √q)).sum =
      (n - q) * (l.map fun c => c * c).sum + 2 * √(n - q) * √q * l.sum + q * l.length := by
    intro l
    induction l with
    | nil => simp
    | cons c l ih =>
      simp only [List.map_cons, List.sum_cons, List.length_cons, Nat.cast_add, Nat.cast_one, ih]
      have : (c * √(n - q) + √q) * (c * √(n - q) + √q) =
          c * c * (√(n - q) * √(n - q)) + 2 * √(n - q) * √q * c + √q * √q := by ring
      rw [this, ea, eb]; ring
  rw [key, h0, h1]; ring

/-- The draws of the wind's defaults, `±1` here: mean 0 and mean square 1. -/
example : ((([1, -1] : List ℝ).map fun c => perturbed ⟨9, 10, 1, c, 0, 0, 0⟩ 5).sum) = 10 := by
  rw [C100_unbiased 9 10 1 0 0 0 5 [1, -1] (by norm_num) (by norm_num) (by norm_num) (by norm_num)]
  norm_num

/-- Without uncertainty parameters (scales 0), the wind stays what it is. -/
theorem C100_none (w : WUnc) (u v : ℝ) (h2 : w.σ2 = 0) (ht : w.σθ = 0) (h : 1 ≤ √(v * v + u * u)) : addWindUncC w u v = (u, v) := by
  have hn0 : √(v * v + u * u) ≠ 0 := by intro h0; rw [h0] at h; norm_num at h
  have hturn : turn w = 0 := by simp [turn, ht]
  have hp : perturbed w (√(v * v + u * u)) = √(v * v + u * u) := by
    have hn : 0 ≤ √(v * v + u * u) := Real.sqrt_nonneg _
    simp only [perturbed, h2, sub_zero]
    rw [max_eq_left (mul_self_nonneg _), Real.sqrt_mul_self hn, sub_self, Real.sqrt_zero, mul_zero, zero_add, Real.mul_self_sqrt hn]
  simp only [addWindUncC, if_neg (not_lt.mpr h), hturn, Real.cos_zero, Real.sin_zero, hp]
  rw [if_neg (by norm_num)]
  simp [hn0]

/-! ## The turn -/

/-- **C100**, direction: a wind towards the angle `φ` (in degrees) blows, when perturbed, towards `φ` plus the number drawn times the
deviation (in degrees), with a strength that is not negative. -/
theorem C100_turn (w : WUnc) (n φ : ℝ) (hn : 1 ≤ n) :
    ∃ R, 0 ≤ R ∧ addWindUncC w (n * Real.cos (φ * (Real.pi / 180))) (n * Real.sin (φ * (Real.pi / 180))) =
      (R * Real.cos ((φ + w.s * w.σθ) * (Real.pi / 180)), R * Real.sin ((φ + w.s * w.σθ) * (Real.pi / 180))) := by
  have hsq : n * Real.sin (φ * (Real.pi / 180)) * (n * Real.sin (φ * (Real.pi / 180))) +
      n * Real.cos (φ * (Real.pi / 180)) * (n * Real.cos (φ * (Real.pi / 180))) = n * n := by
    have := Real.sin_sq_add_cos_sq (φ * (Real.pi / 180))
    linear_combination (n * n) * this
  have hnorm : √(n * Real.sin (φ * (Real.pi / 180)) * (n * Real.sin (φ * (Real.pi / 180))) +
      n * Real.cos (φ * (Real.pi / 180)) * (n * Real.cos (φ * (Real.pi / 180)))) = n := by
    rw [hsq]; exact Real.sqrt_mul_self (by linarith)
  have hang : (φ + w.s * w.σθ) * (Real.pi / 180) = φ * (Real.pi / 180) + turn w := by unfold turn; ring
  have hc : 0 < (if Real.cos (turn w) < 1 / 1000 then 1 / 1000 else Real.cos (turn w)) := by
    split
    · norm_num
    · rename_i h; rw [not_lt] at h; linarith
  refine ⟨n * (perturbed w n / (if Real.cos (turn w) < 1 / 1000 then 1 / 1000 else Real.cos (turn w)) / n), ?_, ?_⟩
  · have := perturbed_nonneg w n
    positivity
  · rw [hang, Real.cos_add, Real.sin_add]
    simp only [addWindUncC, hnorm, if_neg (not_lt.mpr hn)]
    congr 1 <;> ring

theorem ok_iff (σθ : ℝ) (d : Draw) : d.ok σθ ↔ |d.sinTerm * σθ| ≤ 60 := by
  unfold Draw.ok Draw.sinTerm
  rw [show σθ * d.srt * Real.sin (2 * Real.pi * d.a) = d.srt * Real.sin (2 * Real.pi * d.a) * σθ by ring]

/-- What is kept passes the test of the time of the draw if anything offered does. -/
theorem pick_ok (σθ : ℝ) (first : Draw) (retries : List Draw) (h : first.ok σθ ∨ ∃ d ∈ retries.take 10, d.ok σθ) :
    (pick σθ first retries).ok σθ := by
  unfold pick
  split
  · assumption
  · rename_i hf
    obtain ⟨d, hd, hok⟩ := h.resolve_left hf
    cases hx : (retries.take 10).find? fun d => @decide (d.ok σθ) (Classical.propDecidable _) with
    | none =>
      have := List.find?_eq_none.mp hx d hd
      simp [hok] at this
    | some y =>
      have := List.find?_some hx
      simpa using this

/-- **C100**, the turn at the time of the draw: at most 60 degrees. -/
theorem C100_angle_partial (angleScale drawn delay : ℝ) (first : Draw) (retries : List Draw)
    (h : ∃ d ∈ retries.take 10, d.ok (sigmaTheta angleScale drawn delay)) :
    |(pick (sigmaTheta angleScale drawn delay) first retries).sinTerm * sigmaTheta angleScale drawn delay| ≤ 60 :=
  (ok_iff _ _).mp (pick_ok _ _ _ (Or.inr h))

/-- **C100**, spread of the strength: it grows with the time since the delay ended, and as the square of the scale the user gives (it
is a variance); with the scale 0 there is none. -/
theorem C100_strength_grows (k scale t t' delay : ℝ) (h0 : delay ≤ t) (h1 : t ≤ t') :
    sigma2 (k * scale) t delay = k ^ 2 * sigma2 scale t delay ∧ sigma2 scale t delay ≤ sigma2 scale t' delay ∧
      0 ≤ sigma2 scale t delay := by
  have hx : 0 ≤ (t - delay) ^ ((147 : ℝ) / 1000) := Real.rpow_nonneg (by linarith) _
  have hm : (t - delay) ^ ((147 : ℝ) / 1000) ≤ (t' - delay) ^ ((147 : ℝ) / 1000) :=
    Real.rpow_le_rpow (by linarith) (by linarith) (by norm_num)
  unfold sigma2
  generalize (t - delay) ^ ((147 : ℝ) / 1000) = x at *
  generalize (t' - delay) ^ ((147 : ℝ) / 1000) = y at *
  refine ⟨by ring, ?_, ?_⟩
  · have hxy : x * x ≤ y * y := mul_le_mul hm hm hx (hx.trans hm)
    have hs : 0 ≤ (scale * (315 / 1000)) ^ 2 := sq_nonneg _
    nlinarith [mul_le_mul_of_nonneg_left hxy hs]
  · have := mul_self_nonneg (scale * (315 / 1000) * x)
    linarith

example : sigma2 (2 * 2) 10800 0 = 2 ^ 2 * sigma2 2 10800 0 := (C100_strength_grows 2 2 10800 10800 0 (by norm_num) le_rfl).1

/-- Later the turn of the same draw is greater, by the fourth root of the ratio of the times: what held then holds now divided by it. -/
theorem C100_angle_grows (angleScale t t' delay : ℝ) (h0 : 0 ≤ angleScale) (h1 : t ≤ t') (d : Draw) :
    |d.sinTerm * sigmaTheta angleScale t delay| ≤ |d.sinTerm * sigmaTheta angleScale t' delay| := by
  rw [abs_mul, abs_mul]
  apply mul_le_mul_of_nonneg_left _ (abs_nonneg _)
  unfold sigmaTheta
  have hs : √(√(t - delay)) ≤ √(√(t' - delay)) := Real.sqrt_le_sqrt (Real.sqrt_le_sqrt (by linarith))
  have ha : 0 ≤ angleScale * (273 / 100) := by positivity
  rw [abs_of_nonneg (mul_nonneg ha (Real.sqrt_nonneg _)), abs_of_nonneg (mul_nonneg ha (Real.sqrt_nonneg _))]
  exact mul_le_mul_of_nonneg_left hs ha

theorem exp_bounds : 1 / 1000 ≤ Real.exp (-(9 / 2)) ∧ Real.exp (-(9 / 2)) ≤ 999 / 1000 := by
  constructor
  · rw [Real.exp_neg, one_div]
    apply inv_anti₀ (Real.exp_pos _)
    have h1 : Real.exp 1 < 2.7182818286 := Real.exp_one_lt_d9
    have h3 : Real.exp (9 / 2) ≤ Real.exp 5 := Real.exp_le_exp.mpr (by norm_num)
    have h4 : Real.exp 5 = Real.exp 1 ^ 5 := by rw [← Real.exp_nat_mul]; norm_num
    have h5 : Real.exp 1 ^ 5 ≤ 3 ^ 5 := pow_le_pow_left₀ (Real.exp_pos _).le (by linarith) 5
    rw [h4] at h3
    norm_num at h5
    linarith
  · have h1 : Real.exp (-(9 / 2)) ≤ Real.exp (-1) := Real.exp_le_exp.mpr (by norm_num)
    have h2 : Real.exp (-1) < 1 / 2 := by
      rw [Real.exp_neg, inv_lt_comm₀ (Real.exp_pos _) (by norm_num)]
      have := Real.exp_one_gt_d9
      norm_num at this ⊢
      linarith
    linarith

/-- **C100** fails for the turn: the first draw of a run is tested while the deviation is still 0, so everything passes; before the
draw is three hours old it turns the wind by more than 80 degrees. -/
theorem C100_counterexample_angle : ¬ C100_claim_angle := by
  intro h
  obtain ⟨e1, e2⟩ := exp_bounds
  have hσ0 : sigmaTheta 1 0 0 = 0 := by simp [sigmaTheta]
  have hσ1 : sigmaTheta 1 10000 0 = 273 / 10 := by
    unfold sigmaTheta
    rw [show (10000 : ℝ) - 0 = (10 ^ 2) ^ 2 by norm_num, Real.sqrt_sq (by norm_num), Real.sqrt_sq (by norm_num)]
    norm_num
  have hsrt : (⟨1 / 4, Real.exp (-(9 / 2))⟩ : Draw).srt = 3 := by
    unfold Draw.srt
    rw [Real.log_exp, show (-2 : ℝ) * -(9 / 2) = 3 ^ 2 by norm_num]
    exact Real.sqrt_sq (by norm_num)
  have hsin : (⟨1 / 4, Real.exp (-(9 / 2))⟩ : Draw).sinTerm = 3 := by
    unfold Draw.sinTerm
    rw [hsrt, show 2 * Real.pi * (1 / 4) = Real.pi / 2 by ring, Real.sin_pi_div_two, mul_one]
  have hok0 : (⟨1 / 4, Real.exp (-(9 / 2))⟩ : Draw).ok 0 := by simp [Draw.ok]
  have hz : (⟨0, 1 / 2⟩ : Draw).ok (sigmaTheta 1 10000 0) := by simp [Draw.ok]
  have := h 1 0 10000 0 ⟨1 / 4, Real.exp (-(9 / 2))⟩ [⟨0, 1 / 2⟩] (by norm_num) le_rfl (by norm_num) (by norm_num)
    ⟨by norm_num, by norm_num, e1, e2⟩
    (by intro d hd; rw [List.mem_singleton] at hd; subst hd; refine ⟨?_, ?_, ?_, ?_⟩ <;> norm_num)
    ⟨⟨0, 1 / 2⟩, by simp, hz⟩
  rw [hσ0] at this
  have hp : pick 0 (⟨1 / 4, Real.exp (-(9 / 2))⟩ : Draw) [⟨0, 1 / 2⟩] = ⟨1 / 4, Real.exp (-(9 / 2))⟩ := by
    unfold pick; rw [if_pos hok0]
  rw [hp, hsin, hσ1] at this
  norm_num at this

end Verif.Mover
