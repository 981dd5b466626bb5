import Verif.Convert.Model
import Mathlib.Analysis.SpecialFunctions.ExpDeriv
import Mathlib.Analysis.Real.Pi.Bounds
import Mathlib.Analysis.SpecialFunctions.Exp
import Mathlib.Analysis.Complex.Exponential
import Mathlib.Tactic.Linarith
import Mathlib.Tactic.FieldSimp
import Mathlib.Tactic.Ring
import Mathlib.Tactic.NormNum
import Mathlib.Tactic.Positivity

/-!
# C117, C118: directions, and uncertain wind speeds
-/

namespace Verif.Convert

/-! ## C117 -/

/-- Rounding that is off by at most `e`. -/
def RoundsTo (e : ℝ) (rnd : ℝ → ℝ) : Prop := ∀ x, |rnd x - x| ≤ e

theorem mod360_range (x : ℝ) : 0 ≤ mod360 x ∧ mod360 x < 360 := by
  unfold mod360
  have h1 := Int.floor_le (x / 360)
  have h2 := Int.lt_floor_add_one (x / 360)
  constructor <;> linarith

theorem mod360_of_range {x : ℝ} (h0 : 0 ≤ x) (h1 : x < 360) (k : ℤ) : mod360 (x + 360 * k) = x := by
  unfold mod360
  have : ⌊(x + 360 * k) / 360⌋ = k := by
    rw [Int.floor_eq_iff]
    constructor
    · linarith
    · linarith
  rw [this]
  ring

/-- **C117**: what is made of a velocity is a speed that is not negative and a direction from 0 up to 360. -/
theorem C117_range (p : ℝ × ℝ) : 0 ≤ (uvToPolar p).1 ∧ 0 ≤ (uvToPolar p).2 ∧ (uvToPolar p).2 < 360 :=
  ⟨Real.sqrt_nonneg _, mod360_range _⟩

theorem trig_mod360 (t : ℝ) : Real.sin (mod360 (t * 180 / Real.pi + 360) * Real.pi / 180) = Real.sin t ∧
    Real.cos (mod360 (t * 180 / Real.pi + 360) * Real.pi / 180) = Real.cos t := by
  unfold mod360
  set k : ℤ := ⌊(t * 180 / Real.pi + 360) / 360⌋ with hk
  have hpi := Real.pi_ne_zero
  have e : (t * 180 / Real.pi + 360 - 360 * (k : ℝ)) * Real.pi / 180 = t + ((1 - k : ℤ) : ℝ) * (2 * Real.pi) := by
    push_cast
    field_simp
    ring
  rw [e]
  exact ⟨Real.sin_add_int_mul_two_pi _ _, Real.cos_add_int_mul_two_pi _ _⟩

theorem norm_uv (p : ℝ × ℝ) : Real.sqrt (p.1 ^ 2 + p.2 ^ 2) = ‖(⟨-p.2, -p.1⟩ : ℂ)‖ := by
  rw [Complex.norm_def, Complex.normSq_mk]
  congr 1
  ring

/-- **C117**: a velocity made into speed and direction and back is the velocity, up to the rounding. -/
theorem C117_there_and_back (e : ℝ) (rnd : ℝ → ℝ) (hr : RoundsTo e rnd) (p : ℝ × ℝ) :
    |(polarToUV rnd (uvToPolar p)).1 - p.1| ≤ e ∧ |(polarToUV rnd (uvToPolar p)).2 - p.2| ≤ e := by
  obtain ⟨h1, h2⟩ := trig_mod360 (Complex.arg ⟨-p.2, -p.1⟩)
  have e1 : (uvToPolar p).1 * Real.sin ((uvToPolar p).2 * Real.pi / 180) = -p.1 := by
    simp only [uvToPolar]
    rw [h1, norm_uv]
    exact Complex.norm_mul_sin_arg _
  have e2 : (uvToPolar p).1 * Real.cos ((uvToPolar p).2 * Real.pi / 180) = -p.2 := by
    simp only [uvToPolar]
    rw [h2, norm_uv]
    exact Complex.norm_mul_cos_arg _
  unfold polarToUV
  rw [e1, e2]
  constructor
  · have := hr (-p.1)
    rw [← abs_neg]
    simpa [sub_eq_add_neg, add_comm] using this
  · have := hr (-p.2)
    rw [← abs_neg]
    simpa [sub_eq_add_neg, add_comm] using this

/-- **C117**: for lists, all of what is made of velocities is accepted. -/
theorem C117_lists (e : ℝ) (rnd : ℝ → ℝ) (hr : RoundsTo e rnd) (l : List (ℝ × ℝ)) :
    ∃ m, windToUV rnd (uvToWind l) = some m ∧ m.length = l.length ∧
      ∀ (i : Nat) (p q : ℝ × ℝ), l[i]? = some p → m[i]? = some q → |q.1 - p.1| ≤ e ∧ |q.2 - p.2| ≤ e := by
  have h1 : ¬ ∃ p ∈ uvToWind l, p.2 > 360 ∨ p.2 < 0 := by
    rintro ⟨p, hp, h⟩
    obtain ⟨q, -, rfl⟩ := List.mem_map.mp hp
    have := C117_range q
    rcases h with h | h <;> linarith [this.2.1, this.2.2]
  have h2 : ¬ ∃ p ∈ uvToWind l, p.1 < 0 := by
    rintro ⟨p, hp, h⟩
    obtain ⟨q, -, rfl⟩ := List.mem_map.mp hp
    linarith [(C117_range q).1]
  unfold windToUV
  rw [if_neg h1, if_neg h2]
  refine ⟨_, rfl, by simp [uvToWind], ?_⟩
  intro i p q hp hq
  simp only [uvToWind, List.map_map, List.getElem?_map, hp, Option.map_some, Option.some.injEq] at hq
  subst hq
  exact C117_there_and_back e rnd hr p

/-- **C117**: a speed and a direction made into a velocity and back are themselves; 360 degrees are 0. -/
theorem C117_back_and_there (r θ : ℝ) (hr : 0 < r) (h0 : 0 ≤ θ) (h1 : θ ≤ 360) :
    uvToPolar (polarToUV id (r, θ)) = (r, if θ = 360 then 0 else θ) := by
  set t := θ * Real.pi / 180 with ht
  have hpi := Real.pi_pos
  have hp : polarToUV id (r, θ) = (-(r * Real.sin t), -(r * Real.cos t)) := rfl
  rw [hp]
  unfold uvToPolar
  ext
  · simp only
    have : (-(r * Real.sin t)) ^ 2 + (-(r * Real.cos t)) ^ 2 = r ^ 2 := by
      have := Real.sin_sq_add_cos_sq t
      linear_combination r ^ 2 * this
    rw [this, Real.sqrt_sq hr.le]
  · simp only [neg_neg]
    have hz : (⟨r * Real.cos t, r * Real.sin t⟩ : ℂ) = r * (Complex.cos t + Complex.sin t * Complex.I) := by
      apply Complex.ext
      · simp [Complex.cos_ofReal_re, Complex.sin_ofReal_im]
      · simp [Complex.cos_ofReal_im, Complex.sin_ofReal_re]
    rw [hz]
    by_cases h : t ≤ Real.pi
    · have ht0 : 0 ≤ t := by positivity
      rw [Complex.arg_mul_cos_add_sin_mul_I hr ⟨by linarith, h⟩]
      have h3 : θ ≤ 180 := by
        rw [ht] at h
        have : θ * Real.pi ≤ 180 * Real.pi := by linarith
        exact le_of_mul_le_mul_right this hpi
      rw [if_neg (by linarith)]
      have : t * 180 / Real.pi + 360 = θ + 360 * ((1 : ℤ) : ℝ) := by rw [ht]; push_cast; field_simp
      rw [this]
      exact mod360_of_range h0 (by linarith) 1
    · have h2 : t ≤ 2 * Real.pi := by
        rw [ht]
        have : θ * Real.pi ≤ 360 * Real.pi := mul_le_mul_of_nonneg_right h1 hpi.le
        linarith
      have hc : (r : ℂ) * (Complex.cos t + Complex.sin t * Complex.I) =
          r * (Complex.cos ((t - 2 * Real.pi : ℝ) : ℂ) + Complex.sin ((t - 2 * Real.pi : ℝ) : ℂ) * Complex.I) := by
        rw [← Complex.ofReal_cos, ← Complex.ofReal_sin, ← Complex.ofReal_cos, ← Complex.ofReal_sin, Real.cos_sub_two_pi, Real.sin_sub_two_pi]
      rw [hc, Complex.arg_mul_cos_add_sin_mul_I hr ⟨by linarith, by linarith⟩]
      by_cases h360 : θ = 360
      · rw [if_pos h360]
        have : (t - 2 * Real.pi) * 180 / Real.pi + 360 = 0 + 360 * ((1 : ℤ) : ℝ) := by rw [ht, h360]; push_cast; field_simp; ring
        rw [this]
        exact mod360_of_range (le_refl _) (by norm_num) 1
      · rw [if_neg h360]
        have : (t - 2 * Real.pi) * 180 / Real.pi + 360 = θ + 360 * ((0 : ℤ) : ℝ) := by rw [ht]; push_cast; field_simp; ring
        rw [this]
        exact mod360_of_range h0 (lt_of_le_of_ne h1 h360) 0

/-- **C117**: directions outside 0 to 360 and negative speeds are refused, and nothing else. -/
theorem C117_refused (rnd : ℝ → ℝ) (l : List (ℝ × ℝ)) :
    windToUV rnd l = none ↔ ∃ p ∈ l, p.2 > 360 ∨ p.2 < 0 ∨ p.1 < 0 := by
  unfold windToUV
  constructor
  · intro h
    split at h
    · rename_i hx
      obtain ⟨p, hp, hx⟩ := hx
      exact ⟨p, hp, by rcases hx with hx | hx <;> simp [hx]⟩
    · split at h
      · rename_i hx
        obtain ⟨p, hp, hx⟩ := hx
        exact ⟨p, hp, by simp [hx]⟩
      · cases h
  · rintro ⟨p, hp, h | h | h⟩
    · exact if_pos ⟨p, hp, Or.inl h⟩
    · exact if_pos ⟨p, hp, Or.inr h⟩
    · split
      · rfl
      · exact if_pos ⟨p, hp, h⟩

/-- **C117**: winds are named by where they come from, currents by where they go: they are opposite, both ways. -/
theorem C117_currents (rnd : ℝ → ℝ) (l : List (ℝ × ℝ)) :
    currentToUV rnd l = (windToUV rnd l).map (List.map fun p => (-p.1, -p.2)) ∧
      uvToCurrent l = uvToWind (l.map fun p => (-p.1, -p.2)) := ⟨rfl, rfl⟩

/-- A wind from the north, the east, the south, the west blows towards the other side. -/
theorem C117_compass (r : ℝ) : polarToUV id (r, 0) = (0, -r) ∧ polarToUV id (r, 90) = (-r, 0) ∧ polarToUV id (r, 180) = (0, r) ∧
    polarToUV id (r, 270) = (r, 0) := by
  have h1 : (90 : ℝ) * Real.pi / 180 = Real.pi / 2 := by ring
  have h2 : (180 : ℝ) * Real.pi / 180 = Real.pi := by ring
  have h3 : (270 : ℝ) * Real.pi / 180 = Real.pi / 2 + Real.pi := by ring
  simp [polarToUV, h1, h2, h3, Real.sin_add_pi, Real.cos_add_pi]

example : uvToPolar (polarToUV id (5, 225)) = (5, 225) := by
  have := C117_back_and_there 5 225 (by norm_num) (by norm_num) (by norm_num)
  rw [this, if_neg (by norm_num)]

/-! ## C118 -/

theorem quantile_eq {f σ : ℝ} (h : f < 1) : quantile f σ = some (σ * Real.sqrt (-2 * Real.log (1 - f))) := by
  unfold quantile
  rw [if_neg (ne_of_lt h)]
  congr 3
  rw [Real.log_pow]
  push_cast
  ring

/-- **C118**: the quantile undoes the distribution. -/
theorem C118_quantile_cdf (x σ : ℝ) (hx : 0 ≤ x) (hσ : 0 < σ) : quantile (cdf x σ) σ = some x := by
  have h : cdf x σ < 1 := by unfold cdf; have := Real.exp_pos (-1 / 2 * (x ^ 2 / σ ^ 2)); linarith
  rw [quantile_eq h]
  congr 1
  unfold cdf
  rw [sub_sub_cancel, Real.log_exp]
  have : -2 * (-1 / 2 * (x ^ 2 / σ ^ 2)) = (x / σ) ^ 2 := by rw [div_pow]; ring
  rw [this, Real.sqrt_sq (by positivity)]
  field_simp

/-- **C118**: and the distribution the quantile. -/
theorem C118_cdf_quantile (f σ : ℝ) (h0 : 0 ≤ f) (h1 : f < 1) (hσ : 0 < σ) :
    ∃ x, quantile f σ = some x ∧ 0 ≤ x ∧ cdf x σ = f := by
  refine ⟨_, quantile_eq h1, mul_nonneg hσ.le (Real.sqrt_nonneg _), ?_⟩
  have hl : Real.log (1 - f) ≤ 0 := Real.log_nonpos (by linarith) (by linarith)
  unfold cdf
  rw [mul_pow, Real.sq_sqrt (by linarith)]
  have : -1 / 2 * (σ ^ 2 * (-2 * Real.log (1 - f)) / σ ^ 2) = Real.log (1 - f) := by field_simp
  rw [this, Real.exp_log (by linarith)]
  ring

/-- **C118**: the density is the derivative of the distribution. -/
theorem C118_density (x σ : ℝ) : HasDerivAt (fun y => cdf y σ) (pdf x σ) x := by
  have h1 : HasDerivAt (fun y : ℝ => -1 / 2 * (y ^ 2 / σ ^ 2)) (-1 / 2 * ((2 : ℕ) * x ^ (2 - 1) / σ ^ 2)) x :=
    ((hasDerivAt_pow 2 x).div_const _).const_mul _
  have h2 := (h1.exp).const_sub 1
  have e : -(Real.exp (-1 / 2 * (x ^ 2 / σ ^ 2)) * (-1 / 2 * ((2 : ℕ) * x ^ (2 - 1) / σ ^ 2))) = pdf x σ := by
    unfold pdf
    simp
    ring
  rw [e] at h2
  exact h2

/-- The distribution has no negative speeds and all the chance up to infinity: it goes from 0 to 1. -/
theorem C118_from_zero (σ : ℝ) : cdf 0 σ = 0 := by simp [cdf]

theorem C118_below_one (x σ : ℝ) : 0 ≤ cdf x σ ∧ cdf x σ < 1 := by
  unfold cdf
  have h1 := Real.exp_pos (-1 / 2 * (x ^ 2 / σ ^ 2))
  have h2 : Real.exp (-1 / 2 * (x ^ 2 / σ ^ 2)) ≤ 1 := Real.exp_le_one_iff.mpr (by have : 0 ≤ x ^ 2 / σ ^ 2 := by positivity
                                                                                   linarith)
  constructor <;> linarith

/-- How uncertainty changes a speed: by a factor. -/
noncomputable def factor (f : ℝ) : ℝ := Real.sqrt (4 / Real.pi * -Real.log (1 - f))

theorem quantile_wind (f v : ℝ) (h1 : f < 1) : quantile f (sigmaFromWind v) = some (v * factor f) := by
  rw [quantile_eq h1]
  congr 1
  unfold sigmaFromWind factor
  have : 4 / Real.pi * -Real.log (1 - f) = 2 / Real.pi * (-2 * Real.log (1 - f)) := by ring
  rw [this, Real.sqrt_mul (show (0 : ℝ) ≤ 2 / Real.pi by have := Real.pi_pos; positivity)]
  ring

theorem factor_mono {f g : ℝ} (hfg : f ≤ g) (hg : g < 1) : factor f ≤ factor g := by
  unfold factor
  apply Real.sqrt_le_sqrt
  have h := Real.log_le_log (by linarith : (0 : ℝ) < 1 - g) (by linarith : 1 - g ≤ 1 - f)
  have := Real.pi_pos
  apply mul_le_mul_of_nonneg_left _ (by positivity)
  linarith

/-- The chance from which on a quantile is more than the mean. -/
noncomputable def meanChance : ℝ := 1 - Real.exp (-(Real.pi / 4))

theorem factor_ge_one_iff {f : ℝ} (h1 : f < 1) : 1 ≤ factor f ↔ meanChance ≤ f := by
  have hp := Real.pi_pos
  unfold factor meanChance
  rw [Real.one_le_sqrt]
  have e : 1 ≤ 4 / Real.pi * -Real.log (1 - f) ↔ Real.log (1 - f) ≤ -(Real.pi / 4) := by
    rw [div_mul_eq_mul_div, le_div_iff₀ hp]
    constructor <;> intro h <;> linarith
  rw [e, Real.log_le_iff_le_exp (by linarith)]
  constructor <;> intro h <;> linarith

theorem exp_quarter_pi : (2 : ℝ) < Real.exp (Real.pi / 4) ∧ (100 / 49 : ℝ) < Real.exp (Real.pi / 4) := by
  have h1 := Real.pi_gt_d2
  have h2 : (157 : ℝ) / 200 ≤ Real.pi / 4 := by linarith
  have h3 := Real.exp_le_exp.mpr h2
  have h4 : (1 : ℝ) + 157 / 200 + (157 / 200) ^ 2 / 2 ≤ Real.exp (157 / 200) := Real.quadratic_le_exp_of_nonneg (by norm_num)
  constructor <;> [skip; skip] <;> nlinarith [h3, h4]

/-- The mean is above the median: a chance of more than a half. -/
theorem meanChance_gt : 51 / 100 < meanChance := by
  unfold meanChance
  rw [Real.exp_neg]
  have h := exp_quarter_pi.2
  have : (Real.exp (Real.pi / 4))⁻¹ < (100 / 49 : ℝ)⁻¹ := inv_strictAnti₀ (by norm_num) h
  norm_num at this ⊢
  linarith

/-- **C118**: uncertainty is refused, and the wind left alone, exactly when there is no direction or the scale is not above 0 and at most a half. -/
theorem C118_refused (scale : ℝ) (dir : Option Dir) (series : List (ℝ × ℝ)) :
    speedUncertainty scale dir series = none ↔ dir = none ∨ ¬ (0 < scale ∧ scale ≤ 1 / 2) := by
  unfold speedUncertainty
  cases dir with
  | none => simp
  | some d =>
    simp only [reduceCtorEq, false_or, not_and_or, not_lt, not_le]
    constructor
    · intro h
      split at h
      · assumption
      · cases h
    · intro h
      exact if_pos h

/-- **C118**: below a half every speed is multiplied by one factor, and no direction changed; upwards the chance of less wind is a half and the scale
more, downwards less. -/
theorem C118_factor (scale : ℝ) (d : Dir) (series : List (ℝ × ℝ)) (h0 : 0 < scale) (h1 : scale < 1 / 2) :
    speedUncertainty scale (some d) series = some (series.map fun p => (some (p.1 * factor (match d with
      | .up => 1 / 2 + scale
      | .down => 1 / 2 - scale)), p.2)) := by
  unfold speedUncertainty
  simp only
  rw [if_neg (by push Not; constructor <;> linarith)]
  congr 1
  apply List.map_congr_left
  intro p _
  cases d
  · simp only; rw [quantile_wind _ _ (by linarith)]
  · simp only; rw [quantile_wind _ _ (by linarith)]

/-- **C118**: the speed upwards is at least the speed downwards, and the speed downwards is less than the speed. -/
theorem C118_order (scale : ℝ) (h0 : 0 < scale) (h1 : scale < 1 / 2) :
    0 ≤ factor (1 / 2 - scale) ∧ factor (1 / 2 - scale) < 1 ∧ factor (1 / 2 - scale) ≤ factor (1 / 2 + scale) := by
  refine ⟨Real.sqrt_nonneg _, ?_, factor_mono (by linarith) (by linarith)⟩
  by_contra h
  push Not at h
  have := (factor_ge_one_iff (by linarith)).mp h
  linarith [meanChance_gt]

/-- The claim: uncertainty upwards gives a speed, and not less than it was. -/
def C118_claim : Prop := ∀ (scale v : ℝ), 0 < scale → scale ≤ 1 / 2 → 0 ≤ v → ∀ θ l, speedUncertainty scale (some .up) [(v, θ)] = some l →
  ∃ w, l = [(some w, θ)] ∧ v ≤ w

/-- **C118** fails for small scales: the quantiles are about the median, which is less than the mean. -/
theorem C118_counterexample_slower : ¬ C118_claim := by
  intro h
  obtain ⟨w, e, hw⟩ := h (1 / 100) 10 (by norm_num) (by norm_num) (by norm_num) 0 _ (C118_factor (1 / 100) .up [(10, 0)] (by norm_num) (by norm_num))
  simp only [List.map_cons, List.map_nil, List.cons.injEq, Prod.mk.injEq, Option.some.injEq, and_true] at e
  have : 1 ≤ factor (1 / 2 + 1 / 100) := by linarith
  have := (factor_ge_one_iff (by norm_num)).mp this
  have := meanChance_gt
  norm_num at *
  linarith

/-- **C118** fails for the largest scale accepted: the speed is infinite. -/
theorem C118_counterexample_infinite : ¬ C118_claim := by
  intro h
  have e : speedUncertainty (1 / 2) (some .up) [(10, 0)] = some [(none, 0)] := by
    unfold speedUncertainty
    simp only
    rw [if_neg (by norm_num)]
    norm_num [quantile]
  obtain ⟨w, e2, -⟩ := h (1 / 2) 10 (by norm_num) (le_refl _) (by norm_num) 0 _ e
  simp at e2

/-- **C118**: upwards the speed is not less exactly for scales from about 0.044 on. -/
theorem C118_faster_partial (scale v : ℝ) (h0 : 0 < scale) (h1 : scale < 1 / 2) (hv : 0 < v) (θ : ℝ) :
    ∃ w, speedUncertainty scale (some .up) [(v, θ)] = some [(some w, θ)] ∧ (v ≤ w ↔ 1 / 2 - Real.exp (-(Real.pi / 4)) ≤ scale) := by
  refine ⟨_, C118_factor scale .up [(v, θ)] h0 h1, ?_⟩
  simp only
  have : v ≤ v * factor (1 / 2 + scale) ↔ 1 ≤ factor (1 / 2 + scale) := by
    constructor
    · intro h
      by_contra hc
      push Not at hc
      have := mul_lt_mul_of_pos_left hc hv
      linarith
    · intro h
      have := mul_le_mul_of_nonneg_left h hv.le
      linarith
  rw [this, factor_ge_one_iff (by linarith)]
  unfold meanChance
  constructor <;> intro h <;> linarith

end Verif.Convert
