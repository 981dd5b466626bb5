import Mathlib.Analysis.SpecialFunctions.Pow.Real
import Mathlib.Analysis.Real.Sqrt
import Mathlib.Analysis.Complex.ExponentialBounds
import Mathlib.Tactic.Linarith
import Mathlib.Tactic.NormNum
import Mathlib.Tactic.Positivity
import Mathlib.Tactic.FieldSimp
/-!
# Viscosity of the elements as they weather (C126)

Source: `/repo/py_gnome/gnome/ops/viscosity.py` lines 35-97 (`recalc_viscosity`,
`_get_kv1_weathering_visc_update`), constants from `ops/default_constants.py` lines 9-10. Floats are real numbers. A power of a
negative number is not a number in the code; `Real.rpow` gives some number there, and the theorems stay away from it.
-/
namespace Verif.Oil

/-- `_get_kv1_weathering_visc_update` lines 75-97 -/
noncomputable def kv1 (v0 : ℝ) : ℝ :=
  if Real.sqrt v0 * 1500 < 1 then 1 else if Real.sqrt v0 * 1500 > 10 then 10 else Real.sqrt v0 * 1500

/-- `oil_viscosity`, line 70 -/
noncomputable def oilVisc (v0 fe : ℝ) : ℝ := v0 * Real.exp (kv1 v0 * fe)

/-- the factor for the water in the emulsion, lines 67-69 -/
noncomputable def waterFactor (fw : ℝ) : ℝ := (1 + (fw / 0.84) / (1.187 - fw / 0.84)) ^ (2.49 : ℝ)

/-- `viscosity`, line 69; `v0` is the viscosity of the oil at the temperature of the water, `fe` the fraction evaporated, `fw` the
fraction of water -/
noncomputable def visc (v0 fe fw : ℝ) : ℝ := v0 * Real.exp (kv1 v0 * fe) * waterFactor fw

/-! ### C126 -/

theorem kv1_bounds (v0 : ℝ) : 1 ≤ kv1 v0 ∧ kv1 v0 ≤ 10 := by
  unfold kv1
  split
  · norm_num
  · split
    · norm_num
    · constructor <;> linarith

/-- The rate at which loss by evaporation thickens the oil is the documented one. -/
theorem C126_rate (v0 : ℝ) : kv1 v0 = max 1 (min 10 (Real.sqrt v0 * 1500)) := by
  unfold kv1
  split
  · rename_i h
    rw [max_eq_left]
    exact (min_le_right _ _).trans h.le
  · rename_i h
    split
    · rename_i h'
      rw [min_eq_left h'.le, max_eq_right (by norm_num)]
    · rename_i h'
      rw [min_eq_right (not_lt.1 h'), max_eq_right (not_lt.1 h)]

/-- the base of the factor for water, for water contents up to 99 % -/
theorem base_eq {fw : ℝ} (h1 : fw ≤ 0.99) :
    1 + (fw / 0.84) / (1.187 - fw / 0.84) = 1.187 / (1.187 - fw / 0.84) ∧ 0 < 1.187 - fw / 0.84 := by
  have hd : (0 : ℝ) < 1.187 - fw / 0.84 := by
    have : fw / 0.84 ≤ 0.99 / 0.84 := div_le_div_of_nonneg_right h1 (by norm_num)
    have e : (0.99 : ℝ) / 0.84 < 1.187 := by norm_num
    linarith
  refine ⟨?_, hd⟩
  rw [eq_div_iff hd.ne', add_mul, div_mul_cancel₀ _ hd.ne']
  ring

theorem waterFactor_zero : waterFactor 0 = 1 := by
  unfold waterFactor
  norm_num

theorem waterFactor_mono {a b : ℝ} (h : a ≤ b) (h1 : b ≤ 0.99) : waterFactor a ≤ waterFactor b := by
  unfold waterFactor
  obtain ⟨ea, pa⟩ := base_eq (h.trans h1)
  obtain ⟨eb, pb⟩ := base_eq h1
  rw [ea, eb]
  apply Real.rpow_le_rpow (by positivity) _ (by norm_num)
  apply div_le_div_of_nonneg_left (by norm_num) pb
  have : a / 0.84 ≤ b / 0.84 := div_le_div_of_nonneg_right h (by norm_num)
  linarith

/-- Fresh oil has the viscosity of the oil at the temperature of the water. -/
theorem C126_fresh (v0 : ℝ) : visc v0 0 0 = v0 ∧ oilVisc v0 0 = v0 := by
  unfold visc oilVisc
  rw [waterFactor_zero]
  simp

/-- Without water, the emulsion is the oil. -/
theorem C126_dry (v0 fe : ℝ) : visc v0 fe 0 = oilVisc v0 fe := by
  unfold visc oilVisc
  rw [waterFactor_zero, mul_one]

/-- Weathering only thickens: more evaporated, more water taken up (to 99 %), never less viscous. -/
theorem C126_thickens {v0 fe fe' fw fw' : ℝ} (hv : 0 ≤ v0) (he : fe ≤ fe') (hw0 : 0 ≤ fw) (hw : fw ≤ fw') (h1 : fw' ≤ 0.99) :
    visc v0 fe fw ≤ visc v0 fe' fw' ∧ oilVisc v0 fe ≤ oilVisc v0 fe' := by
  have hk := (kv1_bounds v0).1
  have e : v0 * Real.exp (kv1 v0 * fe) ≤ v0 * Real.exp (kv1 v0 * fe') := by
    apply mul_le_mul_of_nonneg_left _ hv
    apply Real.exp_le_exp.2
    exact mul_le_mul_of_nonneg_left he (by linarith)
  refine ⟨?_, e⟩
  have hf := waterFactor_mono hw h1
  have hf0 := waterFactor_mono hw0 (hw.trans h1)
  rw [waterFactor_zero] at hf0
  unfold visc
  exact mul_le_mul e hf (by linarith) (by positivity)

/-- The bounds: at least the fresh viscosity, and without water at most `exp 10` times it. -/
theorem C126_bounds {v0 fe fw : ℝ} (hv : 0 ≤ v0) (he : 0 ≤ fe) (he1 : fe ≤ 1) (hw : 0 ≤ fw) (h1 : fw ≤ 0.99) :
    v0 ≤ oilVisc v0 fe ∧ oilVisc v0 fe ≤ visc v0 fe fw ∧ oilVisc v0 fe ≤ v0 * Real.exp 10 := by
  refine ⟨?_, ?_, ?_⟩
  · have := (C126_thickens (fw := 0) (fw' := 0) hv he (le_refl _) (le_refl _) (by norm_num)).2
    rwa [(C126_fresh v0).2] at this
  · have := (C126_thickens (fe := fe) (fe' := fe) hv (le_refl _) (le_refl 0) hw h1).1
    rwa [C126_dry] at this
  · unfold oilVisc
    apply mul_le_mul_of_nonneg_left _ hv
    apply Real.exp_le_exp.2
    have hk := kv1_bounds v0
    nlinarith

/-- The factor for water does not depend on the oil: an emulsion at 84 % water is at least 50 times as viscous as its oil. -/
theorem C126_emulsion (v0 fe : ℝ) (hv : 0 ≤ v0) : 50 * oilVisc v0 fe ≤ visc v0 fe 0.84 := by
  unfold visc oilVisc
  have hf : (50 : ℝ) ≤ waterFactor 0.84 := by
    unfold waterFactor
    have e : (1 : ℝ) + (0.84 / 0.84) / (1.187 - 0.84 / 0.84) = 1187 / 187 := by norm_num
    rw [e]
    have h6 : (6 : ℝ) ≤ 1187 / 187 := by norm_num
    calc (50 : ℝ) ≤ (6 : ℝ) ^ (2.2 : ℝ) := by
          have e2 : (6 : ℝ) ^ (2.2 : ℝ) = ((6 : ℝ) ^ (11 : ℕ)) ^ ((1 : ℝ) / 5) := by
            rw [← Real.rpow_natCast, ← Real.rpow_mul (by norm_num)]
            norm_num
          rw [e2]
          have e3 : (50 : ℝ) = ((50 : ℝ) ^ (5 : ℕ)) ^ ((1 : ℝ) / 5) := by
            rw [← Real.rpow_natCast, ← Real.rpow_mul (by norm_num)]
            norm_num
          rw [e3]
          apply Real.rpow_le_rpow (by norm_num) (by norm_num) (by norm_num)
      _ ≤ (6 : ℝ) ^ (2.49 : ℝ) := Real.rpow_le_rpow_of_exponent_le (by norm_num) (by norm_num)
      _ ≤ (1187 / 187 : ℝ) ^ (2.49 : ℝ) := Real.rpow_le_rpow (by norm_num) h6 (by norm_num)
  have : 0 ≤ v0 * Real.exp (kv1 v0 * fe) := by positivity
  nlinarith

/-- the full claim: the same for any water content from 0 to 1 -/
def C126_claim : Prop := ∀ v0 fe fw fw' : ℝ, 0 ≤ v0 → 0 ≤ fw → fw ≤ fw' → fw' ≤ 1 →
  0 < 1 + (fw' / 0.84) / (1.187 - fw' / 0.84) ∧ visc v0 fe fw ≤ visc v0 fe fw'

/-- False for water contents above 99.7 %: the base of the power becomes negative (not a number in the code). -/
theorem C126_counterexample : ¬ C126_claim := by
  intro h
  have := (h 1 0 0 1 (by norm_num) (le_refl _) (by norm_num) (le_refl _)).1
  norm_num at this

/-- What holds: everything, for water contents up to 99 %. -/
theorem C126_partial {v0 fe fw fw' : ℝ} (hv : 0 ≤ v0) (h0 : 0 ≤ fw) (h : fw ≤ fw') (h1 : fw' ≤ 0.99) :
    0 < 1 + (fw' / 0.84) / (1.187 - fw' / 0.84) ∧ visc v0 fe fw ≤ visc v0 fe fw' := by
  refine ⟨?_, (C126_thickens hv (le_refl fe) h0 h h1).1⟩
  obtain ⟨e, p⟩ := base_eq h1
  rw [e]
  positivity

/-! concrete cases -/
example : visc 0.00001 0.3 0.5 ≤ visc 0.00001 0.4 0.9 := (C126_thickens (by norm_num) (by norm_num) (by norm_num) (by norm_num) (by norm_num)).1
example : kv1 1 = 10 ∧ kv1 0 = 1 := by rw [C126_rate, C126_rate]; norm_num

end Verif.Oil
