import Verif.NatWeath.LibDispModel
import Mathlib.Tactic.FieldSimp
import Mathlib.Tactic.Ring
import Mathlib.Tactic.NormNum

/-!
# The dispersion in Python is that of the library

-/
namespace Verif.NatWeath.Lib

open Verif.NatWeath

/-- What `NaturalDispersion` computes for an element (`constants.volume_entrained`, `constants.ka`). -/
noncomputable def pyEl (w : Sea) (step : Nat) (e : El) : Out :=
  ⟨(dsEl w step e).1, (dsEl w step e).2, dsDroplet e⟩

/-- For any elements the library computes what `disperse_oil_DS` computes. -/
def C341_claim : Prop :=
  ∀ (w : Sea) (step : Nat) (els : List El), (∀ e ∈ els, e.density ≠ 0) →
    disperseOil w 3.9e-8 1.0e-4 step els = some (els.map (pyEl w step))

theorem C341_element (w : Sea) (step : Nat) (e : El) (h : e.density ≠ 0) : libEl w 3.9e-8 1.0e-4 step e = pyEl w step e := by
  have ht : libThickness e = thickness e := rfl
  have hs : libSed w 1.0e-4 step e * e.density = qSed w step e := by
    unfold libSed qSed riseSpeed roy cDisp
    simp only [ht]
    rw [div_mul_cancel₀ _ h]
  unfold libEl pyEl dsEl dsDroplet
  by_cases hy : e.fracWater ≥ 1
  · simp only [if_pos hy]
  · simp only [if_neg hy, ht]
    have hd : 2400 * Real.exp (-73.682 * √e.viscosity) * (w.energy e.pos ^ (0.57 : ℝ) * w.breaking e.pos) * 3.9e-8 * (1 - e.fracWater) * e.area /
        e.density * step * e.density = roy e.viscosity * cDisp w e.pos * 3.9e-8 * (1 - e.fracWater) * e.area * step := by
      unfold roy cDisp
      rw [mul_right_comm, div_mul_cancel₀ _ h]
    have hq : (1 - e.fracWater) * (if w.sediment > 0 ∧ thickness e ≥ 1.0e-4 then libSed w 1.0e-4 step e else 0) * step * e.density =
        if w.sediment > 0 ∧ thickness e ≥ 1.0e-4 then (1 - e.fracWater) * qSed w step e * step else 0 := by
      by_cases hc : w.sediment > 0 ∧ thickness e ≥ 1.0e-4
      · rw [if_pos hc, if_pos hc, ← hs]; ring
      · rw [if_neg hc, if_neg hc]; ring
    rw [hd, hq]
    unfold cap
    split_ifs <;> rfl

/-- So it does, if there are elements. -/
theorem C341_partial (w : Sea) (step : Nat) (els : List El) (h : ∀ e ∈ els, e.density ≠ 0) (hne : els ≠ []) :
    disperseOil w 3.9e-8 1.0e-4 step els = some (els.map (pyEl w step)) := by
  cases els with
  | nil => exact absurd rfl hne
  | cons a r =>
    simp only [disperseOil]
    rw [List.map_congr_left fun e he => C341_element w step e (h e he)]

/-- Oil on one square metre in breaking waves: 84 grams go into the water in a quarter of an hour. -/
example : ∃ (w : Sea) (e : El), e.density ≠ 0 ∧ (libEl w 3.9e-8 1.0e-4 900 e).disp = 0.08424 ∧ (libEl w 3.9e-8 1.0e-4 900 e).sed = 0 := by
  refine ⟨⟨fun _ => 1, fun _ => 1, fun _ => 1, 1, 1000, 0⟩, ⟨(0, 0), [10], 10, 10, 0, 0, 1, 1, 900, 0, 0, 0, 0, 0, -1⟩, by norm_num, ?_, ?_⟩
  · unfold libEl; norm_num
  · unfold libEl; norm_num

/-- Without elements the library cannot be called. -/
theorem C341_counterexample : ¬ C341_claim := by
  intro h
  have := h ⟨fun _ => 0, fun _ => 0, fun _ => 0, 1, 1, 0⟩ 900 [] (by simp)
  simp [disperseOil] at this

end Verif.NatWeath.Lib
