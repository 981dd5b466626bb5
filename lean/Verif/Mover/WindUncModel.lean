import Verif.Mover.MoveModel
import Mathlib.Analysis.SpecialFunctions.Pow.Real

/-!
# How the uncertainty of the wind is drawn

Model of `WindMover.update_uncertainty` (the two standard deviations, `gnome/movers/py_wind_movers.py` 287-292) and
`update_uncertainty_values` (303-342).  Simplification: exact real arithmetic, the generator delivers the numbers given.
-/

namespace Verif.Mover

/-- `sigma2` (289-290): half the square of `speed_scale * 0.315 * (elapsed - delay) ** 0.147`. -/
noncomputable def sigma2 (speedScale elapsed delay : ℝ) : ℝ :=
  (speedScale * (315 / 1000) * (elapsed - delay) ^ ((147 : ℝ) / 1000)) * (speedScale * (315 / 1000) * (elapsed - delay) ^ ((147 : ℝ) / 1000)) / 2

/-- `sigma_theta` (292), in degrees. -/
noncomputable def sigmaTheta (angleScale elapsed delay : ℝ) : ℝ := angleScale * (273 / 100) * √(√(elapsed - delay))

/-- A draw: `cos_arg` is `2π a`, `srt` is `√(-2 log u)` (316-317). -/
structure Draw where
  a : ℝ
  u : ℝ

/-- What the generator may deliver: `a` in `[0, 1]`, `u` in `[0.001, 0.999]`. -/
def Draw.Possible (d : Draw) : Prop := 0 ≤ d.a ∧ d.a ≤ 1 ∧ 1 / 1000 ≤ d.u ∧ d.u ≤ 999 / 1000

noncomputable def Draw.srt (d : Draw) : ℝ := √(-2 * Real.log d.u)

/-- The two terms of a row (341-342). -/
noncomputable def Draw.cosTerm (d : Draw) : ℝ := d.srt * Real.cos (2 * Real.pi * d.a)

noncomputable def Draw.sinTerm (d : Draw) : ℝ := d.srt * Real.sin (2 * Real.pi * d.a)

/-- The test for the angle, 331 and 336. -/
def Draw.ok (σθ : ℝ) (d : Draw) : Prop := |σθ * d.srt * Real.sin (2 * Real.pi * d.a)| ≤ 60

/-- 331-339: a draw that fails the test is replaced by the first of ten that passes, if there is one. -/
noncomputable def pick (σθ : ℝ) (first : Draw) (retries : List Draw) : Draw :=
  haveI := Classical.propDecidable
  if first.ok σθ then first else ((retries.take 10).find? fun d => decide (d.ok σθ)).getD first

/-- The row of uncertainty used at a time `elapsed`, made of the draw kept and of the values of that time. -/
noncomputable def rowAt (speedScale angleScale elapsed delay diff r1 r2 : ℝ) (d : Draw) : WUnc :=
  ⟨sigma2 speedScale elapsed delay, sigmaTheta angleScale elapsed delay, diff, d.cosTerm, d.sinTerm, r1, r2⟩

end Verif.Mover
