import Mathlib.Analysis.SpecialFunctions.Complex.Arg
import Mathlib.Analysis.SpecialFunctions.Log.Basic
import Mathlib.Analysis.SpecialFunctions.Trigonometric.Basic

/-!
# Directions of winds and currents, and the Rayleigh distribution of wind speeds

Model of `gnome/utilities/transforms.py`, of `RayleighDistribution` (`gnome/utilities/distributions.py` 261-280) and of
`Wind.set_speed_uncertainty` (`gnome/environment/wind.py` 688-730).

Simplifications: real numbers instead of floats, without signed zeros; rounding to 14 decimals is any function that is off by at most half a unit;
infinity is an exceptional value `none`.
-/

namespace Verif.Convert

/-- `x % 360` of Python. -/
noncomputable def mod360 (x : ℝ) : ℝ := x - 360 * (⌊x / 360⌋ : ℤ)

/-- One row of `r_theta_to_uv_wind` (`gnome/utilities/transforms.py` 65-75) after the checks. -/
noncomputable def polarToUV (rnd : ℝ → ℝ) (p : ℝ × ℝ) : ℝ × ℝ :=
  (-rnd (p.1 * Real.sin (p.2 * Real.pi / 180)), -rnd (p.1 * Real.cos (p.2 * Real.pi / 180)))

open Classical in
/-- `r_theta_to_uv_wind` (42-75): `none` when it raises. -/
noncomputable def windToUV (rnd : ℝ → ℝ) (l : List (ℝ × ℝ)) : Option (List (ℝ × ℝ)) :=
  if ∃ p ∈ l, p.2 > 360 ∨ p.2 < 0 then none else if ∃ p ∈ l, p.1 < 0 then none else some (l.map (polarToUV rnd))

/-- One row of `uv_to_r_theta_wind` (91-101): `arctan2 (a, b)` is the argument of `b + a i`. -/
noncomputable def uvToPolar (p : ℝ × ℝ) : ℝ × ℝ :=
  (Real.sqrt (p.1 ^ 2 + p.2 ^ 2), mod360 (Complex.arg ⟨-p.2, -p.1⟩ * 180 / Real.pi + 360))

/-- `uv_to_r_theta_wind` (78-102). -/
noncomputable def uvToWind (l : List (ℝ × ℝ)) : List (ℝ × ℝ) := l.map uvToPolar

/-- `np.dot` with the matrix of the currents (19-20, 37-38). -/
def opposite (p : ℝ × ℝ) : ℝ × ℝ := (-p.1, -p.2)

/-- `r_theta_to_uv_current` (4-20). -/
noncomputable def currentToUV (rnd : ℝ → ℝ) (l : List (ℝ × ℝ)) : Option (List (ℝ × ℝ)) := (windToUV rnd l).map (List.map opposite)

/-- `uv_to_r_theta_current` (23-39). -/
noncomputable def uvToCurrent (l : List (ℝ × ℝ)) : List (ℝ × ℝ) := uvToWind (l.map opposite)

/-! ## Rayleigh -/

/-- `sigma_from_wind` (`gnome/utilities/distributions.py` 262-264). -/
noncomputable def sigmaFromWind (v : ℝ) : ℝ := Real.sqrt (2 / Real.pi) * v

/-- `pdf` (266-269). -/
noncomputable def pdf (x σ : ℝ) : ℝ := x / σ ^ 2 * Real.exp (-1 / 2 * (x ^ 2 / σ ^ 2))

/-- `cdf` (271-273). -/
noncomputable def cdf (x σ : ℝ) : ℝ := 1 - Real.exp (-1 / 2 * (x ^ 2 / σ ^ 2))

open Classical in
/-- `quantile` (275-277): the real part of a complex root, 0 for negative numbers; `none` for infinity, at `f = 1`. -/
noncomputable def quantile (f σ : ℝ) : Option ℝ := if f = 1 then none else some (σ * Real.sqrt (-1 * Real.log ((1 - f) ^ 2)))

/-- `up_or_down`. -/
inductive Dir where
  | up
  | down
deriving DecidableEq

open Classical in
/-- `set_speed_uncertainty` (`gnome/environment/wind.py` 688-730) on speeds and directions: `none` when it answers `False`, a speed `none` is infinite. -/
noncomputable def speedUncertainty (scale : ℝ) (dir : Option Dir) (series : List (ℝ × ℝ)) : Option (List (Option ℝ × ℝ)) :=
  match dir with
  | none => none
  | some d =>
    if scale ≤ 0 ∨ scale > 1 / 2 then none
    else some (series.map fun p => (quantile (match d with
      | .up => 1 / 2 + scale
      | .down => 1 / 2 - scale) (sigmaFromWind p.1), p.2))

end Verif.Convert
