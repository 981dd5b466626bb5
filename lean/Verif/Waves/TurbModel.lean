import Verif.Waves.Model
import Mathlib.Analysis.SpecialFunctions.Log.Basic
/-!
# Turbulence and whitecaps of waves from the wind

Sources in `/repo/py_gnome/gnome`: `environment/waves.py` 232-259 (`Waves.energy_dissipation_rate`), `utilities/weathering/pierson_moskowitz.py`
29-42, `utilities/weathering/zhao_toba.py` 12-35. Floats are real numbers. Where the roughness is exactly 10 m the code divides by zero; the
statements leave this case out.
-/
namespace Verif.Waves

/-- `PiersonMoskowitz.peak_wave_speed` 29-33 -/
noncomputable def peakSpeed (U : ℝ) : ℝ := U * 1.17

open Classical in
/-- `PiersonMoskowitz.peak_angular_frequency` 36-42 -/
noncomputable def peakFrequency (U : ℝ) : ℝ := if 0 < U then 0.86 * g / U else 0.86 * g

/-- `z_0`, waves.py 255 -/
noncomputable def roughness (H U : ℝ) : ℝ := 1200 * H * (H / (2 * Real.pi * peakSpeed U) * peakFrequency U) ^ (4.5 : ℝ)

open Classical in
/-- `Waves.energy_dissipation_rate` 232-259 -/
noncomputable def turbulence (H U : ℝ) : ℝ :=
  if H = 0 ∨ U = 0 then 0
  else 100 * (0.03 * (0.4 * U / Real.log (10 / roughness H U))) ^ 3 / H

open Classical in
/-- `C_D`, zhao_toba.py 24-27 -/
noncomputable def drag (U : ℝ) : ℝ := if 2.4 < U then 0.0008 + 0.000065 * U else (0.0008 + 2.4 * 0.000065) * U / 2.4

open Classical in
/-- `ZhaoToba.percent_whitecap_coverage` 12-35 -/
noncomputable def coverage (U : ℝ) : ℝ :=
  if U = 0 then 0
  else 3.88 * 10 ^ (-5 : ℤ) * (drag U * U ^ 2 / (1.5 * 10 ^ (-5 : ℤ) * peakFrequency U)) ^ (1.09 : ℝ)

end Verif.Waves
