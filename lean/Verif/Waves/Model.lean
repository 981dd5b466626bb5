import Mathlib.Analysis.SpecialFunctions.Pow.Real
import Mathlib.Analysis.Real.Sqrt
/-!
# Model of waves

Sources in `/repo/py_gnome/gnome`: `utilities/weathering/adios2.py` 17-99 (`Adios2`), `lehr_simecek.py` 10-42,
`monahan.py` 6-21, `environment/waves.py` 110-230 (`Waves.get_value`, `get_emulsification_wind` and helpers);
gravity from `constants.py` line 18. Floats are real numbers; one element (the code is elementwise on arrays). The wind speed is a
parameter, not negative; masked winds are not modelled. Wave height and fetch are those of `Water.get`, in metres.
-/
namespace Verif.Waves

/-- `constants.gravity` -/
noncomputable def g : ℝ := 9.80665

/-- the speed at which the two laws meet, adios2.py 31 -/
noncomputable def uT : ℝ := 4.433049525859078

open Classical in
/-- wind stress factor, line 31 -/
noncomputable def stress (U : ℝ) : ℝ := if U < uT then 0.71 * U ^ (1.23 : ℝ) else U

open Classical in
/-- lines 35-40 -/
noncomputable def sigHeight (U : ℝ) (fetch : Option ℝ) : ℝ :=
  match fetch with
  | none => 0.243 * stress U * stress U / g
  | some f =>
    if f < 2268 * stress U ^ 2 then 0.0016 * Real.sqrt (f / g) * stress U else 0.243 * stress U * stress U / g

/-- `Adios2.wave_height` lines 17-47: RMS height, at most 30 m -/
noncomputable def waveHeight (U : ℝ) (fetch : Option ℝ) : ℝ := min (0.707 * sigHeight U fetch) 30

open Classical in
/-- `Adios2.wind_speed_from_height` lines 49-64 -/
noncomputable def pseudoWind (H : ℝ) : ℝ :=
  let u := Real.sqrt (g * H / 0.243)
  if u < uT then (u / 0.71) ^ (0.813008 : ℝ) else u

open Classical in
/-- `Adios2.mean_wave_period` lines 66-87 -/
noncomputable def meanPeriod (U : ℝ) (height fetch : Option ℝ) : ℝ :=
  match height with
  | some h => 7.508 * Real.sqrt h
  | none =>
    let ws := U * 0.71 * U ^ (1.23 : ℝ)
    match fetch with
    | none => 0.83 * ws
    | some f => if f ≥ 2268 * ws ^ 2 then 0.83 * ws else 0.06238 * (f * ws) ^ (0.333333333 : ℝ)

/-- `Monahan.whitecap_decay_constant` -/
noncomputable def decay (salinity : ℝ) : ℝ := 0.03742857 * salinity + 2.54

open Classical in
/-- `LehrSimecek.whitecap_fraction` -/
noncomputable def whitecap (U salinity : ℝ) : ℝ :=
  min (0.5 * (if U < 4 then (0.0125 * U) / decay salinity else (0.01 * U + 0.01) / decay salinity)) 1

/-- what `Waves.get_value` returns, but for the energy -/
structure Out where
  height : ℝ
  period : ℝ
  whitecaps : ℝ

/-- the water: `wave_height` and `fetch` in metres, salinity -/
structure Wat where
  height : Option ℝ
  fetch : Option ℝ
  salinity : ℝ

/-- `Waves.get_value` waves.py 117-158 for wind speed `U` -/
noncomputable def getValue (w : Wat) (U : ℝ) : Out :=
  match w.height with
  | none => ⟨waveHeight U w.fetch, meanPeriod U none w.fetch, whitecap U w.salinity⟩
  | some h => ⟨0.707 * h, meanPeriod (pseudoWind h) (some h) w.fetch, whitecap (pseudoWind h) w.salinity⟩

/-- `Adios2.dissipative_wave_energy` lines 89-99 -/
noncomputable def energy (rho H : ℝ) : ℝ := 0.0034 * rho * g * H ^ 2

open Classical in
/-- `get_emulsification_wind` waves.py 172-198 -/
noncomputable def emulsWind (w : Wat) (U : ℝ) : ℝ :=
  match w.height with
  | none => U
  | some h => if U < pseudoWind h then pseudoWind h else U

end Verif.Waves
