import Verif.NatWeath.Model

/-!
# The dispersion of the library

Sources: `py_gnome/lib_gnome/Weatherers_c.cpp` `adios2_disperse` (103-221), `py_gnome/gnome/cy_gnome/cy_weatherers.pyx` `disperse_oil` (48-91);
`py_gnome/gnome/weatherers/natural_dispersion.py` `disperse_oil_DS` (275-370) is in `Verif.NatWeath.Model` (`dsEl`, `dsDroplet`).

Simplifications: real numbers. The arrays are as long as the one of masses. The oil has a density that is not zero. Only steps that are whole
numbers are modelled.
-/
namespace Verif.NatWeath.Lib

open Verif.NatWeath

/-- The output arrays for one element: dispersed, sedimented, size of droplets. -/
structure Out where
  disp : ℝ
  sed : ℝ
  droplet : ℝ

/-- `thickness` (`Weatherers_c.cpp:156-162`). -/
noncomputable def libThickness (e : El) : ℝ :=
  if e.area > 0 then (e.mass / e.density) / (1 - e.fracWater) / e.area else 0

/-- `Q_sed`, a volume per time (`Weatherers_c.cpp:176-196`). -/
noncomputable def libSed (w : Sea) (ka step : ℝ) (e : El) : ℝ :=
  let droplet := 0.613 * libThickness e
  let speed := droplet * droplet * 9.80665 * (1 - e.density / w.rhoW) / (18 * w.viscW)
  let v := 0.588 * (libThickness e ^ (1.7 : ℝ) - 5.0e-8)
  let q := 2400 * Real.exp (-73.682 * √e.viscosity) * (w.energy e.pos ^ (0.57 : ℝ) * w.breaking e.pos) * (if v < 0 then 0 else v) * e.area
  let cOil := q * step / (speed * step + 1.5 * w.height e.pos)
  1.6 * ka * √(w.height e.pos * w.energy e.pos * w.breaking e.pos / (w.rhoW * w.viscW)) * cOil * w.sediment / e.density

/-- The body of the loop (`Weatherers_c.cpp:126-217`). -/
noncomputable def libEl (w : Sea) (entrain ka : ℝ) (step : Nat) (e : El) : Out :=
  if e.fracWater ≥ 1 then ⟨0, 0, 0⟩
  else
    let qDisp := 2400 * Real.exp (-73.682 * √e.viscosity) * (w.energy e.pos ^ (0.57 : ℝ) * w.breaking e.pos) * entrain * (1 - e.fracWater) * e.area / e.density
    let qSed := if w.sediment > 0 ∧ libThickness e ≥ 1.0e-4 then libSed w ka step e else 0
    let d := qDisp * step * e.density
    let s := (1 - e.fracWater) * qSed * step * e.density
    if d + s > e.mass then ⟨d / (d + s) * e.mass, e.mass - d / (d + s) * e.mass, 0.613 * libThickness e⟩
    else ⟨d, s, 0.613 * libThickness e⟩

/-- `cy_weatherers.disperse_oil`: `none` is the IndexError of `&frac_water[0]` (`cy_weatherers.pyx:69-85`); the step has to be a whole number. -/
noncomputable def disperseOil (w : Sea) (entrain ka : ℝ) (step : Nat) : List El → Option (List Out)
  | [] => none
  | els => some (els.map (libEl w entrain ka step))

end Verif.NatWeath.Lib
