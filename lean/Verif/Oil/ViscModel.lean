import Mathlib.Analysis.SpecialFunctions.Log.Basic
/-!
# Model of the viscosity of an oil at a temperature

Source: `/repo/py_gnome/gnome/spills/gnome_oil.py` lines 661-732 (`kvis_at_temp`, `determine_visc_constants`). Floats are
real numbers. `np.linalg.lstsq` is a parameter `fit`; the theorems ask of it that it minimises the sum of squares
(`IsFit`). Temperatures are single numbers (the code is elementwise on arrays).
-/
namespace Verif.Oil

/-- one measurement: `kvis[i]`, `kvis_ref_temps[i]`, `kvis_weathering[i]` -/
structure VMeas where
  v : ℝ
  temp : ℝ
  weath : ℝ

/-- an oil: its measurements, and `_visc_A`, `_k_v2` once they have been determined -/
structure VOil where
  meas : List VMeas
  consts : Option (ℝ × ℝ)

/-- the points of the fit: `1 / T` and `log v`, lines 727-728 -/
noncomputable def pts (ms : List VMeas) : List (ℝ × ℝ) := ms.map (fun m => (1 / m.temp, Real.log m.v))

open Classical in
/-- lines 710-712: fresh oil only -/
noncomputable def freshV (ms : List VMeas) : List VMeas := ms.filter (fun m => decide (m.weath = 0))

/-- `determine_visc_constants` lines 686-732 -/
noncomputable def determine (fit : List (ℝ × ℝ) → ℝ × ℝ) (ms : List VMeas) : ℝ × ℝ :=
  match freshV ms with
  | [m] => (m.v * Real.exp (-2100 / m.temp), 2100)
  | l => (Real.exp (fit (pts l)).1, (fit (pts l)).2)

/-- `kvis_at_temp` lines 661-684 -/
noncomputable def kvisAt (fit : List (ℝ × ℝ) → ℝ × ℝ) (o : VOil) (T : ℝ) : VOil × ℝ :=
  let c := match o.consts with
    | some c => c
    | none => determine fit o.meas
  ({ o with consts := some c }, c.1 * Real.exp (c.2 / T))

/-- a new oil, `_init_from_json` lines 286, 300-301 -/
def newOil (ms : List VMeas) : VOil := ⟨ms, none⟩

/-- assigning (or updating from the client) the measurements of an oil: plain attributes -/
def setMeas (o : VOil) (ms : List VMeas) : VOil := { o with meas := ms }

end Verif.Oil
