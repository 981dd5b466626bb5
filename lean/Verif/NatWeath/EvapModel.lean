import Verif.NatWeath.Model
import Mathlib.Analysis.SpecialFunctions.Log.Basic

/-!
# Vapour pressure, and the wind that weatherers see

Sources: `py_gnome/gnome/spills/gnome_oil.py` `vapor_pressure` (376-398); `py_gnome/gnome/weatherers/core.py` `get_wind_speed` (107-122);
`py_gnome/gnome/environment/environment_objects.py` `IceAwareWind.at` (947).

Simplifications: real numbers; of a wind only its speed at each point, `none` for a masked value. With masked values the comparison `retval < min_val` is that of the
data that are there (the weatherer of evaporation has `min_val` and `fill_value` both 1, so it makes no difference there).
-/
namespace Verif.NatWeath.Evap
open Verif.NatWeath

/-- `C_2i` (391) -/
noncomputable def c2 (b : ℝ) : ℝ := 0.19 * b - 18

/-- `D_S` (390) -/
noncomputable def ds (b : ℝ) : ℝ := 8.75 + 1.987 * Real.log b

/-- `vapor_pressure` (376-398) of a component with boiling point `b` at temperature `T` -/
noncomputable def vapor (b T : ℝ) : ℝ :=
  Real.exp ((ds b * (b - c2 b) ^ 2 / (0.97 * 1.987 * b)) * (1 / (b - c2 b) - 1 / (T - c2 b))) * 101325

/-- a component as the oil gives it: boiling point, molecular weight -/
structure Raw where
  bp : ℝ
  mw : ℝ

/-- the components of an oil in water of a temperature (evaporation.py 127-130); what evaporation does not use is left at 0 -/
noncomputable def compsAt (T : ℝ) (o : List Raw) : List Comp := o.map (fun r => ⟨vapor r.bp T, r.mw, 0, false, 0⟩)

/-- what evaporates of an element in a step (evaporation.py 223-241) -/
noncomputable def evaporated (T : ℝ) (o : List Raw) (dt U : ℝ) (e : El) : ℝ := (evapEl T (compsAt T o) dt U e).2

/-- kinds of winds -/
inductive Wind
  | plain (speed : ℝ × ℝ → Option ℝ)
  | iceAware (speed : ℝ × ℝ → Option ℝ) (factor : ℝ × ℝ → ℝ)

/-- the smallest value, and the value where there are no data, for evaporation (evaporation.py 107) -/
noncomputable def floorSpeed : Option ℝ → ℝ
  | none => 1
  | some u => if u < 1 then 1 else u

/-- `get_wind_speed` for evaporation (core.py 107-122): winds that know of ice are called with `min_val` as a positional argument, which `at` does not take: `none` -/
noncomputable def windSpeed (w : Wind) (ps : List (ℝ × ℝ)) : Option (List ℝ) :=
  match w with
  | .plain s => some (ps.map (fun p => floorSpeed (s p)))
  | .iceAware _ _ => none

end Verif.NatWeath.Evap
