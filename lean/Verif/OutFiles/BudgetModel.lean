import Verif.Py
import Verif.OutFiles.GeoModel
import Mathlib.Algebra.Order.Field.Rat
import Mathlib.Algebra.Order.BigOperators.Group.List

/-!
# The oil budget table

Source: `py_gnome/gnome/outputters/oil_budget.py` `OilBudgetOutput` (36-142).

Simplifications: masses are rationals, written exactly (`:.8g` is left out); times are whole seconds; the columns are given
by the names of the mass balance.
-/
namespace Verif.OutFiles
open Verif.Py (Dict)

/-- `budget_categories` (36-43). -/
def budgetCategories : List String :=
  ["amount_released", "evaporated", "natural_dispersion", "sedimentation", "beached", "floating", "off_maps"]

/-- A row (125-137): minutes and hours, then the categories, blank if they are not in the mass balance. -/
structure Row where
  time : Int
  hours : ℚ
  cells : List (Option ℚ)
  deriving DecidableEq

/-- `hours + minutes / 60` (121-127) of a run time in seconds. -/
def hoursCell (run : Int) : ℚ :=
  let hours := Int.fdiv run 3600
  let minutes := Int.fdiv (run - hours * 3600) 60
  hours + minutes / 60

/-- The row of a step (119-137). -/
def budgetRow (start t : Int) (mb : Dict String ℚ) : Row :=
  { time := t, hours := hoursCell (t - start), cells := budgetCategories.map fun k => mb.get? k }

/-- The table after step `k` of a run (86-137): the header, which is left out, and a row for each step that is written. -/
def budgetRows (o : Output.Cfg) (t0 ts : Int) (L : Nat) (mb : Nat → Dict String ℚ) : Nat → List Row
  | 0 => if wrote .budget (construct .budget o) t0 ts L 0 then [budgetRow t0 t0 (mb 0)] else []
  | k + 1 => budgetRows o t0 ts L mb k ++
      if wrote .budget (construct .budget o) t0 ts L (k + 1) then [budgetRow t0 (t0 + (k + 1 : Nat) * ts) (mb (k + 1))] else []

end Verif.OutFiles
