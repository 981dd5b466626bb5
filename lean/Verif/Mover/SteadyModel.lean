import Verif.Mover.MoveModel
/-!
# Runs in steady uniform currents

Model of the steps of a run in open water, `Model.move_elements` step after step (`/repo/py_gnome/gnome/model.py` 989-1016, 1161-1235), when the movers are
`SimpleMover` (`gnome/movers/simple_mover.py` 88-141) and `CurrentMover` with a current that is the same everywhere and always
(`gnome/movers/py_current_movers.py` 198-226), in the forecast.  `run_backwards` makes the time step negative (model.py 318-324, 528-545), nothing else.

Simplifications: those of `Verif.Mover.MoveModel`; the elements stay on the map and in the water (no land, no release or removal on the way); the movers are
active throughout.
-/
namespace Verif.Mover
open Verif.TimeUtil

/-- A mover in the same current everywhere and always. -/
inductive Steady where
  | simple (vel : V)
  | current (m : Method) (scale : ℝ) (vel : V)

/-- The mover of a step of `dt` seconds at time `t`. -/
noncomputable def Steady.mover (z : Zone) (dt t : Int) : Steady → AnyMover
  | .simple vel => .simple vel (1 / 2) true true false (fun _ => 0)
  | .current m scale vel => .current true scale (delta m z (fun _ _ => vel) (dt : Rat) t) (fun _ => none)

/-- One step (model.py 989-1016): the positions set to the sums of the moves. -/
noncomputable def moveStep (dt : ℝ) (ms : List AnyMover) (els : List LE) : Option (List LE) :=
  (nextPositions dt ms els).map fun ps => List.zipWith (fun e p => { e with pos := p }) els ps

/-- `n` steps from the time `t` (microseconds; model.py 1161-1235). -/
noncomputable def steadyRun (z : Zone) (w : List Steady) (dt : Int) : Nat → Int → List LE → Option (List LE)
  | 0, _, els => some els
  | n + 1, t, els => (moveStep dt (w.map (Steady.mover z dt t)) els).bind (steadyRun z w dt n (t + dt * 1000000))

end Verif.Mover
