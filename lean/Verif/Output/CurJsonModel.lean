import Verif.Py
import Mathlib.Analysis.Real.Sqrt

/-!
# Currents in the JSON output

Source: `py_gnome/gnome/outputters/json.py` `CurrentJsonOutput.write_output` (330-367); `movers/c_current_movers.py`
`get_scaled_velocities` of the cats mover (407-425), of grid movers (633-655, 912-926, 1131-1153) and of the component mover (1419-1440);
`movers/c_wind_movers.py` (462-478, 604-618).

Simplifications: a time is a number of seconds, as an integer or as a `datetime`; what a mover answers at a time is given; the rounding of numpy to two decimals is a
parameter; angles are left out.
-/
namespace Verif.Output.CurJson
open Verif.Py (Dict)

/-- the time that is handed to a mover: seconds or a `datetime` -/
inductive Clock | sec (s : Int) | date (s : Int)
  deriving DecidableEq, Repr

/-- the kinds of movers: in Python; on a pattern (a cats mover with or without a tide, or components); on a grid -/
inductive Kind | py | pattern (tide : Bool) | triangles (onCells : Bool) | regular | quads
  deriving DecidableEq, Repr

structure Mover (V : Type) where
  id : Nat
  kind : Kind
  vel : Int → List V

inductive Err | typeError
  deriving DecidableEq, Repr

variable {V : Type}

/-- `get_scaled_velocities`: a mover in C takes seconds, one in Python a `datetime`; a pattern without a tide does not look at the time; the number of cells of
a grid of quads is a float, which `np.zeros` refuses (649-651) -/
def ask (m : Mover V) (t : Clock) : Except Err (List V) :=
  match m.kind, t with
  | .py, .date s => .ok (m.vel s)
  | .py, .sec _ => .error .typeError
  | .pattern false, .sec s => .ok (m.vel s)
  | .pattern false, .date s => .ok (m.vel s)
  | .quads, _ => .error .typeError
  | _, .sec s => .ok (m.vel s)
  | _, .date _ => .error .typeError

/-- the loop over the movers (340-367): once a mover in Python is met, the time is a `datetime` for all that follow -/
def loop {β : Type} (shown : V → β) (now : Int) : Clock → List (Mover V) → Dict Nat (List β) → Except Err (Dict Nat (List β))
  | _, [], out => .ok out
  | t, m :: ms, out =>
    let t := if m.kind = .py then Clock.date now else t
    match ask m t with
    | .error e => .error e
    | .ok vs => loop shown now t ms (out.set m.id (vs.map shown))

/-- `write_output` of a step at time `now` -/
def write {β : Type} (shown : V → β) (now : Int) (ms : List (Mover V)) : Except Err (Dict Nat (List β)) :=
  loop shown now (.sec now) ms []

/-- the magnitude that is written (348-362) -/
noncomputable def magnitude (rnd : ℝ → ℝ) (v : ℝ × ℝ) : ℝ := rnd (Real.sqrt (rnd v.1 ^ 2 + rnd v.2 ^ 2))

end Verif.Output.CurJson
