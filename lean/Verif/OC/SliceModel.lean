import Verif.OC.Model
/-!
# Model of slices of an `OrderedCollection`

Source: `/repo/py_gnome/gnome/utilities/orderedcollection.py`, lines 203-216.
-/
namespace Verif.OC
open Verif.Py

/-- Python's `range(a, b, c)` for `c ≠ 0` -/
def pyRange (a b c : Int) : List Int :=
  if 0 < c then (List.range ((b - a + c - 1) / c).toNat).map (fun i : Nat => a + c * (i : Int))
  else (List.range ((a - b - c - 1) / (-c)).toNat).map (fun i : Nat => a + c * (i : Int))

section
variable {α ι : Type} [DecidableEq ι]

/-- the list comprehension `[self.get(ix) for ix in …]`: the first exception ends it -/
def getAll (s : State α ι) : List Int → Except Err (List (Option α))
  | [] => .ok []
  | i :: is =>
    match getPos s i with
    | .error e => .error e
    | .ok x =>
      match getAll s is with
      | .error e => .error e
      | .ok xs => .ok (x :: xs)

/-- `__getitem__` with a slice (lines 211-214) with `_slice_attr` (lines 203-208): what is left out becomes 0, the length
and 1; nothing is clipped. `range` with step 0 raises ValueError. -/
def slice (s : State α ι) (start stop step : Option Int) : Except Err (List (Option α)) :=
  let c := step.getD 1
  if c = 0 then .error .valueError
  else getAll s (pyRange (start.getD 0) (stop.getD (len s : Int)) c)

end
end Verif.OC
