import Mathlib.Data.Rat.Floor
import Mathlib.Algebra.Order.Field.Rat
import Mathlib.Algebra.Order.Ring.Abs

/-!
# The ages of elements in a run

Source: `py_gnome/gnome/model.py` (`step` 1159-1226, `release_elements` 1237-1271, `step_is_done` 1106-1138, `current_time_step` 616-620),
`py_gnome/gnome/spill_container.py` (`release_elements` 881-933, `model_step_is_done` 971-988), `py_gnome/gnome/spills/spill.py`
(`release_elements` 431-464), `py_gnome/gnome/array_types.py` 253 (an age is an int32 and begins at 0).

Simplifications: times are seconds as rational numbers; of an element only its spill, its number within the spill and its age are kept; which
elements are removed in a step (off the map, taken up) is any condition, chosen anew in each step; ages do not overflow. A release is the
function `expected` that says how many elements there should be at a time (`num_elements_after_time`, the subject of C16, C17 and C281). A spill is
on or off for the whole run. What movers and weatherers do is left out, as none of them writes the age.
-/
namespace Verif.Run.Age

/-- A spill: `on`, and `release.num_elements_after_time`. -/
structure Spill where
  on : Bool
  expected : ℚ → Nat

/-- An element: `spill_num`, how many elements of the spill were released before it, `age`. -/
structure El where
  spill : Nat
  num : Nat
  age : Int
deriving DecidableEq, Repr

/-- The state: `model_time`, the elements, `_num_released` of each spill. -/
structure State where
  clock : ℚ
  els : List El
  released : Nat → Nat

/-- `Spill.release_elements` (`spill.py:431-464`) of spill number `i` for an interval that ends at `t`. -/
def releaseOne (s : Spill) (i : Nat) (t : ℚ) (st : State) : State :=
  if s.on = false then st
  else if s.expected t ≤ st.released i then st
  else
    { st with
      els := st.els ++ (List.range (s.expected t - st.released i)).map (fun j => ⟨i, st.released i + j, 0⟩)
      released := fun k => if k = i then s.expected t else st.released k }

/-- `SpillContainer.release_elements` (`spill_container.py:896-927`): the spills in their order, the first has number `i`. -/
def releaseAll : Nat → List Spill → ℚ → State → State
  | _, [], _, st => st
  | i, s :: ss, t, st => releaseAll (i + 1) ss t (releaseOne s i t st)

/-- One element gets older (`model.py:1138`); the assignment to an array of int32 cuts off the fraction. -/
def older (dt : ℚ) (e : El) : El := { e with age := ⌊(e.age : ℚ) + |dt|⌋ }

/-- `step` after the first one (`model.py:1200-1219`); elements for which `keep` is false have status `to_be_removed`. -/
def step (ss : List Spill) (dt : ℚ) (keep : El → Bool) (st : State) : State :=
  let s1 := releaseAll 0 ss (st.clock + dt / 2) st
  let s2 := { s1 with els := (s1.els.filter keep).map (older dt) }
  let s3 := { s2 with clock := st.clock + dt }
  releaseAll 0 ss s3.clock s3

/-- The first step (`model.py:1170-1192`): only what is due at the start is released. -/
def first (ss : List Spill) (start : ℚ) : State :=
  releaseAll 0 ss start ⟨start, [], fun _ => 0⟩

/-- A run of as many further steps as there are conditions. -/
def run (ss : List Spill) (start dt : ℚ) (keeps : List (El → Bool)) : State :=
  keeps.foldl (fun st keep => step ss dt keep st) (first ss start)

end Verif.Run.Age
