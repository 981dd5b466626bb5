import Verif.Py
import Mathlib.Data.Rat.Floor
/-!
# Model of `FateDataView` (the masked views that weatherers work on)

Source: `/repo/py_gnome/gnome/spill_container.py` lines 24-159, 628-672. One number per element and array (arrays with
several components per element behave the same row by row).
-/
namespace Verif.FateView
open Verif.Py

abbrev Col := List ℚ
abbrev Arrs := Dict String Col

/-- the views, lines 29-30 -/
inductive Fate
  | surface | subsurf | skim | burn | disperse | nonWeather | all
  deriving DecidableEq, Repr

/-- bit flags (basic_types.py lines 89-100) -/
def flag : Fate → Nat
  | .nonWeather => 1 | .surface => 2 | .subsurf => 4 | .skim => 8 | .burn => 16 | .disperse => 32 | .all => 0

/-- a view attribute: the container's own dict (line 66), or a dict of copies -/
inductive View
  | alias
  | own (d : Arrs)

structure St where
  arrays : Arrs
  views : Fate → View

/-- `sc[name]` where the array must exist (`fate_status` and `mass` always do when weathering is on) -/
def col (g : String → Option Col) (name : String) : Col := (g name).getD []

/-- one element, line 51: `fate_status & flag == flag` -/
def hasFlag (v : ℚ) (f : Fate) : Bool := (v.num.toNat &&& flag f) == flag f

/-- `_get_fate_mask` lines 42-53; `all` has flag 0, so it takes every element with positive mass -/
def mask (g : String → Option Col) (f : Fate) : List Bool :=
  List.zipWith (fun s m => hasFlag s f && decide (0 < m)) (col g "fate_status") (col g "mass")

/-- `array[mask]` -/
def pick : List Bool → Col → Col
  | true :: ms, x :: xs => x :: pick ms xs
  | false :: ms, _ :: xs => pick ms xs
  | _, _ => []

/-- `array[mask] = vals` for `vals` of the right length -/
def merge : List Bool → Col → Col → Col
  | true :: ms, _ :: xs, v :: vs => v :: merge ms xs vs
  | false :: ms, x :: xs, vs => x :: merge ms xs vs
  | _, xs, _ => xs

/-- numpy's masked assignment: the lengths must agree, but a single value is broadcast -/
def assign (ms : List Bool) (c vals : Col) : Except Err Col :=
  let n := (pick ms c).length
  if vals.length = n then .ok (merge ms c vals)
  else match vals with
    | [v] => .ok (merge ms c (List.replicate n v))
    | _ => .error .valueError

def setView (s : St) (f : Fate) (v : View) : St := { s with views := fun f' => if f' = f then v else s.views f' }

/-- `reset` lines 35-40 -/
def reset (s : St) : St := { s with views := fun _ => .own [] }

/-- the loop of `_set_data` lines 69-75 with a copy dict; KeyError for an array that does not exist -/
def fill (g : String → Option Col) (ms : List Bool) : List String → Arrs → Arrs × Option Err
  | [], d => (d, none)
  | n :: ns, d =>
    match g n with
    | none => (d, some .keyError)
    | some c => fill g ms ns (d.set n (pick ms c))

/-- the same loop when the view is the container's own dict: the container's arrays are overwritten -/
def fillAlias (ms : List Bool) : List String → Arrs → Arrs × Option Err
  | [], d => (d, none)
  | n :: ns, d =>
    match d.get? n with
    | none => (d, some .keyError)
    | some c => fillAlias ms ns (d.set n (pick ms c))

/-- `get_data` lines 79-92, `_set_data` lines 55-77 -/
def get (s : St) (names : List String) (f : Fate) : St × Option Err :=
  let ms := mask s.arrays.get? f
  if ms.all id then (setView s f .alias, none)
  else match s.views f with
    | .own d => let r := fill s.arrays.get? ms names d; (setView s f (.own r.1), r.2)
    | .alias => let r := fillAlias ms names s.arrays; ({ s with arrays := r.1 }, r.2)

/-- the caller replaces or changes in place an array of the view: `data[name] = c` / `data[name][:] = c` -/
def modify (s : St) (f : Fate) (name : String) (c : Col) : St :=
  match s.views f with
  | .alias => { s with arrays := s.arrays.set name c }
  | .own d => setView s f (.own (d.set name c))

/-- `np.isclose(x, 0)` (absolute tolerance 1e-8) -/
def closeToZero (x : ℚ) : Bool := decide (|x| ≤ 1 / 100000000)

/-- the loop of `update_sc` lines 139-140 -/
def writeBack (ms : List Bool) : Arrs → Arrs → Arrs × Option Err
  | [], a => (a, none)
  | (k, v) :: d, a =>
    match a.get? k with
    | none => (a, some .keyError)
    | some c =>
      match assign ms c v with
      | .error e => (a, some e)
      | .ok c' => writeBack ms d (a.set k c')

/-- whether the views must be forgotten, lines 127-137 -/
def mustReset (g : String → Option Col) (ms : List Bool) (d : Arrs) : Bool :=
  (match d.get? "fate_status" with
    | some fs => decide (pick ms (col g "fate_status") ≠ fs)
    | none => false) ||
  (match d.get? "mass" with
    | some m => m.any closeToZero
    | none => false)

/-- `update_sc` lines 94-143 -/
def update (s : St) (f : Fate) : St × Option Err :=
  match s.views f with
  | .alias => (reset s, none)
  | .own d =>
    let ms := mask s.arrays.get? f
    let r := writeBack ms d s.arrays
    match r.2 with
    | some e => ({ s with arrays := r.1 }, some e)
    | none =>
      let s' := { s with arrays := r.1 }
      (if mustReset s.arrays.get? ms d then reset s' else s', none)

/-- what a weatherer does in one call: get the view, change arrays in it, write it back -/
def bracket (s : St) (f : Fate) (names : List String) (mods : List (String × Col)) : St × Option Err :=
  match get s names f with
  | (s1, some e) => (s1, some e)
  | (s1, none) => update (mods.foldl (fun s m => modify s f m.1 m.2) s1) f

/-- the caller writes to the container directly -/
def writeSc (s : St) (name : String) (c : Col) : St := { s with arrays := s.arrays.set name c }

end Verif.FateView
