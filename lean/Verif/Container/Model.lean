import Verif.Py
import Mathlib.Data.Rat.Floor
/-!
# Model of the element arrays of a spill container

Sources: `/repo/py_gnome/gnome/spill_container.py` and `/repo/py_gnome/gnome/array_types.py`.
A data array is a list of rows, a row a list of rationals (a scalar is a one-element row; dtype, float rounding and the
32-bit range of ids are not modelled). Element initialisation, movers and weatherers write single cells (`write`).
-/
namespace Verif.Container
open Verif.Py

abbrev Row := List ℚ
abbrev Arrays := Dict String (List Row)

/-- the three array type classes (array_types.py lines 50-155, 158-186, 189-228) -/
inductive Kind where
  | plain | id | divide
  deriving DecidableEq, Repr

/-- an `ArrayType`: class and `initial_value` (for `id` the initial value is the shared counter, see `World`) -/
structure AT where
  kind : Kind
  init : Row := [0]
  deriving DecidableEq

abbrev Types := List (String × AT)

/-- `_array_types` and `_data_arrays` -/
structure Cont where
  types : Types
  arrays : Arrays
  deriving DecidableEq

/-- `initialize(n)` of an array type (array_types.py lines 86-114, 162-176). `ctr` is the id counter. -/
def initRows (a : AT) (ctr : ℚ) (n : Nat) : List Row :=
  match a.kind with
  | .id => (List.range n).map (fun (i : Nat) => [ctr + i])
  | _ => List.replicate n a.init

/-- `for name, at in types.items(): arrays[name] = g(at, arrays[name])`; a missing array would be a KeyError, it is
skipped here (the invariant shows that it never happens). -/
def applyAll (g : String → AT → List Row → List Row) : Types → Arrays → Arrays
  | [], d => d
  | (name, a) :: ts, d =>
    match d.get? name with
    | none => applyAll g ts d
    | some rows => applyAll g ts (d.set name (g name a rows))

/-- `_append_data_arrays` (spill_container.py lines 567-591) -/
def append (c : Cont) (ctr : ℚ) (n : Nat) : Cont :=
  { c with arrays := applyAll (fun _ a rows => rows ++ initRows a ctr n) c.types c.arrays }

/-- `rewind` (lines 738-764): the arrays and array types are purged -/
def rewind (_ : Cont) : Cont := { types := [], arrays := [] }

/-- the array part of `prepare_for_model_run` (lines 815-847): every array becomes empty; arrays that are not in the new
types keep their contents. `ts` are the default array types updated by the requested ones. -/
def prepare (c : Cont) (ts : Types) : Cont :=
  { types := ts, arrays := ts.foldl (fun d p => d.set p.1 []) c.arrays }

/-- `len(container)` (lines 318-330): length of the first array -/
def len (c : Cont) : Nat :=
  match c.arrays with
  | [] => 0
  | (_, rows) :: _ => rows.length

/-- `np.allclose(sum(l), 1.0)` -/
def closeToOne (l : List ℚ) : Bool := decide (|l.sum - 1| ≤ 1 / 100000000 + 1 / 100000)

/-- `split_element` of an array type (array_types.py lines 121-137, 178-186, 190-228) -/
def splitRow (a : AT) (num : Nat) (v : Row) (lfrac : Option (List ℚ)) : Except Err (List Row) :=
  if num < 2 then .error .valueError
  else match a.kind with
    | .divide =>
      match lfrac with
      | none => .ok (List.replicate num (v.map (· / (num : ℚ))))
      | some l =>
        if l.length ≠ num then .error .valueError
        else if !closeToOne l then .error .valueError
        else .ok (l.map (fun f => v.map (· * f)))
    | _ => .ok (List.replicate num v)

/-- `np.insert(data, idx, split[:-1], 0); data[idx + len(split) - 1] = split[-1]` (spill_container.py lines 963-964) -/
def splice (rows : List Row) (idx : Nat) (new : List Row) : List Row :=
  (rows.take idx ++ new.dropLast ++ rows.drop idx).set (idx + new.length - 1) (new.getLast?.getD [])

/-- the loop of `split_element` (lines 960-965): arrays are replaced one after the other, an exception leaves the ones
already replaced -/
def splitLoop (idx num : Nat) (lfrac : Option (List ℚ)) : Types → Arrays → Arrays × Option Err
  | [], d => (d, none)
  | (name, a) :: ts, d =>
    match d.get? name with
    | none => (d, some .keyError)
    | some rows =>
      match rows[idx]? with
      | none => (d, some .indexError)
      | some v =>
        match splitRow a num v lfrac with
        | .error e => (d, some e)
        | .ok new => splitLoop idx num lfrac ts (d.set name (splice rows idx new))

/-- `split_element` (lines 935-969); the refresh of the fate views is left out -/
def split (c : Cont) (ix : ℚ) (num : Nat) (lfrac : Option (List ℚ)) : Cont × Option Err :=
  match c.arrays.get? "id" with
  | none => (c, some .keyError)
  | some ids =>
    match ids.findIdx? (fun r => r == [ix]) with
    | none => (c, some .indexError)
    | some idx =>
      let r := splitLoop idx num lfrac c.types c.arrays
      ({ c with arrays := r.1 }, r.2)

/-- status code `to_be_removed` (cy_basic_types.pyx line 54) -/
def toBeRemoved : ℚ := 12
/-- status code `off_maps` (cy_basic_types.pyx line 52) -/
def offMaps : ℚ := 7

/-- `np.where(status == to_be_removed)[0]` -/
def marked (status : List Row) : List Nat := (List.range status.length).filter (fun i => status[i]? == some [toBeRemoved])

/-- `np.delete(rows, idxs, axis=0)` -/
def deleteRows (rows : List Row) (idxs : List Nat) : List Row :=
  (rows.zipIdx.filter (fun p => !idxs.contains p.2)).map Prod.fst

/-- `model_step_is_done` (lines 971-988) -/
def stepDone (c : Cont) : Cont :=
  match c.arrays.get? "status_codes" with
  | none => c
  | some st =>
    if marked st = [] then c
    else { c with arrays := applyAll (fun _ _ rows => deleteRows rows (marked st)) c.types c.arrays }

/-- the marking of off-map elements in `Model.move_elements` (model.py lines 1005-1006) -/
def markOffMap (c : Cont) : Cont :=
  match c.arrays.get? "status_codes" with
  | none => c
  | some st => { c with arrays := c.arrays.set "status_codes" (st.map (fun r => if r = [offMaps] then [toBeRemoved] else r)) }

/-- a write to one cell of one array (initialisation, movers, weatherers); out of range raises and changes nothing -/
def write (c : Cont) (name : String) (i : Nat) (v : Row) : Cont :=
  match c.arrays.get? name with
  | none => c
  | some rows => { c with arrays := c.arrays.set name (rows.set i v) }

/-- the operations -/
inductive Op where
  | rewind
  | prepare (ts : Types)
  | release (n : Nat)
  | write (name : String) (i : Nat) (v : Row)
  | split (ix : ℚ) (num : Nat) (lfrac : Option (List ℚ))
  | markOffMap
  | stepDone

/-- the value of the shared counter after a release (lines 908-924): the last id plus one -/
def nextCounter (c : Cont) : ℚ :=
  match c.arrays.get? "id" with
  | some ids => match ids.getLast? with
    | some [k] => k + 1
    | _ => 0
  | none => 0

/-- One operation. `ctr` is `initial_value` of the id array type: an object in the module-level dict
`default_array_types`, shared by all containers and kept across rewinds. The last result is the list of ids given out. -/
def step (c : Cont) (ctr : ℚ) : Op → Cont × ℚ × List ℚ
  | .rewind => (rewind c, ctr, [])
  | .prepare ts => (prepare c ts, ctr, [])
  | .release n =>
    if n = 0 then (c, ctr, [])
    else
      let c' := append c ctr n
      (c', nextCounter c', (List.range n).map (fun (i : Nat) => ctr + i))
  | .write name i v => (write c name i v, ctr, [])
  | .split ix num l => ((split c ix num l).1, ctr, [])
  | .markOffMap => (markOffMap c, ctr, [])
  | .stepDone => (stepDone c, ctr, [])

/-- history of one container -/
def run (c : Cont) (ctr : ℚ) : List Op → Cont × ℚ
  | [] => (c, ctr)
  | op :: ops => let r := step c ctr op; run r.1 r.2.1 ops

/-- the certain and the uncertain container with the shared counter -/
structure World where
  cert : Cont
  unc : Cont
  ctr : ℚ

/-- one operation on one of the containers, with the ids given out -/
def wstep (w : World) (o : Bool × Op) : World × List ℚ :=
  if o.1 then
    let r := step w.unc w.ctr o.2
    ({ w with unc := r.1, ctr := r.2.1 }, r.2.2)
  else
    let r := step w.cert w.ctr o.2
    ({ w with cert := r.1, ctr := r.2.1 }, r.2.2)

/-- history of both containers; second result: all ids given out, in order -/
def wrun (w : World) : List (Bool × Op) → World × List ℚ
  | [] => (w, [])
  | o :: os => let r := wstep w o; let r' := wrun r.1 os; (r'.1, r.2 ++ r'.2)

/-- a new container -/
def empty : Cont := { types := [], arrays := [] }

end Verif.Container
