import Mathlib.Data.List.Basic
import Mathlib.Data.List.Nodup
import Mathlib.Algebra.Order.Field.Rat
import Mathlib.Algebra.Order.Group.Unbundled.Abs

/-!
# The random draws of uncertain elements

Model of the list of random numbers which `CurrentMover` (`gnome/movers/py_current_movers.py`) and `WindMover`
(`gnome/movers/py_wind_movers.py`) keep beside the elements of the uncertain spill container, one row per element, over a run of
the model (`gnome/model.py` 960-1021, 1106-1138, 1159-1213).

Modelled: when the list is made, extended, drawn anew and cut, and which row is applied to which element.  `D` is the type of a
row, `ω i` and `ω' i` the numbers the generator delivers for row `i` when rows are appended and when all rows are drawn.
Simplifications: the values drawn and what is done with them are left to `MoveModel.lean`; times are rational seconds; an
exception is `none`.
-/

namespace Verif.Mover

variable {D : Type}

/-- The attributes of a mover: `_uncertainty_list`, `time_uncertainty_was_set`, `model_start_time`, `is_first_step`
(py_current_movers.py 113-116; py_wind_movers.py 112-115). -/
structure Unc (D : Type) where
  list : List D
  setAt : Rat
  start : Rat
  first : Bool
deriving DecidableEq

/-- `uncertain_time_delay` and `uncertain_duration` (py_current_movers.py 102-106; py_wind_movers.py 99-100). -/
structure UPar where
  delay : Rat
  duration : Rat

/-- `prepare_for_model_run` (py_current_movers.py 343-351; py_wind_movers.py 150-158). -/
def Unc.begin : Unc D := ⟨[], 0, 0, true⟩

/-- `_update_uncertainty` with `_allocate_uncertainty` and `_update_uncertainty_values` (py_current_movers.py 229-308;
py_wind_movers.py 226-353): nothing before the delay; rows are appended for elements that are new; the whole list is drawn anew
when there is none, when the time went back, when it is too long, or when it is `duration` old. -/
def update (c : UPar) (ω ω' : Nat → D) (num : Nat) (el : Rat) (s : Unc D) : Unc D :=
  if el < c.delay then s
  else
    let size := s.list.length
    let list1 := if size < num ∧ size ≠ 0 then s.list ++ (List.range (num - size)).map (fun (i : Nat) => ω (size + i)) else s.list
    if size = 0 ∨ el < s.setAt ∨ num < size then { s with list := (List.range num).map ω', setAt := el }
    else if s.setAt + c.duration ≤ el then { s with list := (List.range list1.length).map ω', setAt := el }
    else { s with list := list1 }

/-- `model_start_time` is set in the first step in which the mover is active (py_current_movers.py 365-370; py_wind_movers.py
172-175). -/
def markStart (t : Rat) (s : Unc D) : Unc D := if s.first then { s with start := t } else s

/-- `prepare_for_model_step` for the uncertain container (py_current_movers.py 353-376; py_wind_movers.py 160-194).  `wind` says
which class: `WindMover` returns early when no element has been released. -/
def prepare (c : UPar) (wind : Bool) (ω ω' : Nat → D) (active : Bool) (num : Nat) (t : Rat) (s : Unc D) : Unc D :=
  if active then
    let s1 := markStart t s
    if wind && num == 0 then s1 else update c ω ω' num |t - s1.start| s1
  else s

/-- The rows used for the elements in `get_move` (py_current_movers.py 198-225, 311-340; py_wind_movers.py 356-449): none when the
mover is not active, there are no elements, or the list is empty; an array of one row is broadcast; otherwise the lengths must
agree (numpy raises). -/
def applied (active : Bool) (list : List D) (elems : List Nat) : Option (List (Nat × D)) :=
  if active = false ∨ elems = [] then some []
  else match list with
    | [] => some []
    | [d] => some (elems.map (fun e => (e, d)))
    | l => if l.length = elems.length then some (elems.zip l) else none

/-- `np.where(status_codes == to_be_removed)[0]`. -/
def whereTrue (flags : List Bool) : List Nat := (List.range flags.length).filter (fun (i : Nat) => flags[i]? == some true)

/-- `np.delete(rows, idx, axis=0)`: an index out of bounds raises `IndexError`. -/
def npDelete (rows : List D) (idx : List Nat) : Option (List D) :=
  if idx.all (fun i => decide (i < rows.length)) then
    some ((rows.zipIdx.filter (fun p => !(idx.contains p.2))).map Prod.fst)
  else none

/-- `model_step_is_done` for the uncertain container (py_current_movers.py 378-397; py_wind_movers.py 196-214).  `flags` says which
elements are marked to be removed. -/
def stepDone (active : Bool) (flags : List Bool) (s : Unc D) : Option (Unc D) :=
  if active then
    let idx := whereTrue flags
    if idx = [] then some { s with first := false }
    else (npDelete s.list idx).map (fun l => { s with list := l, first := false })
  else some s

/-- The uncertain container as far as it matters here: the elements in order, by the id each got when it was released, the
number of the step, and the mover. -/
structure St (D : Type) where
  elems : List Nat
  nextId : Nat
  k : Nat
  unc : Unc D
deriving DecidableEq

/-- What happens in a step: elements released in its first half and in its second half, whether the mover is active, which
elements get marked to be removed, and what the random generator delivers. -/
structure In (D : Type) where
  rel1 : Nat
  rel2 : Nat
  active : Bool
  gone : Nat → Bool
  ω : Nat → D
  ω' : Nat → D

/-- What can be seen of a step: the seconds since `model_start_time`, the time at which the list was last drawn, the elements
moved, and the rows applied to them. -/
structure Row (D : Type) where
  elapsed : Rat
  setAt : Rat
  elems : List Nat
  tab : List (Nat × D)
deriving DecidableEq

/-- The elements released: `n` new ones from id `m` on. -/
def newIds (m n : Nat) : List Nat := List.range' m n

/-- A step of the model (model.py 1193-1206): release, `setup_time_step`, `move_elements`, `step_is_done` (movers, then the
container removes what is marked, 1121-1134), release. -/
def step (c : UPar) (wind : Bool) (t0 dt : Rat) (i : In D) (s : St D) : Option (Row D × St D) :=
  let elems1 := s.elems ++ newIds s.nextId i.rel1
  let id1 := s.nextId + i.rel1
  let t := t0 + s.k * dt
  let u1 := prepare c wind i.ω i.ω' i.active elems1.length t s.unc
  match applied i.active u1.list elems1 with
  | none => none
  | some tab =>
    match stepDone i.active (elems1.map i.gone) u1 with
    | none => none
    | some u2 => some (⟨|t - u1.start|, u1.setAt, elems1, tab⟩,
        ⟨elems1.filter (fun e => !i.gone e) ++ newIds id1 i.rel2, id1 + i.rel2, s.k + 1, u2⟩)

/-- A run: the rows of its steps in order. -/
def run (c : UPar) (wind : Bool) (t0 dt : Rat) : List (In D) → St D → Option (List (Row D) × St D)
  | [], s => some ([], s)
  | i :: is, s =>
    match step c wind t0 dt i s with
    | none => none
    | some (r, s1) =>
      match run c wind t0 dt is s1 with
      | none => none
      | some (rs, s2) => some (r :: rs, s2)

/-- The state after `setup_model_run` and the release of step 0: `n` elements (model.py 1170-1188). -/
def St.init (n : Nat) : St D := ⟨newIds 0 n, n, 0, Unc.begin⟩

end Verif.Mover
