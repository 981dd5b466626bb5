import Verif.Fields.UnitModel

/-!
# Time series of numbers and of vectors

Sources: `py_gnome/gnome/environment/timeseries_objects_base.py` (see `UnitModel.lean` for what is taken as given).

Simplifications: times are integers; a `Time` object is the list of its times (different series that
share one `Time` object are not followed); one point at a time, so that the array of results is a number.
-/

namespace Verif.Fields

/-- `TimeseriesData`: `units` is an ordinary attribute (66); the class has no property for it. -/
structure Ser where
  times : List Int
  data : List ℚ
  units : Option String
  gnome : Option String
  extrap : Bool
  deriving DecidableEq, Repr

/-- The constructor (64-70): the data first, when there are no times to compare with, then the times. -/
def mkSer (times : List Int) (data : List ℚ) (units gnome : Option String) (extrap : Bool) : Res Ser :=
  if times.length ≠ data.length then .mismatch else .ok ⟨times, data, units, gnome, extrap⟩

/-- The setter of `data` (105-109). -/
def Ser.setData (x : Ser) (d : List ℚ) : Res Ser :=
  if d.length ≠ x.times.length then .mismatch else .ok { x with data := d }

/-- The setter of `time` (115-127). -/
def Ser.setTimes (x : Ser) (t : List Int) : Res Ser :=
  if t.length ≠ x.data.length then .mismatch else .ok { x with times := t }

/-- `Time.index_of`: the number of times before `t`, the first index whose time is not before `t`. -/
def indexOf (ts : List Int) (t : Int) : Nat := (ts.takeWhile fun s => decide (s < t)).length

/-- `Time.interp_alpha` with the index `i`; 0 at and before the first time. -/
def alpha (ts : List Int) (t : Int) (i : Nat) : ℚ :=
  if i = 0 then 0 else
    ((t - ts.getD (i - 1) 0 : Int) : ℚ) / ((ts.getD i 0 - ts.getD (i - 1) 0 : Int) : ℚ)

/-- The stored value at a time (142-162); `none` when the time is refused by `valid_time`. -/
def Ser.raw (x : Ser) (t : Int) (extrapArg : Bool) : Option ℚ :=
  if x.times.length = 1 then some (x.data.getD 0 0)
  else
    let ex := x.extrap || extrapArg
    let lo := x.times.headD 0
    let hi := x.times.getLastD 0
    if !ex && (decide (t < lo) || decide (hi < t)) then none
    else if ex && decide (t ≤ lo) then some (x.data.getD 0 0)
    else if ex && decide (hi < t) then some (x.data.getLastD 0)
    else
      let i := indexOf x.times t
      let d0 := x.data.getD (i - 1) 0
      let d1 := x.data.getD i 0
      some (d0 + (d1 - d0) * alpha x.times t i)

/-- `TimeseriesData.at` (129-184): without a request the value stays in the unit of the data. -/
def Ser.at_ (reg : Reg) (x : Ser) (t : Int) (req : Option String) (extrapArg : Bool := false) : Res ℚ :=
  match x.raw t extrapArg with
  | none => .badTime
  | some v =>
    let data := x.units.or x.gnome
    toUnit reg data (req.or data) v

/-- `in_units` (187-207): a copy whose data are converted; the new unit goes to `_units`, which nothing
reads, and `units` keeps the old one.  `none` when `uc.convert` raises. -/
def Ser.inUnits (reg : Reg) (x : Ser) (u : String) : Option Ser :=
  match x.units with
  | none => none
  | some a =>
    match reg a, reg u with
    | some p, some q => if p.kind = q.kind then some { x with data := x.data.map (lin p q) } else none
    | _, _ => none

/-- `TimeseriesVector.__init__` (250-283) and the setter of `units` (330-340): the unit given, or that of
the first component, is written to every component, the objects that were given. -/
def mkSerVec (reg : Reg) (vars : List Ser) (units : Option String) : Res (List Ser) :=
  match vars with
  | [] => .indexError
  | v :: vs =>
    let u := units.or v.units
    if vs = [] then .mismatch
    else if u.any fun u => (reg u).isNone then .mismatch
    else .ok (vars.map fun w => { w with units := u })

/-- `TimeseriesVector.at` (360-398): the components are asked in the unit requested, or the unit of GNOME;
`extrapolate` is not passed on. -/
def serVecAt (reg : Reg) (gnome : Option String) (vars : List Ser) (t : Int) (req : Option String)
    (_extrapArg : Bool := false) : List (Res ℚ) :=
  vars.map fun v => v.at_ reg t (req.or gnome)

end Verif.Fields
