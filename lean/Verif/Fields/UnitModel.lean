import Mathlib.Algebra.Order.Field.Rat
import Mathlib.Tactic.NormNum
import Mathlib.Tactic.Ring
import Mathlib.Tactic.FieldSimp
import Mathlib.Tactic.Linarith

/-!
# Units of gridded data and of time series

Sources: `py_gnome/gnome/environment/gridded_objects_base.py` `Variable.at` (736-760), `VectorVariable.__init__`
(905-929), `VectorVariable.constant` (1150-1174), `VectorVariable.at` (1192-1217);
`py_gnome/gnome/environment/timeseries_objects_base.py` `TimeseriesData` (33-210), `TimeseriesVector` (228-398).

Parts that are not in the repository and taken as given:
* `nucos`: every supported name of a unit stands for a kind of quantity and a line (`fac`, `off`) to a base
  unit; `convert` goes through the base unit, raises `NotSupportedUnitError` for a name it does not know and
  another error for two units of different kinds;
* `gridded.Variable.at` gives the number in the file at the point and time, without regard to units;
  `gridded.VectorVariable.at` asks each component's `at` for the same unit (as `gridded_objects_base.py:1193` says);
* `gridded.time.Time`: `index_of` is the first index whose time is not before the time asked for,
  `interp_alpha` the fraction of the interval that ends there.

Simplifications: exact rationals for floats; a name of a unit is a string, `None` and the empty string are
`none`; one point at a time.
-/

namespace Verif.Fields

/-- What `nucos` knows about a unit. -/
structure Scale where
  kind : Nat
  fac : ℚ
  off : ℚ
  deriving DecidableEq, Repr

/-- The table of `nucos`. -/
abbrev Reg := String → Option Scale

/-- What a call gives: a value (`warned` if with a warning), or an exception. -/
inductive Res (α : Type) where
  | ok (x : α)
  | warned (x : α)
  | wrongKind
  | formatError
  | indexError
  | typeError
  | mismatch
  | badTime
  deriving DecidableEq, Repr

/-- The value, when there is one. -/
def Res.val {α : Type} : Res α → Option α
  | .ok x => some x
  | .warned x => some x
  | _ => none

/-- `uc.convert` between two supported units of one kind. -/
def lin (a b : Scale) (v : ℚ) : ℚ := (a.fac * v + a.off - b.off) / b.fac

/-- The conversion with its `except` clauses (`gridded_objects_base.py:750-760`, `1205-1215`,
`timeseries_objects_base.py:168-176`): the warning about a requested unit that is not supported has the
placeholder `{1}` and one argument, so that building it raises `IndexError`. -/
def convertWarn (reg : Reg) (a b : String) (v : ℚ) : Res ℚ :=
  match reg a, reg b with
  | some x, some y => if x.kind = y.kind then .ok (lin x y v) else .wrongKind
  | none, _ => .warned v
  | some _, none => .formatError

/-- The end of `at`: conversion from the unit of the data to the unit requested, if both are known and
their names differ. -/
def toUnit (reg : Reg) (data req : Option String) (v : ℚ) : Res ℚ :=
  match data, req with
  | some a, some b => if a = b then .ok v else convertWarn reg a b v
  | _, _ => .ok v

/-- A gridded scalar: the unit of its data, and the unit that GNOME wants (`_gnome_unit`). -/
structure Var where
  units : Option String
  gnome : Option String
  deriving DecidableEq, Repr

/-- `Variable.at` (`gridded_objects_base.py:736-760`) of a stored value `v`. -/
def Var.at_ (reg : Reg) (x : Var) (req : Option String) (v : ℚ) : Res ℚ :=
  toUnit reg (x.units.or x.gnome) (req.or x.gnome) v

/-- A gridded vector: its components, the unit that GNOME wants.  The unit of the vector is that of its
components (`init_from_netCDF`, 1077-1080). -/
structure Vec where
  comps : List Var
  gnome : Option String
  deriving DecidableEq, Repr

/-- `VectorVariable.__init__`, 921-929: components without a unit of GNOME get that of the vector. -/
def mkVec (comps : List Var) (gnome : Option String) : Vec :=
  ⟨comps.map fun c => { c with gnome := c.gnome.or gnome }, gnome⟩

/-- The unit of the vector: that of the components if it is the same for all (1077-1080); of different units
only the first matters here (the list of units is not a name that `nucos` knows). -/
def Vec.units (x : Vec) : Option String :=
  match x.comps with
  | [] => none
  | c :: cs => if cs.all fun d => d.units == c.units then c.units else none

/-- `VectorVariable.at` (1192-1217) for stored values `vs`, one for each component. -/
def Vec.at_ (reg : Reg) (x : Vec) (req : Option String) (vs : List ℚ) : List (Res ℚ) :=
  let r := req.or x.gnome
  (List.zipWith (fun c v => c.at_ reg r v) x.comps vs).map fun one =>
    match one with
    | .ok w => toUnit reg (x.units.or x.gnome) r w
    | .warned w => toUnit reg (x.units.or x.gnome) r w
    | e => e

/-- How the units are given to `VectorVariable.constant`. -/
inductive UnitsArg where
  | none_
  | one (u : String)
  | many (us : List String)
  deriving DecidableEq, Repr

/-- `VectorVariable.constant` (1150-1174): a string becomes a list of one, and component `i` takes
`units[i]`. -/
def constantVec (gnome : Option String) (values : List ℚ) (units : UnitsArg) : Res Vec :=
  match units with
  | .none_ => if values = [] then .ok (mkVec [] gnome) else .typeError
  | .one u => if values.length ≤ 1 then .ok (mkVec (values.map fun _ => ⟨some u, none⟩) gnome) else .indexError
  | .many us =>
    if values.length ≤ us.length then
      .ok (mkVec ((us.take values.length).map fun u => ⟨some u, none⟩) gnome)
    else .indexError

end Verif.Fields
