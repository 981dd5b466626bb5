import Mathlib.Data.Rat.Defs
import Mathlib.Algebra.Order.Field.Rat

/-!
# Building, saving and loading the kinds of release

Source: `py_gnome/gnome/spills/release.py` (schemas 95-126, 718-720, 1017-1026, 1416-1431; constructors 137-214, 528-580, 734-799, 1033-1072, 1436-1470,
1486-1521, 1566-1598; `centroid` 257-261, 607-612, 1100-1104), `GnomeId.__init__` and `AddLogger.__init__` (`py_gnome/gnome/gnomeobject.py` 238-246, 68-80),
`InitRiseVelFromDropletSizeFromDist.__init__` and `InitRiseVelFromDist.__init__` (`py_gnome/gnome/spills/initializers.py` 187-224, 235-278),
`GnomeId.new_from_dict` and `to_dict` (`gnomeobject.py` 455-490), `ObjType._impl`, `_save`, `load` (`py_gnome/gnome/persist/base_schema.py` 68-105, 272-292, 384-430).

Simplifications: an argument that is `None` or not given is `none`; a value in a save file is the attribute itself (the texts of the values are the
subject of `Persist/Types` and `Persist/Sig`), and an attribute that is `None` is not passed to the constructor (`base_schema.py:78-81`). Points, polygons, bounds,
distributions and files are numbers that stand for them. The check that an end is not before the start of a release is there, the other checks of values are not.
`name` is the name shown, given or not. NESDIS releases and `ContinuousPolygonRelease` (which says that it does not work) are left out.
-/
namespace Verif.Release.Saved

inductive Cls | base | pointLine | polygon | grid | subsurface | plume | fromFile
deriving DecidableEq, Repr

inductive Err | typeError | valueError
deriving DecidableEq, Repr

/-- Arguments by keyword. -/
structure Args where
  time : Option Int := none
  stop : Option Int := none
  num : Option Nat := none
  per : Option Nat := none
  mass : Option ℚ := none
  custom : Option (List Int) := none
  retain : Option Bool := none
  tz : Option Int := none
  name : Option String := none
  startPos : Option Int := none
  endPos : Option Int := none
  features : Option Int := none
  bounds : Option Int := none
  res : Option (Nat × Nat) := none
  dist : Option Int := none
  plume : Option Int := none
  file : Option Int := none
deriving DecidableEq

/-- A release: its attributes. -/
structure Obj where
  cls : Cls
  time : Int
  stop : Option Int
  num : Option Nat
  per : Option Nat
  mass : ℚ
  custom : Option (List Int)
  retain : Bool
  tz : Int
  name : String
  startPos : Option Int
  endPos : Option Int
  features : Option Int
  bounds : Option Int
  res : Option (Nat × Nat)
  dist : Option Int
  plume : Option Int
  file : Option Int
deriving DecidableEq

/-- What stands for `datetime.now()`, `TZOffset()` and the name that is made of the class and a count. -/
structure Env where
  now : Int
  tz0 : Int
  auto : String

/-- `Release.__init__` (`release.py:137-214`), with the class of the object; any argument that no constructor up to `object` takes is an error
(`gnomeobject.py:68-80`). -/
def baseInit (e : Env) (c : Cls) (a : Args) : Except Err Obj :=
  if a.startPos ≠ none ∨ a.endPos ≠ none ∨ a.features ≠ none ∨ a.bounds ≠ none ∨ a.res ≠ none ∨ a.dist ≠ none ∨ a.plume ≠ none ∨ a.file ≠ none then .error .typeError
  else if a.num ≠ none ∧ a.per ≠ none then .error .typeError
  else
    let num := if a.num = none ∧ a.per = none then some 1000 else a.num
    match a.time, a.stop with
    | none, some _ => .error .typeError
    | some t, some s =>
      if s < t then .error .valueError
      else .ok { cls := c, time := t, stop := some s, num := num, per := a.per, mass := max (a.mass.getD 0) 0, custom := a.custom, retain := a.retain.getD false,
                 tz := a.tz.getD e.tz0, name := a.name.getD e.auto, startPos := none, endPos := none, features := none, bounds := none, res := none, dist := none,
                 plume := none, file := none }
    | t, none =>
      .ok { cls := c, time := t.getD e.now, stop := none, num := num, per := a.per, mass := max (a.mass.getD 0) 0, custom := a.custom, retain := a.retain.getD false,
            tz := a.tz.getD e.tz0, name := a.name.getD e.auto, startPos := none, endPos := none, features := none, bounds := none, res := none, dist := none,
            plume := none, file := none }

/-- `PointLineRelease.__init__` (`release.py:528-580`): `num_per_timestep` is taken and not passed on. Without a start the shape of the position is wrong. -/
def pointInit (e : Env) (c : Cls) (a : Args) : Except Err Obj := do
  let o ← baseInit e c { a with per := none, startPos := none, endPos := none }
  match a.startPos with
  | none => .error .valueError
  | some p => .ok { o with startPos := some p, endPos := a.endPos }

/-- The further arguments of a subsurface release are passed to the initializer of the rise velocity too, which takes only a name
(`release.py:1463-1467`, `initializers.py:268`). -/
def initializerTakes (a : Args) : Bool := a.custom = none ∧ a.retain = none ∧ a.tz = none

/-- `cls(**args)`. -/
def build (e : Env) (c : Cls) (a : Args) : Except Err Obj := match c with
  | .base => baseInit e .base a
  | .pointLine => pointInit e .pointLine a
  | .polygon => do
    match a.features with
    | none => .error .valueError
    | some f =>
      let o ← baseInit e .polygon { a with features := none }
      .ok { o with features := some f }
  | .grid =>
    if a.stop ≠ none ∨ a.num ≠ none ∨ a.per ≠ none ∨ a.custom ≠ none ∨ a.retain ≠ none ∨ a.tz ≠ none ∨ a.name ≠ none ∨ a.time = none ∨ a.bounds = none ∨ a.res = none then
      .error .typeError
    else do
      let o ← baseInit e .grid { a with bounds := none, res := none }
      .ok { o with bounds := a.bounds, res := a.res, num := a.res.map fun r => r.1 * r.2 }
  | .subsurface => do
    let o ← pointInit e .subsurface { a with dist := none }
    if a.dist = none ∨ initializerTakes a = false then .error .typeError
    else .ok { o with dist := a.dist }
  | .plume => do
    let o ← baseInit e .plume { a with stop := none, startPos := none, plume := none }
    match a.startPos, a.plume with
    | none, _ => .error .valueError
    | some _, none => .error .typeError
    | some p, some d => .ok { o with startPos := some p, plume := some d }
  | .fromFile =>
    if a.stop ≠ none ∨ a.num ≠ none ∨ a.per ≠ none ∨ a.mass ≠ none ∨ a.custom ≠ none ∨ a.retain ≠ none ∨ a.tz ≠ none ∨ a.name ≠ none ∨ a.file = none then .error .typeError
    else do
      let o ← baseInit e .fromFile { a with file := none }
      .ok { o with file := a.file }

/-- `end_release_time` and `end_position` as attributes (`release.py:325-330`, `628-632`). -/
def Obj.endTime (o : Obj) : Int := o.stop.getD o.time
def Obj.endPoint (o : Obj) : Option Int := match o.endPos with
  | some p => some p
  | none => o.startPos

/-- Whether the class has the `centroid` of `Release` (`release.py:257-261`), which needs positions. -/
def baseCentroid : Cls → Bool
  | .base | .plume | .fromFile => true
  | _ => false

/-- `to_dict` and saving: all attributes of the schema are read, `centroid` too; those of `BaseReleaseSchema` (95-108) and of the schema of the class. -/
def save (o : Obj) : Except Err Args :=
  if baseCentroid o.cls ∧ o.custom = none then .error .typeError
  else
    let b : Args := { time := some o.time, stop := some o.endTime, num := o.num, per := o.per, mass := some o.mass, custom := o.custom, tz := some o.tz, name := some o.name }
    .ok (match o.cls with
      | .pointLine | .subsurface => { b with startPos := o.startPos, endPos := o.endPoint }
      | .polygon => { b with features := o.features }
      | .grid => { b with bounds := o.bounds, res := o.res }
      | _ => b)

/-- Saving and loading. -/
def reload (e : Env) (o : Obj) : Except Err Obj := do
  let a ← save o
  build e o.cls a

end Verif.Release.Saved
