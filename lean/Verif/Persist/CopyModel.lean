import Mathlib.Algebra.Order.Field.Rat

/-!
# Model of copies of compiled objects

Source: `/repo/py_gnome/gnome/cy_gnome/cy_random_mover.pyx` 30-68, `cy_current_mover.pyx` 27-63, `cy_cats_mover.pyx` 44-175, `cy_component_mover.pyx` 26 (no `__reduce__` of its own), `cy_ossm_time.pyx` 46-90, 351-416, `cy_ossm_time.pxd` 14, `cy_shio_time.pyx` 42-69; `/repo/py_gnome/gnome/gnomeobject.py` 290-316 (`__deepcopy__` copies the compiled object that a mover holds); `/repo/py_gnome/lib_gnome/CATSMover_c.cpp` 30-50.

`copy.deepcopy` and `pickle` of a compiled object call the class that `__reduce__` names with the arguments that it gives.
Simplifications: numbers are rationals; the content of a file is a number, by its name and format; positions are as `ref_point` shows them; objects without `__reduce__`, for which copies are refused, are left out.
-/

namespace Verif.Persist.Copy

/-- `CyRandomMover` -/
structure Random where
  coef : Rat
  factor : Rat
deriving DecidableEq

/-- `CyRandomMover.__init__` 30-43; none: ValueError -/
def randomInit (coef factor : Rat) : Option Random :=
  if coef < 0 then none else if factor < 1 then none else some ⟨coef, factor⟩

/-- setting an attribute -/
inductive RandomOp
  | coef (v : Rat) | factor (v : Rat)

/-- the setters 52-68; a refused value changes nothing -/
def randomSet (x : Random) : RandomOp → Random
  | .coef v => if v < 0 then x else { x with coef := v }
  | .factor v => if v < 1 then x else { x with factor := v }

/-- `CyRandomMover.__reduce__` 45-46 -/
def randomCopy (x : Random) : Option Random := randomInit x.coef x.factor

/-- the settings of `CyCurrentMover` -/
structure Cur where
  duration : Rat
  delay : Rat
  up : Rat
  down : Rat
  right : Rat
  left : Rat
deriving DecidableEq

/-- `CyCurrentMover.__init__` 27-50: the arguments in their order -/
def curInit (duration delay up down right left : Rat) : Cur := ⟨duration, delay, up, down, right, left⟩

/-- `CyCurrentMover.__reduce__` 52-63 -/
def curCopy (x : Cur) : Cur := curInit x.duration x.delay x.up x.down x.left x.right

/-- the interval of the numbers drawn across the flow: CurrentMover_c.cpp 100-110 -/
def Cur.across (x : Cur) : Rat × Rat := if x.left < x.right then (x.left, x.right) else (x.right, x.left)

/-- the interval along the flow: CurrentMover_c.cpp 89-99 -/
def Cur.along (x : Cur) : Rat × Rat := if x.down < x.up then (x.down, x.up) else (x.up, x.down)

/-- `CyCatsMover`: its settings, and the pattern and the tide that have been given to it -/
structure Cats where
  scaleType : Nat
  scaleValue : Rat
  eddy : Rat
  eddyV0 : Rat
  ref : Option (Rat × Rat × Rat)
  cur : Cur
  pattern : Option Nat
  tide : Option Nat
deriving DecidableEq

/-- `CyCatsMover.__init__` 44-77: `uncertain_eddy_v0` is not used, so that it is what the library gives it; there is no pattern and no tide yet -/
def catsInit (scaleType : Nat) (scaleValue eddy _eddyV0 : Rat) (ref : Option (Rat × Rat × Rat)) (cur : Cur) : Cats :=
  ⟨scaleType, scaleValue, eddy, 1 / 10, ref, cur, none, none⟩

/-- `CyCatsMover.__reduce__` 83-94 -/
def catsCopy (x : Cats) : Cats := catsInit x.scaleType x.scaleValue x.eddy (1 / 10) x.ref (curCopy x.cur)

/-- classes of current movers -/
inductive Class
  | current | cats | component
deriving DecidableEq

/-- the class of the copy: `CyComponentMover` has the `__reduce__` of `CyCurrentMover` -/
def copyClass : Class → Class
  | .cats => .cats
  | .current | .component => .current

/-- `CyTimeseries`: values, scale, extrapolation, and where they are from -/
structure Series where
  values : List (Int × Rat × Rat)
  scale : Rat
  extrapolate : Bool
  file : Option Nat
  format : Nat
  units : Int
deriving DecidableEq

/-- `CyTimeseries.__init__` 351-400; `read` gives values and units of a file in a format, none: an error -/
def seriesInit (read : Nat → Nat → Option (List (Int × Rat × Rat) × Int)) (file : Option Nat) (format : Nat)
    (values : Option (List (Int × Rat × Rat))) (scale : Rat) (extrapolate : Bool) : Option Series :=
  match file with
  | some f => (read f format).map fun c => ⟨c.1, scale, extrapolate, some f, format, c.2⟩
  | none => some ⟨values.getD [(0, 0, 0)], scale, extrapolate, none, 0, -1⟩

/-- `CyTimeseries.__reduce__` 402-416: `_cy_filename` is an attribute of C that `hasattr` does not see, so that the name is None -/
def seriesCopy (read : Nat → Nat → Option (List (Int × Rat × Rat) × Int)) (x : Series) : Option Series :=
  seriesInit read none x.format (some x.values) x.scale x.extrapolate

/-- `CyShioTime` -/
structure Shio where
  file : Nat
  station : Nat
  scale : Rat
  daylightOff : Bool
  yeardata : Nat
  extrapolate : Bool
deriving DecidableEq

/-- `CyShioTime.__init__` 42-58; `read` gives the station of a file -/
def shioInit (read : Nat → Option Nat) (file : Nat) (scale : Rat) (daylightOff : Bool) (yeardata : Nat) : Option Shio :=
  (read file).map fun st => ⟨file, st, scale, daylightOff, yeardata, false⟩

/-- `CyShioTime.__reduce__` 60-69 -/
def shioCopy (read : Nat → Option Nat) (x : Shio) : Option Shio := shioInit read x.file x.scale x.daylightOff x.yeardata

end Verif.Persist.Copy
