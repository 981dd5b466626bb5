import Mathlib.Data.Rat.Defs

/-!
# Tides and movers that are made from files: what a save file keeps of them

Constructors and schemas of `Tide` (py_gnome/gnome/environment/tide.py 34-103) and of the movers of the old desktop program
(py_gnome/gnome/movers/c_current_movers.py 34-330, 428-600, 705-850, 998-1064, 1156-1360; c_wind_movers.py 36-100, 322-420, 505-577), saving by
the schema (py_gnome/gnome/persist/base_schema.py 272-295, 545-600) and loading with `cls(**dict_)` (py_gnome/gnome/gnomeobject.py 455-471).

Simplifications: an object is its settings. Data files are in the archive under their own names; their contents, and the file of the topology that a
mover writes beside its data, are left out. A setting that is `None` is not in the save file.
-/
namespace Verif.Persist.FileObj

inductive Cls | tide | cats | gridCurrent | currentCycle | ice | component | gridWind | iceWind
deriving DecidableEq

/-- Settings that a user can give or set. -/
inductive Attr
  | name | defaultRefs | switch | range | automanaged
  | duration | delay | speedScale | angleScale
  | tideScale | yeardata
  | scale | scaleValue | refpoint | up | down | right | left | eddy | eddyV0 | tide
  | currentScale | along | cross | extrapolate | offset | method
  | wind | scaleBy | angle1 | speed1 | units1 | to1 | angle2 | speed2 | units2 | to2
  | windScale
  | averaged | power | hours | averagedScale | originalScale
deriving DecidableEq

inductive Val | none | num (q : ℚ) | txt (s : String) | ref (n : Nat)
deriving DecidableEq

open Attr

/-- What all movers have (movers.py 59-64; gnomeobject.py). -/
def process : List Attr := [name, defaultRefs, switch, range, automanaged]
/-- What current movers have (c_current_movers.py 51-74). -/
def current : List Attr := process ++ [duration, delay]
/-- What wind movers have (c_wind_movers.py 57-62). -/
def windBase : List Attr := process ++ [duration, delay, speedScale, angleScale]

/-- The settings of a class: parameters of the constructor and properties that can be set (tide.py 61-66, 142-144; c_current_movers.py 193-262 and 287-385,
468-477 and 569-610, 733-741 and 824-848, 1019-1023, 1214-1228 and 1290-1360; c_wind_movers.py 349-351 and 409-420, 521-526). -/
def settable : Cls → List Attr
  | .tide => [name, defaultRefs, tideScale, yeardata]
  | .cats => current ++ [scale, scaleValue, refpoint, up, down, right, left, eddy, eddyV0, tide]
  | .gridCurrent => current ++ [currentScale, along, cross, extrapolate, offset, method]
  | .currentCycle => current ++ [currentScale, along, cross, extrapolate, offset, method, tide]
  | .ice => current ++ [currentScale, along, cross, extrapolate, offset]
  | .component => current ++ [wind, refpoint, scaleBy, angle1, speed1, units1, to1, angle2, speed2, units2, to2,
      extrapolate, averaged, power, hours, averagedScale, originalScale]
  | .gridWind => windBase ++ [windScale, extrapolate, offset]
  | .iceWind => windBase ++ [extrapolate, offset]

/-- The settings in the schema that are not read only (base_schema.py 583-595; movers.py 29-38; tide.py 34-46; c_current_movers.py 34-38, 142-181,
428-456, 705-723, 998-1003, 1156-1198; c_wind_movers.py 36-44, 322-337, 505-511). -/
def schema : Cls → List Attr
  | .tide => [name, tideScale]
  | .cats => [name, switch, range, automanaged, duration, delay, scale, scaleValue, refpoint, up, down, right, left, eddy, eddyV0, tide]
  | .gridCurrent => [name, switch, range, automanaged, duration, delay, currentScale, along, cross, extrapolate]
  | .currentCycle => [name, switch, range, automanaged, duration, delay, currentScale, along, cross, extrapolate, tide]
  | .ice => [name, switch, range, automanaged, duration, delay, currentScale, along, cross, extrapolate]
  | .component => [name, switch, range, automanaged, refpoint, angle1, speed1, units1, to1, angle2, speed2, units2, to2, scaleBy, wind]
  | .gridWind => [name, switch, range, automanaged, duration, delay, speedScale, angleScale, windScale, extrapolate]
  | .iceWind => [name, switch, range, automanaged, duration, delay, speedScale, angleScale]

/-- The object, by its settings. -/
abbrev Obj := Attr → Val

/-- Saving (base_schema.py 259-295): the settings in the schema that are not `None`. -/
def save (K : Cls) (o : Obj) : List (Attr × Val) := ((schema K).map fun a => (a, o a)).filter fun p => p.2 ≠ .none

/-- The keyword argument, or its default. -/
def arg (dflt : Obj) (kw : List (Attr × Val)) (a : Attr) : Val := ((kw.find? fun p => p.1 = a).map Prod.snd).getD (dflt a)

/-- Classes whose constructor sets the name to that of the file after the one given was set (tide.py 93, 99; c_current_movers.py 519-523;
c_wind_movers.py 380-383). `IceMover` and `IceWindMover` set it before (786, 800; 565, 577), `CatsMover` when none is given (248-249). -/
def renames : Cls → Bool
  | .tide | .gridCurrent | .currentCycle | .gridWind => true
  | _ => false

/-- The constructor: `scale_factor if scale_factor else self.cy_obj.scale_factor`, which is 1 (tide.py 100, 164, 170; cy_shio_time.pyx 42;
cy_ossm_time.pyx 51); settings that a class has not are left at `none`. -/
def construct (K : Cls) (dflt : Obj) (file : String) (kw : List (Attr × Val)) : Obj := fun a =>
  if a ∈ settable K then
    if a = name ∧ renames K then .txt file
    else if a = tideScale ∧ (arg dflt kw a = .none ∨ arg dflt kw a = .num 0) then .num 1
    else arg dflt kw a
  else .none

/-- Loading (gnomeobject.py 455-471). -/
def load (K : Cls) (dflt : Obj) (file : String) (o : Obj) : Obj := construct K dflt file (save K o)

end Verif.Persist.FileObj
