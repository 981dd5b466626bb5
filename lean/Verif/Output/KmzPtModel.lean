import Mathlib.Data.Rat.Floor
import Mathlib.Algebra.Order.Field.Rat
import Mathlib.Data.Rat.Cast.Order
/-!
# Model of the points of a step in a file for Google Earth

Source: `/repo/py_gnome/gnome/outputters/kmz.py` 108-141 (`KMZOutput.write_output`); `/repo/py_gnome/gnome/outputters/kmz_templates.py` 18-118 (`header_template`, `point_template`), 121-179 (`build_one_timestep`); the codes are `LEStatus`, `/repo/py_gnome/lib_gnome/TypeDefs.h` 142-149; `on_tideflat` is set by `/repo/py_gnome/gnome/maps/tideflat_map.py` 60-90.

Simplifications: positions are rational numbers; a number with six decimals is its number of millionths, rounded to nearest even; times are whole seconds.  Which steps are written and the document around them are in `Output/KmzModel.lean`.
-/
namespace Verif.Output.Pt

/-- `LEStatus` -/
inductive Status
  | notReleased | inWater | onLand | offMaps | evaporated | toBeRemoved | onTideflat
deriving DecidableEq, Repr

/-- an element: status, longitude, latitude, depth -/
structure El where
  status : Status
  lon : ℚ
  lat : ℚ
  z : ℚ
deriving DecidableEq, Repr

/-- a group of elements of a step: certain or not, time, elements -/
structure Group where
  uncertain : Bool
  time : Int
  els : List El
deriving DecidableEq, Repr

/-- nearest integer, in the middle the even one (`format` of a number) -/
def near (q : ℚ) : Int :=
  if q - ⌊q⌋ < 1 / 2 then ⌊q⌋ else if 1 / 2 < q - ⌊q⌋ then ⌊q⌋ + 1 else if ⌊q⌋ % 2 = 0 then ⌊q⌋ else ⌊q⌋ + 1

/-- a `<Point>`: longitude and latitude in millionths (`point_template`) -/
def point (e : El) : Int × Int := (near (1000000 * e.lon), near (1000000 * e.lat))

/-- the words of a `<Placemark>` -/
inductive Kind
  | floating | beached
deriving DecidableEq, Repr

/-- a `<Placemark>`: certain or not, kind, name of the style, begin, end, points (`one_run_header`) -/
structure Mark where
  uncertain : Bool
  kind : Kind
  style : String
  start : Int
  stop : Int
  points : List (Int × Int)
deriving DecidableEq, Repr

/-- styles that the header defines: id, icon, colour (`header_template` 30-112) -/
def styles : List (String × String × String) :=
  [("RedDotIcon", "dot.png", "ff0000ff"), ("BlackDotIcon", "dot.png", "ff000000"), ("YellowDotIcon", "dot.png", "ff00ffff"),
   ("RedXIcon", "x.png", "ff0000ff"), ("BlackXIcon", "x.png", "ff000000"), ("YellowXIcon", "x.png", "ff00ffff")]

/-- pictures in the zip file (kmz.py 146-149) -/
def pictures : List String := ["dot.png", "x.png"]

/-- `build_one_timestep` 160-168 -/
def styleOf (uncertain : Bool) : Kind → String
  | .floating => (if uncertain then "Red" else "Yellow") ++ "DotIcon"
  | .beached => (if uncertain then "Red" else "Yellow") ++ "XIcon"

/-- `build_one_timestep` 146-179: a folder is the list of its placemarks -/
def folder (water land : List El) (start stop : Int) (uncertain : Bool) : List Mark :=
  [⟨uncertain, .floating, styleOf uncertain .floating, start, stop, water.map point⟩,
   ⟨uncertain, .beached, styleOf uncertain .beached, start, stop, land.map point⟩]

/-- `write_output` 119-141 for a step that is due: a folder for each group -/
def write (span : Int) (gs : List Group) : List (List Mark) :=
  gs.map fun g => folder (g.els.filter (·.status = .inWater)) (g.els.filter (·.status = .onLand)) g.time (g.time + span) g.uncertain

end Verif.Output.Pt
