import Verif.Py
import Verif.Output.Model
import Mathlib.Algebra.Order.Field.Rat

/-!
# GeoJSON and weathering output

Source: `py_gnome/gnome/outputters/geo_json.py` `TrajectoryGeoJsonOutput.write_output`, `output_to_file`,
`_dataarray_p_types`, `clean_output_files` (106-219); `outputters/weathering.py` `WeatheringOutput.write_output` (74-98);
`gnome/model.py` `write_output` (1134-1157), which calls every outputter, whether it is on or not.

Simplifications: a file is named by the number of its step (`{0:06d}` is injective); rounding of numpy is a parameter;
the collections of features are lists; the folder belongs to the outputter; only the rounded attributes of an element
are kept.
-/
namespace Verif.OutFiles
open Verif.Py (Dict)

/-- An element: position, mass, status and spill. -/
structure Elem where
  lon : ℚ
  lat : ℚ
  mass : ℚ
  status : Int
  spill : Int
  deriving DecidableEq, Repr

/-- A spill container of the cache. -/
structure Cont where
  uncertain : Bool
  elems : List Elem
  deriving DecidableEq, Repr

/-- A feature (geo_json.py 140-146). -/
structure Feature where
  id : Nat
  lon : ℚ
  lat : ℚ
  mass : ℚ
  status : Int
  spill : Int
  uncertain : Bool
  deriving DecidableEq, Repr

/-- Settings (71-92). -/
structure GeoCfg where
  roundData : Bool := true
  roundTo : Nat := 4
  toDir : Bool := true
  deriving DecidableEq, Repr

/-- The feature of element number `ix` (139-146); `_dataarray_p_types` (180-208) rounds floats in any case: `round_data`
is not read. -/
def feature (rnd : Nat → ℚ → ℚ) (c : GeoCfg) (unc : Bool) (ix : Nat) (e : Elem) : Feature :=
  { id := ix, lon := rnd c.roundTo e.lon, lat := rnd c.roundTo e.lat, mass := rnd c.roundTo e.mass, status := e.status,
    spill := e.spill, uncertain := unc }

/-- The features of a container (121-150). -/
def features (rnd : Nat → ℚ → ℚ) (c : GeoCfg) (sc : Cont) : List Feature :=
  sc.elems.zipIdx.map fun p => feature rnd c sc.uncertain p.2 p.1

/-- The loop over the containers (121-150): forecast features and uncertain features. -/
def collect (rnd : Nat → ℚ → ℚ) (c : GeoCfg) : List Cont → List Feature × List Feature → List Feature × List Feature
  | [], acc => acc
  | sc :: r, acc =>
    collect rnd c r (if sc.uncertain then (acc.1, acc.2 ++ features rnd c sc) else (acc.1 ++ features rnd c sc, acc.2))

/-- The folder. -/
abbrev Folder := Dict Nat (List Feature)

/-- What `write_output` returns (155-159). -/
structure Info where
  certain : List Feature
  uncertain : List Feature
  file : Option Nat
  deriving DecidableEq, Repr

/-- `write_output` (106-165) of a step that is written: the file of the forecast, then the file of the uncertain
elements, under the same name (161-163, 167-176). -/
def geoWrite (rnd : Nat → ℚ → ℚ) (c : GeoCfg) (f : Folder) (k : Nat) (scs : List Cont) : Folder × Info :=
  let r := collect rnd c scs ([], [])
  if c.toDir then ((f.set k r.1).set k r.2, ⟨r.1, r.2, some k⟩) else (f, ⟨r.1, r.2, none⟩)

/-- A run: the folder is cleaned (210-219), then the steps `0, 1, …` write if they are to be written; `write_output`
(106-113) looks at `_write_step` only. -/
def geoRun (rnd : Nat → ℚ → ℚ) (c : GeoCfg) (o : Output.Cfg) (t0 ts : Int) (L : Nat) (scs : Nat → List Cont) :
    Nat → Folder
  | 0 => if (Output.stateAt o t0 ts L 0).write then (geoWrite rnd c [] 0 (scs 0)).1 else []
  | k + 1 =>
    let f := geoRun rnd c o t0 ts L scs k
    if (Output.stateAt o t0 ts L (k + 1)).write then (geoWrite rnd c f (k + 1) (scs (k + 1))).1 else f

/-- The outputters and whether their `write_output` asks for `on`. -/
inductive Kind | geojson | weathering | shape | binary | memory | budget | kmz | spilljson
  deriving DecidableEq, Repr

/-- Does the step write? geo_json.py 111-112 and weathering.py 84-85 look at `_write_step` only; shape.py 146-147,
binary.py 133-137, kmz.py 112-119, memory_outputter.py 43-44 and oil_budget.py 117-118 ask for `on` as well. (json.py
152-157 does not, but see `stops`.) -/
def wrote (k : Kind) (o : Output.Cfg) (t0 ts : Int) (L n : Nat) : Bool :=
  match k with
  | .geojson | .weathering => (Output.stateAt o t0 ts L n).write
  | _ => o.on && (Output.stateAt o t0 ts L n).write

/-- The constructor: `OilBudgetOutput` passes `on=True` to its base class, whatever it is given (oil_budget.py 60-84). -/
def construct (k : Kind) (o : Output.Cfg) : Output.Cfg :=
  match k with
  | .budget => { o with on := true }
  | _ => o

/-- Does step 0 raise AttributeError? An outputter of binary files, KMZ or spills that is off skips the base class in
`prepare_for_model_run` (binary.py 119-124, kmz.py 90-93, json.py 104-108), so that `_single_output_at_start` is not set,
which the base class reads in step 0 unless `output_zero_step` is set (outputter.py 356-358); json.py 113-115, 164 then
reads `self.spills`, which is not set either. -/
def stops (k : Kind) (o : Output.Cfg) : Bool :=
  match k with
  | .binary | .kmz => !o.on && !o.zero
  | .spilljson => !o.on
  | _ => false

end Verif.OutFiles
