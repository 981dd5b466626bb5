import Verif.OutFiles.ShapeModel

/-!
# The ERMA data package: its layers, its source files and what it says about time

Source: `py_gnome/gnome/outputters/erma_data_package.py` `ERMADataPackageOutput.__init__` (137-292), `prepare_for_model_run`
(297-323), `post_model_run` (373-399), `build_package` (401-520), the four ways to make a layer (522-843, 935-1235: the names
of the files and the time slider); `gnome/utilities/shapefile_builder.py` `ShapefileBuilder.__init__`, `write` (23-71), `append` of the
three builders (93-110, 169-203, 273-294: the times).

Simplifications: names as in `ShapeModel`; the data of a source file is the layer that it was written for; the temporary folder is
empty when the package is made; a layer file is its reference to the source file and the time that it is restricted to. Times are
whole seconds, offsets from UTC whole minutes of less than a day.
-/
namespace Verif.OutFiles.Erma
open Verif.Py (Dict)

/-- The kinds of data. -/
inductive Src | location | cert | unc | area | land | bounds | certB | certC | uncB
  deriving DecidableEq, Repr

/-- Settings (137-178) and the polygons that the map has (416-436). -/
structure ECfg where
  name : Name
  location : Bool := true
  certP : Bool := true
  uncP : Bool := true
  area : Bool := false
  land : Bool := false
  bounds : Bool := false
  certB : Bool := false
  certC : Bool := false
  uncB : Bool := true
  each : Bool := false
  hasArea : Bool := false
  hasLand : Bool := false
  hasBounds : Bool := false

/-- The end of the name of contours (267). -/
def tagCC : List Char := ['_', 'c', 'e', 'r', 't', 'a', 'i', 'n', '_', 'c', 'o', 'n', 't', 'o', 'u', 'r', 's']
/-- The names of the other source files (422, 429, 436, 791). -/
def locN : List Char := ['s', 'p', 'i', 'l', 'l', '_', 'l', 'o', 'c', 'a', 't', 'i', 'o', 'n']
def areaN : List Char := ['s', 'p', 'i', 'l', 'l', 'a', 'b', 'l', 'e', '_', 'a', 'r', 'e', 'a']
def landN : List Char := ['l', 'a', 'n', 'd', '_', 'p', 'o', 'l', 'y', 's']
def boundsN : List Char := ['m', 'a', 'p', '_', 'b', 'o', 'u', 'n', 'd', 's']

/-- The source file of a builder (264-280; shapefile_builder.py 28-35): the tag is appended to the stem, then what follows the last dot
is replaced. -/
def builder (c : ECfg) (t : List Char) : Name := withSuffix (addText (stem c.name) t) zipX

/-- The source file of a layer. -/
def fileOf (c : ECfg) : Src → Name
  | .location => [locN, zipX]
  | .area => [areaN, zipX]
  | .land => [landN, zipX]
  | .bounds => [boundsN, zipX]
  | .cert => builder c tagC
  | .certB => builder c tagCB
  | .certC => builder c tagCC
  | .unc => builder c tagU
  | .uncB => builder c tagUB

/-- What `post_model_run` writes (377-385). -/
def written (c : ECfg) (unc : Bool) : List Src :=
  .cert :: ((if c.certB then [.certB] else []) ++ (if c.certC then [.certC] else []) ++
    (if unc then .unc :: (if c.uncB then [.uncB] else []) else []))

/-- The layers for the whole run (404-461). -/
def wholeLayers (c : ECfg) (unc : Bool) : List Src :=
  (if c.location then [.location] else []) ++ ((if c.certP then [.cert] else []) ++ ((if c.uncP && unc then [.unc] else []) ++
  ((if c.area && c.hasArea then [.area] else []) ++ ((if c.land && c.hasLand then [.land] else []) ++
  ((if c.bounds && c.hasBounds then [.bounds] else []) ++ ((if c.certB then [.certB] else []) ++
  ((if c.certC then [.certC] else []) ++ (if c.uncB && unc then [.uncB] else []))))))))

/-- The layers of a time step (465-499). -/
def stepLayers (c : ECfg) (unc : Bool) : List Src :=
  (if c.certP then [.cert] else []) ++ ((if c.certB then [.certB] else []) ++ ((if c.certC then [.certC] else []) ++
  ((if c.uncP && unc then [.unc] else []) ++ (if c.uncB && unc then [.uncB] else []))))

/-- The layers with the times that they are restricted to (402-499). -/
def layerList (c : ECfg) (unc : Bool) (times : List Int) : List (Src × Option Int) :=
  (wholeLayers c unc).map (fun s => (s, none)) ++
    (if c.each then times.flatMap (fun t => (stepLayers c unc).map (fun s => (s, some t))) else [])

/-- The layers that write their own source files (760-762, 820-822). -/
def Src.own : Src → Bool
  | .location => true
  | .area => true
  | .land => true
  | .bounds => true
  | _ => false

/-- The temporary folder when the package is made. -/
def tmpDir (c : ECfg) (unc : Bool) (times : List Int) : Dict Name Src :=
  (written c unc ++ ((layerList c unc times).map Prod.fst).filter Src.own).foldl (fun d s => d.set (fileOf c s) s) []

/-- The names in the archive. -/
inductive Entry | source (n : Name) | layer (i : Nat) | readme | attachment | font
  deriving DecidableEq

/-- A layer file: its source file and the time that it is restricted to. -/
structure LFile where
  file : Name
  time : Option Int

inductive Stored | data (s : Src) | json (l : LFile) | other

/-- The loop over the layers (501-511): a source file is added when it was not yet; `none` = a file is missing. -/
def zipAll (c : ECfg) (tmp : Dict Name Src) : Nat → List (Src × Option Int) → List Name → Option (List (Entry × Stored))
  | _, [], _ => some []
  | i, l :: r, done =>
    let f := fileOf c l.1
    if f ∈ done then (zipAll c tmp (i + 1) r done).map fun a => (.layer i, .json ⟨f, l.2⟩) :: a
    else match tmp.get? f with
      | none => none
      | some s => (zipAll c tmp (i + 1) r (done ++ [f])).map fun a => (.source f, .data s) :: (.layer i, .json ⟨f, l.2⟩) :: a

/-- `build_package` (401-520). -/
def package (c : ECfg) (unc : Bool) (times : List Int) : Option (List (Entry × Stored)) :=
  (zipAll c (tmpDir c unc times) 0 (layerList c unc times) []).map fun a =>
    a ++ [(.readme, .other), (.attachment, .other), (.font, .other)]

/-! ## The time slider -/

/-- The units of the slider. -/
inductive SUnit | minute | hour | day | month | year
  deriving DecidableEq, Repr

/-- `timedelta.seconds`: what is left after the days. -/
def tdSeconds (s : Int) : Int := s % 86400

/-- The step and the unit from the step of the output or of the model (550-579, 657-686, 982-1011); a unit `none` = the key of the unit
is not written (579, 686, 1011: `time_units_override`). `int(a / b)` cuts off the fraction. -/
def autoSlider (output : Option Int) (model : Int) : Int × Option SUnit :=
  let s : Int := match output with
    | some o => if o ≠ 0 then tdSeconds o else model
    | none => model
  if s < 3600 then (s.tdiv 60, some .minute)
  else if s < 86400 then (s.tdiv 3600, some .hour)
  else if s < 30 * 86400 then (s.tdiv 86400, some .day)
  else if s < 365 * 86400 then (s.tdiv (30 * 86400), some .month)
  else (s.tdiv (365 * 86400), none)

/-- What is written to a layer (546-549, 653-656, 978-981): the setting of the user counts when both step and unit are given and the step is
not zero. -/
def slider (step : Option Int) (unit : Option SUnit) (output : Option Int) (model : Int) : Int × Option SUnit :=
  match step, unit with
  | some n, some u => if n ≠ 0 then (n, some u) else autoSlider output model
  | _, _ => autoSlider output model

/-! ## The folder of the package, and the offset from UTC -/

/-- What an outputter keeps between runs: the folder of the model (empty = not given), the folder of the package, the offset in minutes that
was given last, and the one of the builders of shapefiles. -/
structure ESt where
  base : String
  model : String
  folder : String
  offset : Option Int
  builders : Option Int

/-- Construction (198-203, 260-280). -/
def construct (base model : String) (offset : Option Int) : ESt :=
  ⟨base, model, base ++ " > " ++ model, offset, offset⟩

/-- `prepare_for_model_run` (309-314). -/
def prepare (name : String) (s : ESt) : ESt :=
  if s.model = "" then { s with model := name, folder := s.base ++ " > " ++ name } else s

/-- Changes of the outputter between runs: its attributes are plain ones. -/
inductive Op | run (name : String) | setOffset (o : Option Int) | setBase (b : String) | setModel (m : String)

/-- One of them. -/
def step (s : ESt) : Op → ESt
  | .run name => prepare name s
  | .setOffset o => { s with offset := o }
  | .setBase b => { s with base := b }
  | .setModel m => { s with model := m }

/-- The column of the times that a layer names (589-597, 696-704, 968-976): `true` = `time_utc`. -/
def column (s : ESt) : Bool := s.offset.isSome

/-- The times in the rows of a source file (shapefile_builder.py 93-110, 169-203, 273-294): the local one, and the one in UTC if the builder has an
offset. -/
def rowTimes (s : ESt) (t : Int) : Int × Option Int := (t, s.builders.map fun o => t - o * 60)

end Verif.OutFiles.Erma
