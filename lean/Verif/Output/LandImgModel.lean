import Verif.Bna.Model
/-!
# Model of the land on images

Source: `/repo/py_gnome/gnome/outputters/renderer.py` 194-208 (`Renderer.__init__`, the land), 490-520 (`draw_land`); `/repo/py_gnome/gnome/maps/map.py` 165-170 (`get_polygons`), 1379-1399 (`MapFromBNA.build_raster`, what is painted), `Bna/Model.lean` for the rest of `MapFromBNA`; `/repo/py_gnome/gnome/utilities/geometry/polygons.py` 218-219 (polygons without metadata).

Simplifications: what py_gd draws is a list of marks in the order of drawing; it refuses polygons of less than three points.
-/
namespace Verif.Output.LandImg
open Verif.Bna

/-- a polygon of a set, with its names if it has metadata -/
structure MPoly where
  pts : List Pt
  names : Option (Txt × Txt)
deriving DecidableEq

/-- a polygon of a file in a set -/
def ofPoly (p : Poly) : MPoly := ⟨p.pts, some (p.name, p.sname)⟩

/-- what a Renderer is given: nothing, a file, a map with its land polygons that may have a `filename` -/
inductive Source
  | nothing
  | file (ps : List Poly)
  | map (land : List MPoly) (hasFile : Bool)

/-- errors: KeyError (`{}[1]`), ValueError (of py_gd), TypeError (`open` of a map) -/
inductive Err
  | key | value | type
deriving DecidableEq

/-- `Renderer.__init__` 194-208: a map without `filename` is taken for the name of a file -/
def landOf : Source → Except Err (List MPoly)
  | .nothing => .ok []
  | .file ps => .ok (ps.map ofPoly)
  | .map land true => .ok land
  | .map _ false => .error .type

/-- flags `draw_map_bounds`, `draw_spillable_area` -/
structure Opts where
  bounds : Bool
  spill : Bool
deriving DecidableEq

/-- a polygon drawn: outline of bounds, outline of a spillable area, lake, land -/
inductive Mark
  | bounds (pts : List Pt)
  | spill (pts : List Pt)
  | lake (pts : List Pt)
  | land (pts : List Pt)
deriving DecidableEq

/-- `metadata[1].strip().lower()` -/
def plainName (s : Txt) : Txt := (strip s).map Char.toLower

/-- `metadata[1].strip().lower().replace(' ', '')` -/
def closeName (s : Txt) : Txt := (plainName s).filter (· ≠ ' ')

/-- py_gd's `draw_polygon` -/
def polygon (m : List Pt → Mark) (pts : List Pt) : Except Err (List Mark) := if pts.length < 3 then .error .value else .ok [m pts]

/-- … with its ValueError ignored -/
def tryPolygon (m : List Pt → Mark) (pts : List Pt) : Except Err (List Mark) := if pts.length < 3 then .ok [] else .ok [m pts]

/-- `draw_land` 494-518 for a polygon -/
def drawOne (o : Opts) (p : MPoly) : Except Err (List Mark) :=
  match p.names with
  | none => .error .key
  | some (name, sname) =>
    if plainName name = "map bounds".toList then (if o.bounds then polygon .bounds p.pts else .ok [])
    else if closeName name = "spillablearea".toList then (if o.spill then polygon .spill p.pts else .ok [])
    else if sname = ['2'] then tryPolygon .lake p.pts
    else tryPolygon .land p.pts

/-- `draw_land` -/
def draw (o : Opts) : List MPoly → Except Err (List Mark)
  | [] => .ok []
  | p :: ps =>
    match drawOne o p with
    | .error e => .error e
    | .ok m => match draw o ps with
      | .error e => .error e
      | .ok ms => .ok (m ++ ms)

/-- the background of the images of a Renderer -/
def image (o : Opts) (s : Source) : Except Err (List Mark) :=
  match landOf s with
  | .error e => .error e
  | .ok ps => draw o ps

/-- `build_raster` 1379-1395: what the map paints as land and as water -/
def paint (land : List Poly) : List Mark :=
  land.filterMap fun p => if p.sname = ['1'] then some (.land p.pts) else if p.sname = ['2'] then some (.lake p.pts) else none

/-- a map made from a file, given to a Renderer -/
def ofMap (m : Map) : Source := .map (m.land.map ofPoly) true

end Verif.Output.LandImg
