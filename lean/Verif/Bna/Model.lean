import Mathlib.Algebra.Order.Field.Rat

/-!
# Maps from BNA files

Source: `py_gnome/gnome/utilities/file_tools/haz_files.py` `GetNextBNAPolygon` (17-89), `ReadBNA` (113-157);
`py_gnome/gnome/maps/map.py` `ShiftLon360`, `ShiftLon180` (1202-1214), `MapFromBNA.__init__` (1224-1345), the size of the raster
(1364-1367), `to_geojson` (1417-1465).

Simplifications: a file is the list of its lines without their ends; the texts of numbers are read by given functions
(`int`, `float` of Python); coordinates are rationals; white space is that of ASCII, letters are put in lower case as in ASCII.
-/
namespace Verif.Bna

abbrev Txt := List Char
abbrev Pt := ℚ × ℚ

/-- `int(s)` and `float(s)`; `none` is ValueError. -/
structure Parser where
  int : Txt → Option Int
  flt : Txt → Option ℚ

/-- White space of `str.strip`. -/
def isSp (c : Char) : Bool := c = ' ' || c = '\t' || c = '\n' || c = '\r' || c = '\x0b' || c = '\x0c'

/-- `s.strip()`. -/
def strip (s : Txt) : Txt := ((s.dropWhile isSp).reverse.dropWhile isSp).reverse

/-- `s.split(c)`. -/
def splitOn (c : Char) : Txt → List Txt
  | [] => [[]]
  | x :: s => if x = c then [] :: splitOn c s else
      match splitOn c s with
      | [] => [[x]]
      | f :: fs => (x :: f) :: fs

inductive Kind | polyline | point | polygon
  deriving DecidableEq

structure Header where
  name : Txt
  sname : Txt
  kind : Kind
  num : Nat
  deriving DecidableEq

structure Poly where
  pts : List Pt
  kind : Kind
  name : Txt
  sname : Txt
  deriving DecidableEq

/-- The type of a shape from the number in its header (58-67). -/
def kindOf (n : Int) : Option (Kind × Nat) :=
  if n < 0 ∨ n = 2 then some (.polyline, n.natAbs)
  else if n = 1 then some (.point, 1)
  else if n > 2 then some (.polygon, n.natAbs)
  else none

/-- A header (49-67). -/
def header (P : Parser) (l : Txt) : Option Header :=
  match splitOn '"' l with
  | _ :: name :: _ :: sname :: f :: _ =>
    match P.int ((strip f).drop 1) with
    | none => none
    | some n => (kindOf n).map fun k => ⟨name, sname, k.1, k.2⟩
  | _ => none

/-- `points[i, :] = [float(j) for j in line.split(',')]` (77): one number goes to both coordinates. -/
def coord (P : Parser) (l : Txt) : Option Pt :=
  match (splitOn ',' l).mapM P.flt with
  | some [x, y] => some (x, y)
  | some [x] => some (x, x)
  | _ => none

/-- The points (69-80). -/
def readPts (P : Parser) (n : Nat) (ls : List Txt) : Option (List Pt) :=
  if ls.length < n then none else (ls.take n).mapM (coord P)

/-- Without the point that closes a polygon (82-87). -/
def dropClose (k : Kind) (pts : List Pt) : List Pt :=
  if k = .polygon ∧ pts.head? = pts.getLast? then pts.dropLast else pts

/-- `ReadBNA` (113-157) by `GetNextBNAPolygon` (17-89); `none` is ValueError. -/
def readAll (P : Parser) : List Txt → Option (List Poly)
  | [] => some []
  | l :: ls =>
    if strip l = [] then readAll P ls
    else match header P l with
      | none => none
      | some h => match readPts P h.num ls with
        | none => none
        | some pts => (readAll P (ls.drop h.num)).map (⟨dropClose h.kind pts, h.kind, h.name, h.sname⟩ :: ·)
termination_by ls => ls.length
decreasing_by all_goals (simp; try omega)

/-- `ShiftLon360` (1202-1207): the assignment raises unless there are as many negative longitudes as points; the error is
ignored. (A single point can be assigned to no place, which changes nothing.) -/
def shift360 (pts : List Pt) : List Pt :=
  if (pts.countP fun p => p.1 < 0) = pts.length then pts.map fun p => (p.1 + 360, p.2) else pts

/-- `ShiftLon180` (1209-1214). -/
def shift180 (pts : List Pt) : List Pt :=
  if (pts.countP fun p => p.1 > 180) = pts.length then pts.map fun p => (p.1 - 360, p.2) else pts

/-- `name.lower().replace(' ', '')` (1298, 1301). -/
def norm (s : Txt) : Txt := (s.map Char.toLower).filter (· ≠ ' ')

/-- What the loop over the polygons has found (1287-1312). -/
structure Found where
  spill : List Poly
  bounds : Option (List Pt)
  land : List Poly
  deriving DecidableEq

/-- The loop over the polygons (1297-1312). -/
def classify (f : Found) : List Poly → Found
  | [] => f
  | p :: ps =>
    classify (if norm p.name = "spillablearea".toList then { f with spill := f.spill ++ [p] }
      else if norm p.name = "mapbounds".toList then
        (match f.bounds with
          | some _ => f
          | none => { f with bounds := some p.pts })
      else if p.pts.length > 2 then { f with land := f.land ++ [p] } else f) ps

/-- A bounding box: (min x, min y), (max x, max y). -/
structure Box where
  lo : Pt
  hi : Pt
  deriving DecidableEq

/-- `BBox.fromPoints`; `none` without points (`PolygonSet.bounding_box`). -/
def boxOf : List Pt → Option Box
  | [] => none
  | p :: ps => some (ps.foldl (fun b q => ⟨(min b.lo.1 q.1, min b.lo.2 q.2), (max b.hi.1 q.1, max b.hi.2 q.2)⟩) ⟨p, p⟩)

/-- `BBox.Merge`. -/
def merge (a b : Box) : Box := ⟨(min a.lo.1 b.lo.1, min a.lo.2 b.lo.2), (max a.hi.1 b.hi.1, max a.hi.2 b.hi.2)⟩

/-- `BBox.AsPoly`. -/
def asPoly (b : Box) : List Pt := [(b.lo.1, b.lo.2), (b.lo.1, b.hi.2), (b.hi.1, b.hi.2), (b.hi.1, b.lo.2)]

/-- A map: its bounds, spillable areas and land. -/
structure Map where
  bounds : List Pt
  spill : List (List Pt)
  land : List Poly
  deriving DecidableEq

/-- `MapFromBNA.__init__` (1287-1345) without shifting; bounds and spillable areas may be given. Without land there is no
bounding box, and `None` has no attribute `AsPoly` or `Center`. -/
def fromBNA (given : Option (List Pt)) (spill : List (List Pt)) (ps : List Poly) : Option Map := do
  let f := classify ⟨[], given, []⟩ ps
  let bb ← boxOf (f.land.flatMap Poly.pts)
  let sp := if spill = [] then f.spill.map Poly.pts else spill
  let b ← match f.bounds with
    | some b => some b
    | none => if sp = [] then some (asPoly bb) else (boxOf sp.flatten).map fun s => asPoly (merge s bb)
  return ⟨b, sp, f.land⟩

/-- A feature: its id and its rings. -/
structure Feature where
  id : Nat
  rings : List (List Pt)
  deriving DecidableEq

/-- `pts.append(pts[0])` (1444-1445). -/
def close (pts : List Pt) : List Pt := pts ++ pts.head?.toList

/-- `to_geojson` (1433-1465). -/
def toGeojson (land : List Poly) : List Feature :=
  let l := (land.filter (·.sname = ['1'])).map fun p => close p.pts
  let k := (land.filter (·.sname = ['2'])).map fun p => close p.pts
  if l = [] then [] else [⟨1, l⟩, ⟨2, k⟩]

end Verif.Bna
