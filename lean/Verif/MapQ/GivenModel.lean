import Mathlib.Data.Rat.Defs
/-!
# Model of the polygons that are given to a map

Source: `/repo/py_gnome/gnome/maps/map.py` `GnomeMap.map_bounds`, `spillable_area`, `land_polys` (setters) 206-304;
`/repo/py_gnome/gnome/utilities/geometry/polygons.py` `PolygonSet.append` 208-237 (its storage: `Verif.Geom.SetModel`).

Simplifications: numbers are rational; a polygon is a list of rows of numbers; a set of polygons is the list of its polygons, without metadata.
-/
namespace Verif.MapQ.Given

abbrev Pt := ℚ × ℚ
/-- rows of numbers as they are given -/
abbrev Rows := List (List ℚ)

inductive Err
  | value | index
deriving DecidableEq, Repr

/-- numbers two by two -/
def pairs : List ℚ → List Pt
  | a :: b :: t => (a, b) :: pairs t
  | _ => []

/-- `np.array(p, dtype=np.float64)` refuses rows of different lengths -/
def rect : Rows → Bool
  | [] => true
  | r :: t => t.all fun q => q.length = r.length

/-- an array of the rows with shape (-1, 2): map.py 219-220, polygons.py 220 -/
def reshape (p : Rows) : Except Err (List Pt) :=
  if rect p ∧ p.flatten.length % 2 = 0 then .ok (pairs p.flatten) else .error .value

/-- the whole world 223-225 -/
def world : List Pt := [(-360, -90), (-360, 90), (360, 90), (360, -90)]

/-- what may be given as bounds: nothing, a word, points -/
inductive Bounds
  | none
  | word (global : Bool)
  | points (p : Rows)

/-- setter of `map_bounds` 215-228: nothing and words cannot be made an array of points, which is a ValueError -/
def setBounds : Bounds → Except Err (List Pt)
  | .none => .ok world
  | .word g => if g then .ok world else .error .value
  | .points p => reshape p

/-- what may be given as polygons: nothing, a `PolygonSet`, one polygon as a list or an array, a list of polygons -/
inductive Area
  | none
  | set (l : List (List Pt))
  | list (p : Rows)
  | array (p : Rows)
  | polys (l : List Rows)

/-- `ps.append(poly)` for each: an empty polygon cannot be appended to a set that has points (`_PointsArray[-0:]` is all of them) -/
def appendAll (acc : List (List Pt)) : List Rows → Except Err (List (List Pt))
  | [] => .ok acc
  | p :: t => match reshape p with
    | .error e => .error e
    | .ok q => if q = [] ∧ acc.flatten ≠ [] then .error .value else appendAll (acc ++ [q]) t

/-- one number of the first point of the first polygon: `sa[0][0][0]` -/
def first (l : List Rows) : Option ℚ := do
  let p ← l.head?
  let r ← p.head?
  r.head?

/-- 272-281 and 295-304: `sa[0][0][0]` of one polygon is a TypeError for a list of lists (a number has no items) and an IndexError for an array (nor has a numpy scalar, but it says so
otherwise) -/
def build : Area → Except Err (List (List Pt))
  | .none => .ok []
  | .set l => .ok l
  | .list p => match p.head? with
    | .none => .error .index
    | .some [] => .error .index
    | .some _ => appendAll [] [p]
  | .array _ => .error .index
  | .polys l => match first l with
    | .none => .error .index
    | .some _ => appendAll [] l

/-- setter of `spillable_area` 256-281; nothing stays nothing -/
def setSpillable : Area → Except Err (Option (List (List Pt)))
  | .none => .ok Option.none
  | a => (build a).map Option.some

/-- setter of `land_polys` 291-304: an empty list is an empty set -/
def setLand : Area → Except Err (List (List Pt))
  | .list [] => .ok []
  | .polys [] => .ok []
  | a => build a

/-- `get_map_bounding_box` 230-246 of at least one point -/
def box (p : Pt) (l : List Pt) : Pt × Pt :=
  ((l.foldl (fun m q => min m q.1) p.1, l.foldl (fun m q => min m q.2) p.2), (l.foldl (fun m q => max m q.1) p.1, l.foldl (fun m q => max m q.2) p.2))

end Verif.MapQ.Given
