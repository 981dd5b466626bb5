import Verif.Geom.PolyModel

/-!
# Point in polygon in Python

Model of `gnome/utilities/geometry/PinP.py` 7-31 (`points_in_poly`) and 34-84 (`CrossingsTest`).

Simplification: doubles are rationals; an array of points is its list of (x, y) and whether it has one or two dimensions.
-/

namespace Verif.Geom

/-- The test in the loop body (64-79), for the vertices `vtx0` (`a`) and `vtx1` (`b`). -/
def pinpHit (p a b : Pt) : Bool :=
  (decide (a.y ≥ p.y) != decide (b.y ≥ p.y)) &&
    (if decide (a.x ≥ p.x) = decide (b.x ≥ p.x) then decide (a.x ≥ p.x)
     else decide (b.x - (b.y - p.y) * (a.x - b.x) / (a.y - b.y) ≥ p.x))

/-- The loop (62-82): `vtx0` and `inside_flag`. -/
def pinpLoop (p : Pt) : Pt → List Pt → Bool → Bool
  | _, [], c => c
  | j, v :: vs, c => pinpLoop p v vs (if pinpHit p j v then !c else c)

/-- The vertices that are looked at: without the last one if it is the first (53-57). -/
def pinpVerts (vs : List Pt) : List Pt := if vs.head? = vs.getLast? then vs.dropLast else vs

/-- `CrossingsTest(pgon, (tx, ty))` (34-84); a polygon without vertices is an IndexError (53). With one vertex `vtx0` is
that vertex and the loop is empty. -/
def pinp (vs : List Pt) (p : Pt) : Option Bool :=
  if vs = [] then none
  else some (pinpLoop p ((pinpVerts vs).getLastD ⟨0, 0⟩) (pinpVerts vs) false)

/-- An array of points: `flat` if it is a single point, shape (3,). -/
structure PtArr where
  flat : Bool
  pts : List Pt
deriving DecidableEq

/-- `points_in_poly` (7-31) for a float64 array: the answers, and the array of the caller afterwards. `np.asarray` does not
copy (22), and its shape is set to (-1, 3) (24). -/
def pinpArray (vs : List Pt) (a : PtArr) : Option (List Bool × PtArr) :=
  if a.pts = [] then some ([], { a with flat := false })
  else if vs = [] then none
  else some (a.pts.map (fun p => (pinp vs p).getD false), { a with flat := false })

end Verif.Geom
