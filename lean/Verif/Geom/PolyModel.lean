import Mathlib.Tactic.Ring
import Mathlib.Tactic.Linarith
import Mathlib.Tactic.FieldSimp
import Mathlib.Data.Rat.Floor
import Mathlib.Data.List.Basic

/-!
# Point in polygon

Model of `gnome/utilities/geometry/c_point_in_polygon.c` 60-76 (`c_point_in_poly1`), called for each point by
`cy_point_in_polygon.pyx` 19-121 (`point_in_poly`, `points_in_poly`, `points_in_polys`).

Simplification: doubles are rationals, so the products and quotients are exact.  The `char` result is a `Bool`.
-/

namespace Verif.Geom

/-- An (x, y) point: one row of the Nx2 vertex array. -/
structure Pt where
  x : Rat
  y : Rat
deriving DecidableEq, Repr

/-- The test in the loop body, lines 70-71, for vertex `i` (`a`) and vertex `j` (`b`, the previous one). -/
def crosses (p a b : Pt) : Bool :=
  (decide (a.y > p.y) != decide (b.y > p.y)) &&
    decide (p.x < (b.x - a.x) * (p.y - a.y) / (b.y - a.y) + a.x)

/-- The loop of lines 69-73: `j` is the previous vertex, `c` the result so far. -/
def pipLoop (p : Pt) : Pt → List Pt → Bool → Bool
  | _, [], c => c
  | j, v :: vs, c => pipLoop p v vs (if crosses p v j then !c else c)

/-- `c_point_in_poly1(nvert, vertices, point)`, lines 60-75: `j` starts at `nvert - 1`. -/
def inPoly (vs : List Pt) (p : Pt) : Bool :=
  match vs.getLast? with
  | none => false
  | some l => pipLoop p l vs false

/-- `points_in_poly(pgon, points)` (`cy_point_in_polygon.pyx` 54-95): one test per point (the third coordinate is
ignored; here it is not there). -/
def pointsInPoly (vs : List Pt) (ps : List Pt) : List Bool := ps.map (inPoly vs)

end Verif.Geom
