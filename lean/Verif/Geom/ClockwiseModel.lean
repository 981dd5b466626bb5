import Verif.Geom.PolyModel
import Mathlib.Algebra.BigOperators.Group.List.Basic

/-!
# Orientation of polygons

Model of `gnome/utilities/geometry/poly_clockwise.py` 20-40 (`is_clockwise`) and 43-66 (`is_clockwise_convex`).

Simplification: doubles are rationals. An IndexError is `none`.
-/

namespace Verif.Geom

/-- `poly[i][0] * poly[i + 1][1] - poly[i + 1][0] * poly[i][1]` (35). -/
def cross2 (a b : Pt) : Rat := a.x * b.y - b.x * a.y

/-- The loop over the vertices (34-35) with the sum so far. -/
def cwLoop : List Pt → Rat → Rat
  | a :: b :: l, t => cwLoop (b :: l) (t + cross2 a b)
  | _, t => t

/-- `total` (32-35): from the last point to the first, then the others; no points are an IndexError. -/
def cwTotal (vs : List Pt) : Option Rat :=
  match vs.head?, vs.getLast? with
  | some f, some l => some (cwLoop vs (cross2 l f))
  | _, _ => none

/-- `is_clockwise(poly)` (20-40). -/
def isClockwise (vs : List Pt) : Option Bool := (cwTotal vs).map fun t => decide (t ≤ 0)

/-- `is_clockwise_convex(poly)` (43-66). -/
def isClockwiseConvex : List Pt → Option Bool
  | a :: b :: c :: _ => some (decide ((b.x - a.x) * (c.y - b.y) - (b.y - a.y) * (c.x - b.x) ≤ 0))
  | _ => none

end Verif.Geom
