import Mathlib.Data.Real.Basic
import Mathlib.Algebra.BigOperators.Group.List.Basic

/-!
# Releases in polygons

Model of `PolygonRelease` (`gnome/spills/release.py` 860-961) and of the routines it uses (`gnome/utilities/geometry/geo_routines.py` 52-64,
101-117).

Simplifications: real numbers instead of floats; a polygon is the list of the triangles that `trimesh` makes of it (28-49) with its area on
the Earth, as `pyproj` has it; `np.isclose` is equality.
-/

namespace Verif.Place

abbrev Pt := ℝ × ℝ

/-- A triangle: the first three of `exterior.coords`. -/
structure Tri where
  a : Pt
  b : Pt
  c : Pt

/-- The cross product of two sides. -/
def Tri.cross (t : Tri) : ℝ := (t.b.1 - t.a.1) * (t.c.2 - t.a.2) - (t.c.1 - t.a.1) * (t.b.2 - t.a.2)

/-- `Polygon.area` of shapely: in the plane, in degrees squared. -/
noncomputable def Tri.area (t : Tri) : ℝ := |t.cross| / 2

/-- `A + R*AB + S*AC` (`gnome/utilities/geometry/geo_routines.py` 113-116). -/
def Tri.at (t : Tri) (r s : ℝ) : Pt :=
  (t.a.1 + r * (t.b.1 - t.a.1) + s * (t.c.1 - t.a.1), t.a.2 + r * (t.b.2 - t.a.2) + s * (t.c.2 - t.a.2))

open Classical in
/-- `random_pt_in_tri` (101-117), the two random numbers being `r` and `s`. -/
noncomputable def randomPt (t : Tri) (r s : ℝ) : Pt := if r + s ≥ 1 then t.at (1 - r) (1 - s) else t.at r s

/-- `poly_area_weight` (52-64) with `geo_area=False`. -/
noncomputable def areaWeights (ts : List Tri) : List ℝ := ts.map fun t => t.area / (ts.map Tri.area).sum

/-- A polygon: its triangles and its area on the Earth, `geo_area_of_polygon`. -/
structure Poly where
  tris : List Tri
  geo : ℝ

/-- `get_polys_as_tris` (`gnome/spills/release.py` 871-899): triangles with their weights; `none` when it raises. -/
noncomputable def trisWeights (ps : List Poly) (weights : Option (List ℝ)) : List (Tri × ℝ) := match weights with
  | some ws => (ps.zip ws).flatMap fun q => q.1.tris.zip ((areaWeights q.1.tris).map fun w => q.2 * w)
  | none => (ps.flatMap Poly.tris).zip (areaWeights (ps.flatMap Poly.tris))

open Classical in
/-- `get_polys_as_tris` with its checks (876-878, 897). -/
noncomputable def polysAsTris (ps : List Poly) (weights : Option (List ℝ)) : Option (List (Tri × ℝ)) :=
  if (∃ ws, weights = some ws ∧ ws.length ≠ ps.length) ∨ ((trisWeights ps weights).map Prod.snd).sum ≠ 1 then none
  else some (trisWeights ps weights)

/-- `compute_distribution` (901-914): the weights of the polygons by volume. -/
noncomputable def distribution (ps : List Poly) (thick : List ℝ) : List ℝ :=
  (ps.zip thick).map fun q => q.1.geo * q.2 / ((ps.zip thick).map fun q => q.1.geo * q.2).sum

/-- `prepare_for_model_run` (916-936): thicknesses first, then weights; `thicknesses` is `None` when no polygon has one. -/
noncomputable def prepare (ps : List Poly) (thick weights : Option (List ℝ)) : Option (List (Tri × ℝ)) := match thick with
  | some t => polysAsTris ps (some (distribution ps t))
  | none => polysAsTris ps weights

/-- One element as `initialize_elements` (938-949) puts it: triangle `i` chosen (one with a positive weight), two random numbers, depth 0. -/
noncomputable def place (tw : List (Tri × ℝ)) (i : Nat) (r s : ℝ) : Option (Pt × ℝ) := (tw[i]?).map fun q => (randomPt q.1 r s, 0)

end Verif.Place
