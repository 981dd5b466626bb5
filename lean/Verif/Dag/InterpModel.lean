import Verif.Dag.Model
import Mathlib.Data.Rat.Defs
import Mathlib.Algebra.Order.Field.Rat

/-!
# Values at a point of a grid of triangles

Model of `GetInterpolationValues` and `GetBilinearInterpolationValues` (`lib_gnome/TriGridVel_c.cpp` 146-284, 286-348) and of the use
made of the former for currents on a triangular grid (`TimeGridVelTri_c::GetScaledPatValue`, `lib_gnome/TimeGridVel_c.cpp` 8714-8851) and
for depths (`GetDepthAtPoint`, `lib_gnome/TriGridVel_c.cpp` 676-695).

Arithmetic is exact.  Left out: velocities at several depths (`GetScaledPatValue3D`), the choice of the two times and the weight `α` of
the first (modelled in `Verif.RectGrid` for rectangular grids), the scale factor of the file.
-/

namespace Verif.Dag

/-- A coordinate in degrees: millionths of a degree in the grid, divided (311-312, 327-332). -/
def deg (x : ℤ) : ℚ := x / 1000000

/-- The weights `alpha1`, `alpha2`, `alpha3` of the vertices of triangle `i` at a point (`lib_gnome/TriGridVel_c.cpp` 311-345). -/
def Mesh.weights (m : Mesh) (i : Nat) (pt : Pt) : ℚ × ℚ × ℚ :=
  let x := deg pt.1
  let y := deg pt.2
  let h1 := deg (m.pts ((m.tri i).v 0)).1
  let v1 := deg (m.pts ((m.tri i).v 0)).2
  let h2 := deg (m.pts ((m.tri i).v 1)).1
  let v2 := deg (m.pts ((m.tri i).v 1)).2
  let h3 := deg (m.pts ((m.tri i).v 2)).1
  let v3 := deg (m.pts ((m.tri i).v 2)).2
  let denom := (v3 - v1) * (h2 - h1) - (h3 - h1) * (v2 - v1)
  let num1 := (y - v3) * (h3 - h2) - (x - h3) * (v3 - v2)
  let num2 := (x - h1) * (v3 - v1) - (y - v1) * (h3 - h1)
  let num3 := (y - v1) * (h2 - h1) - (x - h1) * (v2 - v1)
  (num1 / denom, num2 / denom, num3 / denom)

/-- The sum of values at the vertices of triangle `i`, weighted (`lib_gnome/TimeGridVel_c.cpp` 8773-8775, 8821-8823;
`lib_gnome/TriGridVel_c.cpp` 689-692). -/
def Mesh.interp (m : Mesh) (i : Nat) (f : Nat → ℚ) (pt : Pt) : ℚ :=
  let w := m.weights i pt
  w.1 * f ((m.tri i).v 0) + w.2.1 * f ((m.tri i).v 1) + w.2.2 * f ((m.tri i).v 2)

/-- `GetDepthAtPoint` (`lib_gnome/TriGridVel_c.cpp` 676-695). -/
def Mesh.depth (m : Mesh) (t : Tree) (junk : Nat) (bathymetry : Option (Nat → ℚ)) (pt : Pt) : ℚ :=
  match m.locate t junk pt, bathymetry with
  | some i, some d => m.interp i d pt
  | _, _ => 0

/-- One component of the velocity at the surface with data at the vertices (`lib_gnome/TimeGridVel_c.cpp` 8726, 8739-8756, 8773-8778,
8821-8826).  `a` and `b` are the data at two times, weighted `α` and `1 - α`; for a constant current `α` is one. -/
def Mesh.nodeValue (m : Mesh) (t : Tree) (junk : Nat) (a b : Nat → ℚ) (α : ℚ) (pt : Pt) : ℚ :=
  match m.locate t junk pt with
  | none => 0
  | some i => m.interp i (fun k => α * a k + (1 - α) * b k) pt

/-- The same with data on the triangles (8727-8737, 8782-8791, 8830-8839): `triIndex > 0`. -/
def Mesh.cellValue (m : Mesh) (t : Tree) (junk : Nat) (a b : Nat → ℚ) (α : ℚ) (pt : Pt) : ℚ :=
  match m.locate t junk pt with
  | none => 0
  | some i => if 0 < i then α * a i + (1 - α) * b i else 0

/-! ## Grids of cells with four corners -/

/-- The corners of the cell with triangle `i`, bottom left, bottom right, top left, top right: two triangles, an even one and the next
(`lib_gnome/TriGridVel_c.cpp` 172, 189-202). -/
def Mesh.corners (m : Mesh) (i : Nat) : Nat × Nat × Nat × Nat :=
  if i % 2 = 1 then ((m.tri i).v 0, (m.tri i).v 1, (m.tri (i - 1)).v 1, (m.tri i).v 2)
  else ((m.tri i).v 2, (m.tri (i + 1)).v 1, (m.tri i).v 1, (m.tri i).v 0)

/-- `if (b < a') a = b`, with `a'` mostly `a`. -/
def lower (a a' b : ℚ) : ℚ := if b < a' then b else a

def upper (a b : ℚ) : ℚ := if b > a then b else a

/-- Smallest and largest latitude of the corners (`lib_gnome/TriGridVel_c.cpp` 231-244). -/
def latRange (y1 y2 y3 y4 : ℚ) : ℚ × ℚ :=
  (lower (lower (lower y1 y1 y2) (lower y1 y1 y2) y3) (lower (lower y1 y1 y2) (lower y1 y1 y2) y3) y4, upper (upper (upper y1 y2) y3) y4)

/-- Smallest and largest longitude (246-259).  The longitude of the second corner is compared with the smallest *latitude* (250). -/
def lonRange (smallLat x1 x2 x3 x4 : ℚ) : ℚ × ℚ :=
  let s := lower x1 smallLat x2
  let s' := lower s s x3
  (lower s' s' x4, upper (upper (upper x1 x2) x3) x4)

/-- `alpha1` to `alpha4` from the corners in degrees (`lib_gnome/TriGridVel_c.cpp` 261-281). -/
def bilinear (c1 c2 c3 c4 : ℚ × ℚ) (x y : ℚ) : ℚ × ℚ × ℚ × ℚ :=
  let lat := latRange c1.2 c2.2 c3.2 c4.2
  let lon := lonRange lat.1 c1.1 c2.1 c3.1 c4.1
  let denom := (lon.2 - lon.1) * (lat.2 - lat.1)
  ((lon.2 - x) * (lat.2 - y) / denom, (x - lon.1) * (lat.2 - y) / denom, (lon.2 - x) * (y - lat.1) / denom, (x - lon.1) * (y - lat.1) / denom)

/-- `GetBilinearInterpolationValues` for a point in triangle `i`. -/
def Mesh.cellWeights (m : Mesh) (i : Nat) (pt : Pt) : ℚ × ℚ × ℚ × ℚ :=
  let c := m.corners i
  let p := fun (k : Nat) => (deg (m.pts k).1, deg (m.pts k).2)
  bilinear (p c.1) (p c.2.1) (p c.2.2.1) (p c.2.2.2) (deg pt.1) (deg pt.2)

end Verif.Dag
