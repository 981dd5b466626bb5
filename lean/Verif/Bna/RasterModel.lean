import Mathlib.Analysis.Real.Sqrt
import Mathlib.Algebra.Order.Floor.Semiring
/-!
# Model of the raster of a map from a BNA file

Source: `/repo/py_gnome/gnome/maps/map.py` `MapFromBNA.build_raster` 1349-1400, `raster_size` 1402-1414.

Simplifications: real numbers for floats; which pixels a polygon covers, its outline included, is given (it is drawn by the package py_gd); the ratio of the sides on the ground is given, it is
`cos(latitude of the centre) * width / height` 1364 and finite.
-/
namespace Verif.Bna.Raster

/-- `w`, `h` 1366-1367; `none`: ZeroDivisionError -/
noncomputable def size (n : Nat) (aspect : ℝ) : Option (Nat × Nat) :=
  let w := ⌊√(n * aspect)⌋₊
  if w = 0 then none else some (w, n / w)

/-- third entry of the metadata of a polygon: `'1'`, `'2'` or something else -/
inductive Kind
  | land
  | lake
  | other
  deriving DecidableEq

/-- colour indices of the image: water is the first colour that is added 1374-1376 -/
inductive Colour
  | water
  | land
  deriving DecidableEq

/-- colour of a pixel after drawing one polygon 1380-1394 -/
def draw (covers : Bool) (k : Kind) (c : Colour) : Colour :=
  match k with
  | .land => if covers then .land else c
  | .lake => if covers then .water else c
  | .other => c

/-- colour of a pixel after `clear_background` and drawing all polygons in the order of the file -/
def raster {Px : Type} (ps : List (Kind × (Px → Bool))) (p : Px) : Colour :=
  ps.foldl (fun c q => draw (q.2 p) q.1 c) .water

end Verif.Bna.Raster
