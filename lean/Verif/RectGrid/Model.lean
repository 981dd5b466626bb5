import Mathlib.Data.Rat.Floor
import Mathlib.Tactic.Linarith
import Mathlib.Tactic.Ring
import Mathlib.Tactic.FieldSimp
/-
Raster maps from rectangular grids.

Source (under /repo/py_gnome/gnome): utilities/projections.py 530-713
(`RectangularGridProjection`), maps/map.py 1601-1640 (`map_from_rectangular_grid`),
1708-1725 (`refine_axis`).

Simplifications: exact arithmetic; axes are strictly increasing (the
interpolator sorts them); `scipy.interpolate.interp1d` is the piecewise linear
function through its points, on the cells chosen by `searchsorted` (left).
-/
namespace Verif.RectGrid

/-- `interp1d(axis, arange(len(axis)))`. -/
def toPix : List ℚ → ℚ → ℚ
  | a :: b :: rest, x =>
    if x ≤ b ∨ rest = [] then (x - a) / (b - a) else 1 + toPix (b :: rest) x
  | _, _ => 0

/-- `interp1d(arange(len(axis)), axis)`. -/
def ofPix : List ℚ → ℚ → ℚ
  | a :: b :: rest, u =>
    if u ≤ 1 ∨ rest = [] then a + u * (b - a) else ofPix (b :: rest) (u - 1)
  | [a], _ => a
  | [], _ => 0

/-- `clip` to the ends of an increasing axis. -/
def clip (axis : List ℚ) (x : ℚ) : ℚ := min (max x (axis.headD 0)) (axis.getLastD 0)

/-- `to_pixel` (projections.py 614-651). -/
def toPixel (lon lat : List ℚ) (p : ℚ × ℚ) : ℚ × ℚ :=
  (toPix lon (clip lon p.1), (lat.length - 1 : Nat) - toPix lat (clip lat p.2))

/-- `to_pixel(.., asint=True)`. -/
def toPixelInt (lon lat : List ℚ) (p : ℚ × ℚ) : Int × Int :=
  ((toPixel lon lat p).1.floor, (toPixel lon lat p).2.floor)

/-- `to_lonlat` for float pixels (projections.py 665-713). -/
def toLonLat (lon lat : List ℚ) (q : ℚ × ℚ) : ℚ × ℚ :=
  let u := min (max q.1 0) (lon.length - 1 : Nat)
  let v := min (max q.2 0) (lat.length - 1 : Nat)
  (ofPix lon u, ofPix lat ((lat.length - 1 : Nat) - v))

/-- `to_lonlat` for integer pixels: the middle of the pixel. -/
def toLonLatInt (lon lat : List ℚ) (q : Int × Int) : ℚ × ℚ := toLonLat lon lat (q.1 + 1 / 2, q.2 + 1 / 2)

/-- The `r` values between `a` (included) and `b`. -/
def between (r : Nat) (a b : ℚ) : List ℚ := (List.range r).map (fun (i : Nat) => (b - a) / r * i + a)

/-- `refine_axis` (map.py 1708-1725). -/
def refineAxis (r : Nat) : List ℚ → List ℚ
  | a :: b :: rest => between r a b ++ refineAxis r (b :: rest)
  | [a] => [a]
  | [] => []

/-- `np.repeat` along one axis. -/
def rep {α : Type} (r : Nat) (l : List α) : List α := l.flatMap (List.replicate r)

/-- The mask refined in both directions (map.py 1624-1625), first index longitude. -/
def refineMask (r : Nat) (mask : List (List Nat)) : List (List Nat) := (rep r mask).map (rep r)

/-- Whether the pixel is land: on the raster and 1 (map.py 930-990). -/
def landAt (mask : List (List Nat)) (c : Int × Int) : Bool :=
  decide (0 ≤ c.1) && decide (0 ≤ c.2) && decide (((mask[c.1.toNat]?).bind (·[c.2.toNat]?)) = some 1)

/-- `on_land` of the map made from a mask and two axes (map.py 1601-1640). -/
def onLand (r : Nat) (mask : List (List Nat)) (lon lat : List ℚ) (p : ℚ × ℚ) : Bool :=
  landAt (refineMask r mask) (toPixelInt (refineAxis r lon) (refineAxis r lat) p)

end Verif.RectGrid
