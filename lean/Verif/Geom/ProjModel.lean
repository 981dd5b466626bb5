import Verif.Geom.PolyModel

/-!
# Projections

Model of `gnome/utilities/projections.py`: `GeoProjection` 125-342, `FlatEarthProjection.set_scale` 486-527,
`RegularGridProjection` 716-756, `RectangularGridProjection` 530-713, and the flat earth conversions 355-439.

Simplifications: exact arithmetic; `cos(mid latitude)` is a parameter `k`; arrays of coordinates are handled one point at a
time (all operations are element-wise) except where the sharing of the array with the caller matters.  A division by a zero
width or height is outside of the model's use (Lean's `x / 0 = 0` is never reached in the theorems).
-/

namespace Verif.Geom

/-- `center`, `scale`, `offset` (153-155). -/
structure Proj where
  cx : Rat
  cy : Rat
  sx : Rat
  sy : Rat
  ox : Rat
  oy : Rat
deriving DecidableEq

/-- A bounding box `((min_lon, min_lat), (max_lon, max_lat))`. -/
structure LBox where
  x0 : Rat
  y0 : Rat
  x1 : Rat
  y1 : Rat
deriving DecidableEq

/-- `GeoProjection.set_scale(bounding_box, (W, H))`, 208-224. -/
def geoScale (b : LBox) (W H : Int) : Proj :=
  let h := b.y1 - b.y0
  let w := b.x1 - b.x0
  let s : Rat := if w / h > (W : Rat) / H then W / w else H / h
  { cx := (b.x0 + b.x1) / 2, cy := (b.y0 + b.y1) / 2, sx := s, sy := -s, ox := W / 2, oy := H / 2 }

/-- `FlatEarthProjection.set_scale`, 503-521, with `k = cos(deg2rad(center[1]))`. -/
def flatScale (k : Rat) (b : LBox) (W H : Int) : Proj :=
  let h := b.y1 - b.y0
  let w := (b.x1 - b.x0) * k
  let s : Rat := if w / h > (W : Rat) / H then W / w else H / h
  { cx := (b.x0 + b.x1) / 2, cy := (b.y0 + b.y1) / 2, sx := s * k, sy := -s, ox := W / 2, oy := H / 2 }

/-- `RegularGridProjection.set_scale`, 745-753. -/
def gridScale (b : LBox) (W H : Int) : Proj :=
  let h := b.y1 - b.y0
  let w := b.x1 - b.x0
  { cx := (b.x0 + b.x1) / 2, cy := (b.y0 + b.y1) / 2, sx := W / w, sy := -H / h, ox := W / 2, oy := H / 2 }

/-- `to_pixel(coords)`, 257-276, one point. -/
def Proj.toPixel (P : Proj) (p : Pt) : Pt := ⟨(p.x - P.cx) * P.sx + P.ox, (p.y - P.cy) * P.sy + P.oy⟩

/-- `to_pixel(coords, asint=True)`, 268-274. -/
def Proj.toPixelInt (P : Proj) (p : Pt) : Int × Int := ((P.toPixel p).x.floor, (P.toPixel p).y.floor)

/-- `to_lonlat(coords)` for floating point pixels, 333-342. -/
def Proj.toLonLat (P : Proj) (q : Pt) : Pt := ⟨(q.x - P.ox) / P.sx + P.cx, (q.y - P.oy) / P.sy + P.cy⟩

/-- `to_lonlat(coords)` for integer pixels, 326-342: half a pixel is added. -/
def Proj.toLonLatInt (P : Proj) (i j : Int) : Pt := P.toLonLat ⟨(i : Rat) + 1 / 2, (j : Rat) + 1 / 2⟩

/-- The `image_box` computed at the end of `set_scale`, 228-229 and 525-526: the corners are integer pairs. -/
def imageBox (P : Proj) (W H : Int) : Pt × Pt := (P.toLonLatInt 0 H, P.toLonLatInt W 0)

/-- A projection object with its `image_box` (kept from the constructor, 163, or set by `set_scale`). -/
structure ProjObj where
  P : Proj
  box : Pt × Pt
deriving DecidableEq

/-- `GeoProjection(bounding_box, (W, H))`, 134-164. -/
def geoNew (b : LBox) (W H : Int) : ProjObj := ⟨geoScale b W H, imageBox (geoScale b W H) W H⟩

/-- `RegularGridProjection(bounding_box, (W, H))`: the base constructor 163 keeps the box, `set_scale` 728-756 does not set
it. -/
def gridNew (b : LBox) (W H : Int) : ProjObj := ⟨gridScale b W H, (⟨b.x0, b.y0⟩, ⟨b.x1, b.y1⟩)⟩

/-- `RegularGridProjection.set_scale` on an object. -/
def gridRescale (o : ProjObj) (b : LBox) (W H : Int) : ProjObj := { o with P := gridScale b W H }

/-! ### Sharing with the caller's array -/

/-- `to_lonlat` on a caller's array of float pixels: `np.asarray` does not copy it and 334-340 work in place.  Result: the
caller's array afterwards and the returned array. -/
def lonLatFloatArray (P : Proj) (a : List Pt) : List Pt × List Pt := (a.map P.toLonLat, a.map P.toLonLat)

/-- `to_lonlat` on an integer array: `astype` 328 copies. -/
def lonLatIntArray (P : Proj) (a : List (Int × Int)) : List (Int × Int) × List Pt :=
  (a, a.map (fun q => P.toLonLatInt q.1 q.2))

/-- `to_pixel` on a caller's array: line 260 makes a new one. -/
def pixelArray (P : Proj) (a : List Pt) : List Pt × List Pt := (a, a.map P.toPixel)

/-- `np.putmask`/`np.clip` of one coordinate, 632-642. -/
def clip (lo hi x : Rat) : Rat :=
  let x := if x < lo then lo else x
  if x > hi then hi else x

/-- Linear interpolation by `scipy.interpolate.interp1d`: the segment is the first one whose right end is not below `q`
(`searchsorted`), the last one if there is none.  At least two nodes, in ascending order. -/
def interp : List (Rat × Rat) → Rat → Rat
  | [], _ => 0
  | [a], _ => a.2
  | a :: b :: rest, q =>
    match rest with
    | [] => (b.2 - a.2) / (b.1 - a.1) * (q - a.1) + a.2
    | _ :: _ => if q ≤ b.1 then (b.2 - a.2) / (b.1 - a.1) * (q - a.1) + a.2 else interp (b :: rest) q

/-- Nodes `(lon[i], i)` of `_lon_to_pixel_interp`, 575-581, numbering from `k`. -/
def numbered (k : Nat) : List Rat → List (Rat × Rat)
  | [] => []
  | x :: xs => (x, (k : Rat)) :: numbered (k + 1) xs

/-- Nodes `(i, lon[i])` of `_pixel_to_lon_interp`, 591-597. -/
def swapNodes (l : List (Rat × Rat)) : List (Rat × Rat) := l.map (fun a => (a.2, a.1))

/-- Minimum and maximum of ascending nodes, 563-567. -/
def nodeMin (l : List Rat) : Rat := l.headD 0
/-- See `nodeMin`. -/
def nodeMax (l : List Rat) : Rat := l.getLastD 0

/-- `RectangularGridProjection.to_pixel`, 627-657, one point, for ascending `lon` and `lat`. -/
def rectPixel (lon lat : List Rat) (p : Pt) : Pt :=
  ⟨interp (numbered 0 lon) (clip (nodeMin lon) (nodeMax lon) p.x),
   ((lat.length - 1 : Nat) : Rat) - interp (numbered 0 lat) (clip (nodeMin lat) (nodeMax lat) p.y)⟩

/-- `RectangularGridProjection.to_lonlat` for float pixels, 703-713. -/
def rectLonLat (lon lat : List Rat) (q : Pt) : Pt :=
  ⟨interp (swapNodes (numbered 0 lon)) (clip 0 ((lon.length - 1 : Nat) : Rat) q.x),
   interp (swapNodes (numbered 0 lat)) (((lat.length - 1 : Nat) : Rat) - clip 0 ((lat.length - 1 : Nat) : Rat) q.y)⟩

/-- `RectangularGridProjection.to_pixel` on a caller's float array (Nx2, or the first two columns of Nx3, which `to_2d_coords`
38-42 takes as a view): `np.asarray` 629 does not copy, so 632-642 clip the caller's coordinates in place. -/
def rectPixelArray (lon lat : List Rat) (a : List Pt) : List Pt × List Pt :=
  (a.map (fun p => ⟨clip (nodeMin lon) (nodeMax lon) p.x, clip (nodeMin lat) (nodeMax lat) p.y⟩),
   a.map (rectPixel lon lat))

/-! ### Flat earth conversions -/

/-- `8.9992801e-06`. -/
def flatC : Rat := 89992801 / 10000000000000

/-- `meters_to_lonlat`, 378-397, one row, with `c = cos(ref lat)`. -/
def metersToLonLat (c : Rat) (d : Rat × Rat × Rat) : Rat × Rat × Rat := (d.1 * flatC / c, d.2.1 * flatC, d.2.2)

/-- `lonlat_to_meters`, 430-439, one row. -/
def lonLatToMeters (c : Rat) (d : Rat × Rat × Rat) : Rat × Rat × Rat := (d.1 / flatC * c, d.2.1 / flatC, d.2.2)

end Verif.Geom
