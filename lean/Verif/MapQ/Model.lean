import Verif.MapStep.Model
import Mathlib.Data.Rat.Floor
/-
Questions one can ask a map, and longitude conventions.

Source (under /repo/py_gnome/gnome): maps/map.py 304-387 (`GnomeMap`), 930-1047,
1172-1188 (`RasterMap`), 1202-1214 (`ShiftLon360`, `ShiftLon180`), 1290-1296;
utilities/__init__.py 23-55 (`convert_longitude`).

Exact arithmetic for floats.
-/
namespace Verif.MapQ
open Verif.Land (Grid)
open Verif.Geom (Pt Proj inPoly)
open Verif.MapStep (RMap P3 onMap)

/-- `_off_raster` (map.py 930-941). -/
def offRaster (g : Grid) (c : Int × Int) : Bool :=
  decide (c.1 < 0) || decide (c.2 < 0) || decide (c.1 ≥ g.m) || decide (c.2 ≥ g.n)

/-- An index into an axis of length `n` with numpy's negative indices; `none`:
IndexError. -/
def npIdx (n : Nat) (i : Int) : Option Nat :=
  if 0 ≤ i ∧ i < n then some i.toNat
  else if i < 0 ∧ -(n : Int) ≤ i then some (i + n).toNat
  else none

/-- `raster[i, j]`. -/
def npGet (g : Grid) (c : Int × Int) : Option Nat :=
  match npIdx g.m c.1, npIdx g.n c.2 with
  | some i, some j => some (g.data.getD (i * g.n + j) 0)
  | _, _ => none

/-- `_on_land_pixel` (map.py 954-968). -/
def onLandPixel (g : Grid) (c : Int × Int) : Option Bool :=
  if offRaster g c then some false else (npGet g c).map (fun v => decide (v &&& 1 ≠ 0))

/-- `RasterMap.on_land` (map.py 992-1004). -/
def onLand (M : RMap) (p : P3) : Option Bool := onLandPixel M.grid (M.pixel p)

/-- `RasterMap.on_land_points` (map.py 970-990, 1005-1019), one point. -/
def onLandPoint (M : RMap) (p : P3) : Bool := MapStep.landPoint M.grid (M.pixel p)

/-- `_in_water_pixel` (map.py 1023-1028): `not self._off_raster` negates the
method itself and is False. -/
def inWaterPixel (g : Grid) (c : Int × Int) : Option Bool :=
  (npGet g c).map (fun v => !decide (v &&& 1 ≠ 0))

/-- `RasterMap.in_water` (map.py 1030-1046). -/
def inWater (M : RMap) (p : P3) : Option Bool :=
  if onMap M.bounds p then inWaterPixel M.grid (M.pixel p) else some false

/-- `GnomeMap.allowable_spill_position` (map.py 367-387). -/
def allowableGnome (spillable : Option (List (List Pt))) (bounds : List Pt) (p : P3) : Bool :=
  match spillable with
  | some polys => polys.any (fun q => inPoly q p.xy)
  | none => inPoly bounds p.xy

/-- `RasterMap.allowable_spill_position` (map.py 1172-1188). -/
def allowable (M : RMap) (spillable : Option (List (List Pt))) (p : P3) : Option Bool :=
  if onMap M.bounds p then
    (onLand M p).map (fun l => if l then false else allowableGnome spillable M.bounds p)
  else some false

/-! ### longitudes -/

/-- `a[mask] = vals` with `vals` of the length of `a`: every value is used if
all are selected, a single value is repeated, otherwise ValueError. -/
def npMaskSet (mask : ℚ → Bool) (a vals : List ℚ) : Option (List ℚ) :=
  let k := (a.filter mask).length
  if k = a.length then some vals
  else
    match vals with
    | [v] => some (a.map (fun x => if mask x then v else x))
    | _ => none

/-- `ShiftLon360` (map.py 1202-1207): a ValueError is ignored. -/
def shiftLon360 (xs : List ℚ) : List ℚ :=
  (npMaskSet (fun x => decide (x < 0)) xs (xs.map (· + 360))).getD xs

/-- `ShiftLon180` (map.py 1209-1214). -/
def shiftLon180 (xs : List ℚ) : List ℚ :=
  (npMaskSet (fun x => decide (x > 180)) xs (xs.map (· - 360))).getD xs

/-- The shift of the longitudes of the polygons and of the map bounds given by
the caller (map.py 1290-1296). -/
def shiftMap (shift : Nat) (polys bounds : List ℚ) : List ℚ × List ℚ :=
  if shift = 360 then (shiftLon360 polys, shiftLon360 bounds)
  else if shift = 180 then (shiftLon180 polys, shiftLon180 bounds)
  else (polys, bounds)

/-- Python's `%` for floats and a positive modulus. -/
def pmod (x m : ℚ) : ℚ := x - m * (x / m).floor

/-- `convert_longitude(.., "0--360")` (utilities/__init__.py 50-51). -/
def convert360 (x : ℚ) : ℚ := pmod (x + 360) 360

/-- `convert_longitude(.., "-180--180")` (utilities/__init__.py 52-55). -/
def convert180 (x : ℚ) : ℚ :=
  let x := if x > 180 then x - 360 else x
  if x ≤ -180 then x + 360 else x

end Verif.MapQ
