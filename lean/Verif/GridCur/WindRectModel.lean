import Mathlib.Data.Rat.Floor
import Mathlib.Algebra.Order.Field.Rat
import Mathlib.Tactic.Linarith
import Mathlib.Tactic.Ring
import Mathlib.Tactic.FieldSimp
/-
Winds on a regular grid, from a file: which value moves an element, and what is
reported of the grid.

Source (under /repo/py_gnome): lib_gnome/TimeGridWind_c.cpp 80-116
(`GetPointsHdl`), 118-179 (`GetScaledPatValue`), 181-452 (`TextRead`), 454-606
(`ReadTimeData`), 608-708 (`GetScaledVelocities`), 777-815 (`GetCellData`);
lib_gnome/TimeGridVel_c.cpp 1687-1716 (`GetVelocityIndex`);
lib_gnome/RectUtils.cpp 993-1015 (`GetLScaleAndOffsets`);
lib_gnome/GridWindMover_c.cpp 121-213 (`get_move`, `GetMove`), 277-281.

Simplifications: exact arithmetic (the bounds are not cut to whole
microdegrees, values are not cut to `float`); one file, with its two records
around the time asked for already loaded; forecast elements (no uncertainty);
the factor of longitude to latitude at the element is given.
-/
namespace Verif.GridCur.WindRect

/-- A file of winds: its first and last latitude and longitude, how many there
are, and the two records around the model time, by number of latitude and of
longitude, with the value of the fill and the scale. -/
structure File where
  lat0 : ℚ
  lat1 : ℚ
  lon0 : ℚ
  lon1 : ℚ
  rows : Nat
  cols : Nat
  t0 : ℚ
  t1 : ℚ
  /-- record at `t0`: one component (the other is treated the same way). -/
  rec0 : Nat → Nat → ℚ
  rec1 : Nat → Nat → ℚ
  fill : ℚ
  scale : ℚ

/-- `dLat` of the file (TimeGridWind_c.cpp 407). -/
def dLat (f : File) : ℚ := (f.lat1 - f.lat0) / (f.rows - 1)

/-- `dLon` (408). -/
def dLon (f : File) : ℚ := (f.lon1 - f.lon0) / (f.cols - 1)

/-- How much the longitudes are moved: a file that starts east of 180 is moved
to the west (412-421). -/
def turn (f : File) : ℚ := if 180 < f.lon0 then 360 else 0

/-- `fGridBounds` (410-421). -/
def loLat (f : File) : ℚ := f.lat0 - dLat f / 2
def hiLat (f : File) : ℚ := f.lat1 + dLat f / 2
def loLon (f : File) : ℚ := f.lon0 - dLon f / 2 - turn f
def hiLon (f : File) : ℚ := f.lon1 + dLon f / 2 - turn f

/-- `round` of C: to the nearest, halves away from zero. -/
def cround (x : ℚ) : Int := if 0 ≤ x then ⌊x + 1 / 2⌋ else -⌊-x + 1 / 2⌋

/-- `GetLScaleAndOffsets` for one axis: from `[a, b]` to `[c, d]`
(RectUtils.cpp 993-1015). -/
def toGrid (a b c d x : ℚ) : ℚ := x * ((d - c) / (b - a)) + (c - a * ((d - c) / (b - a)))

/-- Row number of `GetVelocityIndex` (TimeGridVel_c.cpp 1701-1709): rows are
counted from the side of the last latitude. -/
def rowNum (f : File) (lat : ℚ) : Int := cround (toGrid (loLat f) (hiLat f) f.rows 0 lat - 1 / 2)

def colNum (f : File) (lon : ℚ) : Int := cround (toGrid (loLon f) (hiLon f) 0 f.cols lon - 1 / 2)

/-- `GetVelocityIndex` (1711-1715). -/
def velIndex (f : File) (lon lat : ℚ) : Option Nat :=
  if colNum f lon < 0 ∨ colNum f lon ≥ f.cols ∨ rowNum f lat < 0 ∨ rowNum f lat ≥ f.rows then none
  else some ((rowNum f lat).toNat * f.cols + (colNum f lon).toNat)

/-- `ReadTimeData` (578-597): row `i` of the data in memory is latitude
`rows - i - 1` of the file, and fill values are set to zero. -/
def load (f : File) (r : Nat → Nat → ℚ) (index : Nat) : ℚ :=
  let v := r (f.rows - index / f.cols - 1) (index % f.cols)
  if v = f.fill then 0 else v

/-- The weight of the first record (155-160). -/
def alpha (f : File) (t : ℚ) : ℚ := (f.t1 - t) / (f.t1 - f.t0)

/-- `GetScaledPatValue` for a wind that varies in time (118-179). -/
def patValue (f : File) (t lon lat : ℚ) : ℚ :=
  match velIndex f lon lat with
  | some i => (alpha f t * load f f.rec0 i + (1 - alpha f t) * load f f.rec1 i) * f.scale
  | none => 0

/-- What an element has: whether it is in the water, its depth, windage and place. -/
structure Elem where
  inWater : Bool
  z : ℚ
  windage : ℚ
  lon : ℚ
  lat : ℚ

/-- `get_move`, north component in degrees (GridWindMover_c.cpp 121-213):
`perDegree` metres are a degree of latitude. -/
def move (f : File) (windScale perDegree t dt : ℚ) (e : Elem) : ℚ :=
  if e.inWater then
    if 0 < e.z then 0
    else patValue f t e.lon e.lat * windScale * e.windage / perDegree * dt
  else 0

/-- `GetPointsHdl` (80-116): latitude of the points of row `i`. -/
def pointLat (f : File) (i : Nat) : ℚ := loLat f + i * ((hiLat f - loLat f) / (f.rows - 1))

/-- Longitude of the points of column `j`. -/
def pointLon (f : File) (j : Nat) : ℚ := loLon f + j * ((hiLon f - loLon f) / (f.cols - 1))

/-- `GetScaledVelocities` (608-708): the value at entry `k * cols + j` of the
reported array; it was computed for row `i = rows - k - 1` in memory. The
mover returns it as it is (GridWindMover_c.cpp 277-281). -/
def reported (f : File) (t : ℚ) (k j : Nat) : ℚ :=
  let i := (f.rows - k - 1) * f.cols + j
  (alpha f t * load f f.rec0 i + (1 - alpha f t) * load f f.rec1 i) * f.scale / 10

/-- `GetCellData` (777-815): the four corners of cell `(i, j)`, in the order of
the structure (`topLeft`, `topRight`, `bottomLeft`, `bottomRight`), as
numbers of points. -/
def corners (f : File) (i j : Nat) : List Nat :=
  [i * f.cols + j, i * f.cols + j + 1, (i + 1) * f.cols + j + 1, (i + 1) * f.cols + j]

end Verif.GridCur.WindRect
