import Mathlib.Data.Rat.Floor
import Verif.Py

/-!
# Files with gridded currents or winds, in the "gridcur" format

Sources: `py_gnome/gnome/environment/gridcur.py` `read_file` (133-186), `write_gridcur` (189-227), `make_grid_arrays` (229-262);
`py_gnome/lib_gnome/TimeGridVel_c.cpp` `TimeGridCurRect_c::ReadHeaderLines` (11897-12049), `ReadTimeData` (12117-12277),
`TimeGridVel_c::GetVelocityIndex` (1687-1715).

Simplifications: a file comes as its lines, each already split into words and numbers; numbers are exact rationals (the code
writes six decimals); a time is day, month, year, hour and minute, and any numbers that the function `valid` accepts make a
`datetime`. In the C++ code coordinates are degrees instead of millionths.
-/
namespace Verif.GridCur
open Verif.Py

/-- A line of the file. -/
inductive Line
  /-- `[GRIDCURTIME] units` or `[GRIDWINDTIME] units`. -/
  | header (wind : Bool) (units : String)
  /-- A word and a number. -/
  | field (key : String) (x : ℚ)
  | time (d : List Int)
  /-- Row, column and velocity. -/
  | cell (r c : Int) (u v : ℚ)
  | blank
  /-- Any other text. -/
  | other
  deriving DecidableEq

/-- Velocities by row and column. -/
abbrev Arr := Nat → Nat → ℚ × ℚ

def Arr.set (a : Arr) (r c : Nat) (x : ℚ × ℚ) : Arr := fun r' c' => if r' = r ∧ c' = c then x else a r' c'

/-- `np.linspace(a, b, n)`. -/
def linspace (a b : ℚ) (n : Nat) : List ℚ := (List.range n).map fun (i : Nat) => a + (i : ℚ) * ((b - a) / ((n : ℚ) - 1))

/-- Longitudes, latitudes, shape of the arrays. -/
structure Grid where
  lon : List ℚ
  lat : List ℚ
  rows : Nat
  cols : Nat
  deriving DecidableEq

/-- `make_grid_arrays` (229-262). -/
def mkGrid (info : Dict String ℚ) : Option Grid := do
  let rows := (← info.get? "NUMROWS").floor.toNat
  let cols := (← info.get? "NUMCOLS").floor.toNat
  if info.has "LOLAT" then
    let lat := linspace (← info.get? "LOLAT") (← info.get? "HILAT") (cols + 1)
    let lon := linspace (← info.get? "LOLONG") (← info.get? "HILONG") (rows + 1)
    return { lon, lat, rows, cols }
  else
    let a ← info.get? "STARTLAT"
    let b ← info.get? "STARTLONG"
    let da ← info.get? "DLAT"
    let db ← info.get? "DLONG"
    return { lon := linspace b (b + db * ((rows : ℚ) - 1)) rows, lat := linspace a (a + da * ((cols : ℚ) - 1)) cols, rows, cols }

/-- The loop 158-176. Arrays read so far, the current one first; `none` is `GridCurReadError`. -/
def body (valid : List Int → Bool) (g : Grid) : List Line → List (List Int × Arr) → Option (List (List Int × Arr))
  | [], acc => some acc.reverse
  | .time d :: l, acc => if valid d then body valid g l ((d, fun _ _ => (0, 0)) :: acc) else none
  | .cell r c u v :: l, (d, a) :: acc => match pyIdx g.rows (r - 1), pyIdx g.cols (c - 1) with
    | some i, some j => body valid g l ((d, a.set i j (u, v)) :: acc)
    | _, _ => none
  | _, _ => none

/-- The lines of the grid (151-155), up to the first time. -/
def gridLines : List Line → Dict String ℚ → Option (Dict String ℚ × List Line)
  | .field k x :: l, info => gridLines l (info.set k x)
  | .cell r _ _ _ :: l, info => gridLines l (info.set (toString r) 0)
  | .time d :: l, info => some (info, .time d :: l)
  | _, _ => none

/-- Lines before the header are skipped, but a blank one raises (141-149). -/
def findHeader : List Line → Option (Bool × String × List Line)
  | .header w u :: l => some (w, u, l)
  | .blank :: _ => none
  | _ :: l => findHeader l
  | [] => none

/-- What a file says. -/
structure Content where
  wind : Bool
  units : String
  grid : Grid
  data : List (List Int × Arr)

/-- `read_file` (133-186). -/
def readFile (valid : List Int → Bool) (ls : List Line) : Option Content := do
  let (wind, units, l) ← findHeader ls
  let (info, l) ← gridLines l []
  let grid ← mkGrid info
  let data ← body valid grid l []
  return { wind, units, grid, data }

/-- The lines of one time (221-227). -/
def timeLines (g : Grid) (p : List Int × Arr) : List Line :=
  .time p.1 :: (List.range g.rows).flatMap fun (r : Nat) => (List.range g.cols).map fun (c : Nat) =>
    Line.cell (Int.ofNat r + 1) (Int.ofNat c + 1) (p.2 r c).1 (p.2 r c).2

/-- `write_gridcur` (189-227): the grid is written as its ends. -/
def writeFile (x : Content) : Option (List Line) :=
  let g := x.grid
  let top : List Line := [.header x.wind x.units, .field "NUMROWS" g.rows, .field "NUMCOLS" g.cols]
  let rest := x.data.flatMap (timeLines g)
  let la := g.lat.headD 0
  let lo := g.lon.headD 0
  if g.lon.length = g.rows ∧ g.lat.length = g.cols then
    if g.rows = 1 ∨ g.cols = 1 then none   -- ZeroDivisionError (or nan)
    else some (top ++ [.field "STARTLAT" la, .field "STARTLONG" lo,
      .field "DLAT" ((g.lat.getLastD 0 - la) / ((g.cols : ℚ) - 1)), .field "DLONG" ((g.lon.getLastD 0 - lo) / ((g.rows : ℚ) - 1))]
      ++ rest)
  else if g.lon.length = g.rows + 1 ∧ g.lat.length = g.cols + 1 then
    some (top ++ [.field "LOLAT" la, .field "HILAT" (g.lat.getLastD 0), .field "LOLONG" lo, .field "HILONG" (g.lon.getLastD 0)] ++ rest)
  else none

/-! ## Where the velocity of a line belongs -/

/-- For the Python reader: row and column of a grid of nodes are the indices of longitude and latitude (`U[row, col]`, arrays of
shape `(len(lon), len(lat))`). -/
def pyPlace (g : Grid) (r c : Nat) : Option (ℚ × ℚ) := do return (← g.lon[r]?, ← g.lat[c]?)

/-- Bounds of the grid in the C++ reader, for a grid of nodes (12001-12006): half a cell around. -/
structure Bounds where
  loLat : ℚ
  hiLat : ℚ
  loLon : ℚ
  hiLon : ℚ

def cBounds (lat0 lon0 dlat dlon : ℚ) (rows cols : Nat) : Bounds where
  loLat := lat0 - dlat / 2
  hiLat := lat0 + ((rows : ℚ) - 1) * dlat + dlat / 2
  loLon := lon0 - dlon / 2
  hiLon := lon0 + ((cols : ℚ) - 1) * dlon + dlon / 2

/-- `round`: half away from zero. -/
def roundC (x : ℚ) : Int := if 0 ≤ x then ⌊x + 1 / 2⌋ else -⌊-x + 1 / 2⌋

/-- `GetVelocityIndex` (1687-1715) with `GetLScaleAndOffsets` (`RectUtils.cpp:993-1015`), where the top of the one rectangle is the
low latitude and that of the other the number of rows: the row and column whose velocity is used at a place. -/
def cIndex (b : Bounds) (rows cols : Nat) (lon lat : ℚ) : Option (Nat × Nat) :=
  let col := roundC ((lon - b.loLon) / (b.hiLon - b.loLon) * cols - 1 / 2)
  let row := roundC (rows - (lat - b.loLat) / (b.hiLat - b.loLat) * rows - 1 / 2)
  if col < 0 ∨ col ≥ cols ∨ row < 0 ∨ row ≥ rows then none else some (row.toNat, col.toNat)

end Verif.GridCur
