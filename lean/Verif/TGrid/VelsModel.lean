import Mathlib.Data.Rat.Defs
import Verif.TGrid.CurvTriModel

/-!
# Velocities that gridded movers report, and where

Sources: `py_gnome/gnome/movers/c_current_movers.py`: `c_GridCurrentMover.get_center_points`, `get_scaled_velocities` (624-655), the same of `IceMover` (906-926) and
`CurrentCycleMover` (1122-1153); `py_gnome/gnome/movers/c_wind_movers.py`: those of `c_GridWindMover` (459-477) and `IceWindMover` (597-617);
`py_gnome/lib_gnome/GridCurrentMover_c.cpp`: `GetTriangleCenters`, `GetNumTriangles`, `GetNumPoints` (561-590); `py_gnome/lib_gnome/TimeGridVel_c.cpp`:
`TimeGridVelRect_c::GetCellCenters` (2404-2461), `TimeGridVelCurv_c::GetScaledVelocities` (6862-6967), `GetCellCenters` (6970-7019);
`py_gnome/lib_gnome/TriGridVel_c.cpp`: `GetWorldPointsHdl`, `GetCenterPointsHdl` (59-136).

Simplifications: the data at the time asked for are a function of the index; positions are rational numbers.
-/
namespace Verif.TGrid.Vels

/-- Kinds of grid of a file: triangles with data on triangles or on nodes, rows and columns that are straight, rows and columns that are curved. -/
inductive Kind | triCells | triNodes | regular | curved
  deriving DecidableEq

/-- The classes of movers. -/
inductive Mover | current | cycle | ice | wind | iceWind
  deriving DecidableEq

/-- Ice comes on curved grids (`TimeGridVelIce_c` derives from `TimeGridVelCurv_c`), winds on regular or curved ones. -/
def Mover.reads : Mover → Kind → Bool
  | .current, _ | .cycle, _ => true
  | .ice, k => decide (k = .curved)
  | .wind, k => decide (k = .regular ∨ k = .curved)
  | .iceWind, k => decide (k = .curved)

/-- How many triangles and points a grid has. -/
structure Grid where
  kind : Kind
  triangles : Nat
  points : Nat

/-- A number in Python. -/
inductive Num | int (n : Int) | float (q : ℚ)
  deriving DecidableEq

/-- `num_tri / 2`: a float in Python 3. -/
def half (n : Nat) : Num := .float ((n : ℚ) / 2)

/-- `num_cells` (`c_current_movers.py:637-649, 916-921, 1135-1147`, `c_wind_movers.py:467-471, 607-612`). -/
def numCells : Mover → Grid → Num
  | .current, g | .cycle, g =>
    match g.kind with
    | .triCells => .int g.triangles
    | .triNodes => .int g.points
    | .regular => .int g.points
    | .curved => half g.triangles
  | .wind, g => if g.kind = .regular then .int g.points else half g.triangles
  | .ice, g | .iceWind, g => if g.kind = .triCells ∨ g.kind = .triNodes then .int g.triangles else half g.triangles

/-- `np.zeros(num_cells, …)`: how many there are, or `TypeError` (`none`). -/
def zeros : Num → Option Nat
  | .int n => some n.toNat
  | .float _ => none

/-- How many velocities `get_scaled_velocities` returns. -/
def velocities (m : Mover) (g : Grid) : Option Nat := zeros (numCells m g)

/-- How many points `get_center_points` returns (`GridCurrentMover_c.cpp:561-572`, `TimeGridVel_c.cpp:2421-2425, 6986-6988`). -/
def centers (g : Grid) : Nat :=
  match g.kind with
  | .triCells => g.triangles
  | .triNodes => g.points
  | .regular => g.points
  | .curved => g.triangles / 2

open CurvTri

/-- `GetCellCenters` of a curved grid: the mean of the four nodes of a pair of triangles (`TimeGridVel_c.cpp:6994-7015`). -/
def cellCenter (g : Cells) (pos : Nat → ℚ) (n : Nat) : ℚ :=
  let t1 := (topo g).getD (2 * n) ⟨0, 0, 0, 0, 0, 0⟩
  let t2 := (topo g).getD (2 * n + 1) ⟨0, 0, 0, 0, 0, 0⟩
  let p v := pos ((verdat g).getD (Int.toNat v) 0)
  (p t1.vertex1 + p t1.vertex2 + p t1.vertex3 + p t2.vertex2) / 4

/-- `GetScaledVelocities` of a curved grid: every other triangle (`TimeGridVel_c.cpp:6920-6966`). -/
def cellVelocity (g : Cells) (onNodes : Bool) (data : Int → ℚ) (scale : ℚ) (n : Nat) : ℚ :=
  let t := (topo g).getD (2 * n) ⟨0, 0, 0, 0, 0, 0⟩
  data (if onNodes then ((verdat g).getD (Int.toNat t.vertex1) 0 : Int) else rectIndex g t) * scale

end Verif.TGrid.Vels
