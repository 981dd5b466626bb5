import Mathlib.Data.Rat.Defs

/-!
# Triangles of a curvilinear grid

Sources: `py_gnome/lib_gnome/TimeGridVel_c.cpp`: `TimeGridVelCurv_c::ReorderPoints` (4071-4604), `ReorderPointsNoMask` (4606-4916), `ReorderPointsCOOPSNoMask` (5990-6295);
`py_gnome/lib_gnome/TriGridVel_c.cpp`: `GetRectIndexFromTriIndex2`, `GetRectIndexFromTriIndex` (410-511), `GetRectCornersFromTriIndexOrPoint` (513-595),
`GetRectIndicesFromTriIndex` (597-647).

A grid has `rows` times `cols` cells; with velocities on nodes (`ReorderPointsCOOPS…`) these are one less than the points of the file in each direction, otherwise as many. Arrays
filled by loops are lists; a counter that a loop counts up is how many it has passed. Positions are rational numbers (the code has `float`, then millionths of a degree). There is
enough memory. The tree for searching is in `Verif.Dag`.
-/
namespace Verif.TGrid.CurvTri

/-- The cells and which of them are water (`landWaterInfo`). -/
structure Cells where
  rows : Nat
  cols : Nat
  water : Nat → Nat → Bool

/-- `landWaterInfo[k] > 0`. -/
def Cells.wet (g : Cells) (k : Nat) : Bool := g.water (k / g.cols) (k % g.cols)

/-- Cells with water in the order of the loop (`TimeGridVel_c.cpp:4142-4157`). -/
def waterCells (g : Cells) : List Nat := (List.range (g.rows * g.cols)).filter g.wet

/-- Nodes that a water cell marks with -2 (`TimeGridVel_c.cpp:4121-4125`). -/
def corners (g : Cells) (k : Nat) : List Nat :=
  let i := k / g.cols
  let j := k % g.cols
  [i * (g.cols + 1) + j, i * (g.cols + 1) + j + 1, (i + 1) * (g.cols + 1) + j, (i + 1) * (g.cols + 1) + j + 1]

/-- The nodes marked. -/
def marks (g : Cells) : List Nat := (waterCells g).flatMap (corners g)

/-- `ptIndexHdl` after counting (`TimeGridVel_c.cpp:4129-4141`). -/
def ptIndex (g : Cells) (n : Nat) : Int :=
  if n ∈ marks g then (((List.range n).filter (· ∈ marks g)).length : Int) else -1

/-- `fVerdatToNetCDFH` (`TimeGridVel_c.cpp:4161-4170`). -/
def verdat (g : Cells) : List Nat := (List.range ((g.rows + 1) * (g.cols + 1))).filter (· ∈ marks g)

/-- `gridCellInfo[k].cellNum` (`TimeGridVel_c.cpp:4144-4156`). -/
def cellNum (g : Cells) (k : Nat) : Int :=
  if g.wet k then (((List.range k).filter g.wet).length : Int) else -1

/-- `Topology`. -/
structure Tri where
  vertex1 : Int
  vertex2 : Int
  vertex3 : Int
  adjTri1 : Int
  adjTri2 : Int
  adjTri3 : Int
  deriving DecidableEq

/-- The triangle at the top and left of a cell (`TimeGridVel_c.cpp:4269-4285`). -/
def topLeft (g : Cells) (k : Nat) : Tri :=
  let i := k / g.cols
  let j := k % g.cols
  { vertex1 := ptIndex g (i * (g.cols + 1) + j + 1)
    vertex2 := ptIndex g (i * (g.cols + 1) + j)
    vertex3 := ptIndex g ((i + 1) * (g.cols + 1) + j)
    adjTri1 := if j = 0 ∨ cellNum g (i * g.cols + j - 1) = -1 then -1 else cellNum g (i * g.cols + j - 1) * 2 + 1
    adjTri2 := 2 * cellNum g k + 1
    adjTri3 := if i = 0 ∨ cellNum g ((i - 1) * g.cols + j) = -1 then -1 else cellNum g ((i - 1) * g.cols + j) * 2 + 1 }

/-- The triangle at the bottom and right of a cell (`TimeGridVel_c.cpp:4286-4302`). -/
def bottomRight (g : Cells) (k : Nat) : Tri :=
  let i := k / g.cols
  let j := k % g.cols
  { vertex1 := ptIndex g ((i + 1) * (g.cols + 1) + j)
    vertex2 := ptIndex g ((i + 1) * (g.cols + 1) + j + 1)
    vertex3 := ptIndex g (i * (g.cols + 1) + j + 1)
    adjTri1 := if j = g.cols - 1 ∨ cellNum g (i * g.cols + j + 1) = -1 then -1 else cellNum g (i * g.cols + j + 1) * 2
    adjTri2 := 2 * cellNum g k
    adjTri3 := if i = g.rows - 1 ∨ cellNum g ((i + 1) * g.cols + j) = -1 then -1 else cellNum g ((i + 1) * g.cols + j) * 2 }

/-- `topo`: the triangles of a cell are at twice its number (`TimeGridVel_c.cpp:4259-4304`). -/
def topo (g : Cells) : List Tri := (waterCells g).flatMap fun k => [topLeft g k, bottomRight g k]

/-- Row and column of the largest row and the smallest column of the nodes of a triangle (`TriGridVel_c.cpp:434-456`). -/
def corner (g : Cells) (t : Tri) : Nat × Nat :=
  let p v := (verdat g).getD (Int.toNat v) 0
  let e := g.cols + 1
  (max (max (p t.vertex1 / e) (p t.vertex2 / e)) (p t.vertex3 / e), min (min (p t.vertex1 % e) (p t.vertex2 % e)) (p t.vertex3 % e))

/-- `GetRectIndexFromTriIndex2` (`TriGridVel_c.cpp:410-456`). -/
def rectIndex (g : Cells) (t : Tri) : Int := (((corner g t).1 : Int) - 1) * g.cols + (corner g t).2

/-- `GetRectCornersFromTriIndexOrPoint` (`TriGridVel_c.cpp:583-592`). -/
def rectCorners (g : Cells) (t : Tri) : Int × Int × Int × Int :=
  let I : Int := (corner g t).1
  let J : Int := (corner g t).2
  let i1 := (I - 2) * g.cols + J
  let i2 := (I - 1) * g.cols + J
  let i3 := (I - 2) * g.cols + J + 1
  let i4 := (I - 1) * g.cols + J + 1
  let (i1, i3) := if I = 1 then (-1, -1) else (i1, i3)
  let (i3, i4) := if J = g.cols - 1 then (-1, -1) else (i3, i4)
  (i1, i2, i3, i4)

/-- Where a node is, from one coordinate of the points of the file (`TimeGridVel_c.cpp:4191-4226`): there is a row before the first and a column after the last. Latitudes and
longitudes of the last node of the first row are worked out in two ways. -/
def place (cols : Nat) (lat : Bool) (p : Nat → Nat → ℚ) (a b : Nat) : ℚ :=
  if a = 0 then
    if b < cols then p 0 b - (p 1 b - p 0 b)
    else if lat then 2 * (p 0 (b - 1) + (p 0 (b - 1) - p 0 (b - 2))) - (p 1 (b - 1) + (p 1 (b - 1) - p 1 (b - 2)))
    else 2 * (p 0 (b - 1) - (p 1 (b - 1) - p 0 (b - 1))) - (p 0 (b - 2) - (p 1 (b - 2) - p 0 (b - 2)))
  else
    if b < cols then p (a - 1) b
    else p (a - 1) (b - 1) + (p (a - 1) (b - 1) - p (a - 1) (b - 2))

/-- The cells of a file with a mask (`TimeGridVel_c.cpp:4111-4127`). -/
def masked (rows cols : Nat) (mask : Nat → Nat → ℚ) : Cells := ⟨rows, cols, fun i j => mask i j ≠ 0⟩

/-- The cells of a file without a mask: those that move in the first record (`TimeGridVel_c.cpp:4638-4660`). -/
def unmasked (rows cols : Nat) (u v : Nat → Nat → Nat → ℚ) : Cells := ⟨rows, cols, fun i j => !(decide (u 0 i j = 0) && decide (v 0 i j = 0))⟩

/-- The cells of a file with velocities on nodes (`TimeGridVel_c.cpp:6043-6071`); a point of the file is a node. -/
def nodal (rows cols : Nat) : Cells := ⟨rows - 1, cols - 1, fun _ _ => true⟩

end Verif.TGrid.CurvTri
