import Mathlib.Algebra.Order.Field.Rat
/-!
# Model of currents below the surface from a file of gridded currents

Source: `/repo/py_gnome/lib_gnome/TimeGridVel_c.cpp`, used by the mover of gridded currents.
* regular grids: `GetScaledPatValue` 1567-1671, `GetDepthIndices` 2166-2222;
* curvilinear grids, currents in the cells: `GetScaledPatValue` 2564-2687, `GetDepthIndices` 3012-3300, `GetDepthAtIndex` 2115-2128;
* curvilinear grids, currents on the points: `GetInterpolatedValue` 2689-2929, `fDepthsH` filled in `TextRead` 3698-3705;
* grids of triangles: `GetScaledPatValue` 8714-8851, `GetScaledPatValue3D` 8853-9045, `GetDepthIndices` 8594-8712, tables of depths in `TextRead` 9557-9640,
  order of the values in `ReadTimeData` 9818-9870.

Simplifications: numbers are rational, one component of the velocity is followed (the other is computed in the same way with the same weights), the cell or
the corners of the triangle around the place and their weights are given (they are modelled in `GridCur` and `Dag`), the weight in time is given (it is
modelled in `TGrid.Model`), the scale factor of the file is left out. A value read outside the table of values is `none`; so is a division by zero.
-/
namespace Verif.TGrid.Depth

/-- the two indices returned by `GetDepthIndices`: one level, two levels, no value (both are `UNASSIGNEDINDEX`), or nothing was written to them -/
inductive Pick
  | level (j : Nat)
  | between (j k : Nat)
  | outside
  | unset
deriving DecidableEq, Repr

/-- the body of the loop over levels of 2184-2198, 8634-8647: a later level overwrites an earlier one -/
def stepOver (L : Nat → ℚ) (d : ℚ) (acc : Pick) (j : Nat) : Pick :=
  if L j < d ∧ d ≤ L (j + 1) then .between j (j + 1) else if L j = d then .level j else acc

/-- the loop over levels of regular grids and triangles, `for(j=0;j<numDepthLevels-1;j++)` -/
def scanOver (L : Nat → ℚ) (n : Nat) (d : ℚ) : Pick := (List.range (n - 1)).foldl (stepOver L d) .unset

/-- the loop over levels of curvilinear grids 3104-3123: it returns at the first match -/
def scanFirst (L : Nat → ℚ) (d : ℚ) : List Nat → Pick
  | [] => .unset
  | j :: js => if L j < d ∧ d ≤ L (j + 1) then .between j (j + 1) else if L j = d then .level j else scanFirst L d js

/-- the three tests after the loop 2199-2215, 3124-3141, 8648-8663 -/
def ends (L : Nat → ℚ) (n : Nat) (d : ℚ) (r : Pick) : Pick :=
  if L 0 = d then .level 0 else if L (n - 1) < d then .level (n - 1) else if d < L 0 then .level 0 else r

/-- `depthAlpha*top + (1-depthAlpha)*bottom` with `depthAlpha = (bottomDepth - depth)/(bottomDepth - topDepth)` -/
def weigh (top bottom d x y : ℚ) : Option ℚ :=
  if bottom = top then none
  else some ((bottom - d) / (bottom - top) * x + (1 - (bottom - d) / (bottom - top)) * y)

/-- the value from the values `v` of the levels, where `w` are the depths that the code uses for the weights -/
def Pick.value (w : Nat → ℚ) (v : Nat → Option ℚ) (d : ℚ) : Pick → Option ℚ
  | .level j => v j
  | .between j k => (v j).bind fun x => (v k).bind fun y => weigh (w j) (w k) d x y
  | .outside => some 0
  | .unset => none

/-- `timeAlpha*start + (1-timeAlpha)*end`, or the start alone for a constant current -/
def timed (t : Option ℚ) (x y : ℚ) : ℚ := match t with
  | none => x
  | some a => a * x + (1 - a) * y

/-- the values in use: `fStartData`, `fEndData` and the weight in time -/
structure Values where
  start : List ℚ
  finish : List ℚ
  time : Option ℚ

/-- `INDEXH(fStartData.dataHdl,i)` and `INDEXH(fEndData.dataHdl,i)` with the weight in time -/
def Values.read (s : Values) (i : Int) : Option ℚ :=
  if i < 0 then none
  else match s.start[i.toNat]?, s.finish[i.toNat]? with
    | some x, some y => some (timed s.time x y)
    | _, _ => none

/-! ## Regular grids -/

/-- `GetDepthIndices` 2166-2222 -/
def rectPick (levels : List ℚ) (d : ℚ) : Pick :=
  if levels = [] then .level 0
  else if d ≤ levels.getD (levels.length - 1) 0 then
    ends (levels.getD · 0) levels.length d (scanOver (levels.getD · 0) levels.length d)
  else .outside

/-- `GetScaledPatValue` 1567-1671 in cell `i` of a grid of `cells` cells. Levels are only kept when there are at least two of them (930-947), otherwise the grid
is `TWO_D`. Nothing tests for `outside`: the index of the value is then `i + (-1)*cells`. -/
def rectAt (levels : List ℚ) (cells : Nat) (s : Values) (i : Nat) (d : ℚ) : Option ℚ :=
  if 0 < d ∧ levels = [] then some 0
  else match rectPick levels d with
    | .outside => s.read ((i : Int) + (-1) * cells)
    | p => p.value (levels.getD · 0) (fun j => s.read ((i : Int) + j * cells)) d

/-! ## Curvilinear grids -/

/-- `fVar.gridType` of a file with levels: depths in metres, parts of the depth of the sea, or the two curves and the critical depth of ROMS -/
inductive Kind
  | multilayer
  | sigma
  | roms
deriving DecidableEq, Repr

/-- what is kept of the levels: `fDepthLevelsHdl`, `fDepthLevelsHdl2`, `hc` -/
structure Levels where
  kind : Kind
  first : List ℚ
  second : List ℚ := []
  hc : ℚ := 0

/-- the depth of a level of a ROMS grid 2122-2124, 3251-3252 -/
def romsDepth (hc sc cs D : ℚ) : ℚ := |D * (hc * sc + D * cs)| / (D + hc)

/-- `GetDepthAtIndex` 2115-2128: the depth of a level for the weights -/
def Levels.depthAt (l : Levels) (D : ℚ) (j : Nat) : ℚ := match l.kind with
  | .roms => romsDepth l.hc (l.first.getD j 0) (l.second.getD j 0) D
  | _ => l.first.getD j 0 * D

/-- the loop over levels of ROMS grids 3234-3267 from the top, the last level, down -/
def scanDown (L : Nat → ℚ) (d : ℚ) : Nat → Pick
  | 0 => .unset
  | j + 1 => if L (j + 1) < d ∧ d ≤ L j then .between (j + 1) j else if L (j + 1) = d then .level (j + 1) else scanDown L d j

/-- the tests after it 3268-3294 -/
def endsDown (L : Nat → ℚ) (n : Nat) (d : ℚ) (r : Pick) : Pick :=
  if L (n - 1) = d then .level (n - 1) else if L 0 < d then .level 0 else if d < L (n - 1) then .level (n - 1) else r

/-- a pick of the loop is returned at once, the tests are reached without one -/
def Pick.orElse (p q : Pick) : Pick := if p = .unset then q else p

/-- `GetDepthIndices` 3012-3300. A `SIGMA` grid without a match falls through to the `SIGMA_ROMS` case; there is always a match
(`first_loop` in the properties). -/
def curvPick (l : Levels) (D d : ℚ) : Pick :=
  if D = 0 then .level 0
  else if l.first = [] then .level 0
  else match l.kind with
    | .multilayer =>
      if d < 0 then .level 0
      else if d ≤ D then
        (scanFirst (l.first.getD · 0) d (List.range (l.first.length - 1))).orElse (ends (l.first.getD · 0) l.first.length d .unset)
      else .outside
    | .sigma =>
      if d < 0 then .level (l.first.length - 1)
      else if d ≤ D then
        (scanFirst (fun j => l.first.getD j 0 * D) d (List.range (l.first.length - 1))).orElse
          (ends (fun j => l.first.getD j 0 * D) l.first.length d .unset)
      else .outside
    | .roms =>
      if d < 0 then .level 0
      else if d ≤ D then
        (scanDown (l.depthAt D) d (l.first.length - 1)).orElse (endsDown (l.depthAt D) l.first.length d .unset)
      else .outside

/-- `GetScaledPatValue` 2564-2687 with the currents in the cells -/
def curvAt (l : Levels) (D : ℚ) (cells : Nat) (s : Values) (i : Nat) (d : ℚ) : Option ℚ :=
  (curvPick l D d).value (l.depthAt D) (fun j => s.read ((i : Int) + j * cells)) d

/-- a corner: its weight and its index -/
abbrev Corner := ℚ × Nat

/-- the sum of the weighted values of the corners -/
def total (f : Nat → Option ℚ) : List Corner → Option ℚ
  | [] => some 0
  | c :: cs => (f c.2).bind fun x => (total f cs).bind fun y => some (c.1 * x + y)

/-- `GetInterpolatedValue` 2689-2929 with the currents on the points. The depth of the sea is the same for all corners, so are the levels. The depths for the
weights are `INDEXH(fDepthsH,level)`, and `fDepthsH` holds the depth of the sea at the points of the grid. -/
def nodeAt (l : Levels) (bathymetry : List ℚ) (D : ℚ) (points : Nat) (s : Values) (corners : List Corner) (d : ℚ) : Option ℚ :=
  total (fun i => (curvPick l D d).value (bathymetry.getD · 0) (fun j => s.read ((i : Int) + j * points)) d) corners

/-! ## Grids of triangles -/

/-- a file on triangles: the levels, whether they are heights above the bottom in metres (`zloc`) or parts of the depth (`sigma`), and the depth of the sea at the
nodes -/
structure Tri where
  heights : Bool
  levels : List ℚ
  sea : List ℚ

/-- `fDepthsH` 9620-9633: the depth at place `k` of the table of a node where the sea is `D` deep -/
def Tri.table (g : Tri) (D : ℚ) (k : Nat) : ℚ :=
  if g.heights then
    if 0 ≤ D - g.levels.getD (g.levels.length - k - 1) 0 then D - g.levels.getD (g.levels.length - k - 1) 0 else D + 1
  else D * (1 - g.levels.getD k 0)

/-- `GetDepthIndices` 8594-8712 of a node, counted from the start of its table -/
def Tri.pick (g : Tri) (D d : ℚ) : Pick :=
  if d ≤ D then ends (g.table D) g.levels.length d (scanOver (g.table D) g.levels.length d) else .outside

/-- the table of values 9819-9869: the value of level `j` of the file at node `i` is put at `i*numDepths+(numDepths-j-1)` -/
def Tri.stored (g : Tri) (file : Nat → Nat → ℚ) (at' : Nat) : ℚ :=
  file (g.levels.length - at' % g.levels.length - 1) (at' / g.levels.length)

/-- `GetScaledPatValue` 8714-8851 and `GetScaledPatValue3D` 8853-9045. `file j i` is the value (weighted in time) of level `j` at node `i`. At the surface the value
at place `i` of the table is used for node `i`. -/
def Tri.at (g : Tri) (file : Nat → Nat → ℚ) (corners : List Corner) (d : ℚ) : Option ℚ :=
  if 0 < d then
    total (fun i => (g.pick (g.sea.getD i 0) d).value (g.table (g.sea.getD i 0)) (fun j => some (g.stored file (i * g.levels.length + j))) d) corners
  else total (fun i => some (g.stored file i)) corners

end Verif.TGrid.Depth
