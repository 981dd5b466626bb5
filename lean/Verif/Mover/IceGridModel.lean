import Mathlib.Data.Rat.Floor
import Mathlib.Algebra.Order.Field.Rat

/-!
# Ice

Source: `py_gnome/lib_gnome/TimeGridVel_c.cpp` `TimeGridVelIce_c`: `GetScaledPatValue` (7540-7564), `GetScaledPatValueIce` (7566-7654), `GetDataField`
(7656-7735), `GetInterpolatedValue` (7737-7830), `ReadTimeDataIce` (7958-8003), `ReadTimeDataFields` (8029-8210), `GetIceFields` (8212-8312), `GetIceVelocities`
(8315-8420), `GetMovementVelocities` (8422-8568); `TimeGridWind_c.cpp` `TimeGridWindIce_c`: `GetScaledPatValue` (3461-3487), `ReadTimeDataFields` (3860-4042),
`GetMovementVelocities` (4252-4395); `IceMover_c.cpp` `get_move`, `GetMove` (228-306); `IceWindMover_c.cpp` `GetMove` (211-255);
`py_gnome/gnome/movers/c_current_movers.py` `IceMover.get_ice_velocities` … `get_ice_fields` (925-960).

Simplifications: numbers are rationals; data is at the surface; the pair of records around the time has been loaded (`Verif.TGrid`, also for the times on grids with
data on nodes); values that are missing are `none`, become zero when they are read (7963-7968, 8165-8170), and the later tests for the fill value change
nothing; a place is what the search in the grid finds: nothing, a cell, or four corners with weights and the first corner of the triangle; every triangle
has a cell (`GetRectIndexFromTriIndex2`); uncertainty is left out; 1000000 cancels.
-/
namespace Verif.Mover.Ice

structure Vel where
  u : ℚ
  v : ℚ
  deriving DecidableEq, Repr

/-- what the file has for one index at one time: current (or wind), velocity of the ice, thickness and coverage -/
structure Raw where
  cur : Option Vel
  ice : Option Vel
  field : Option (ℚ × ℚ)
  deriving DecidableEq, Repr

/-- the attributes of the file: factors of the units of velocities (.01 for cm/s), whether the thickness is in cm, scale factors (1 if there is none) -/
structure Attrs where
  unitCur : ℚ
  unitIce : ℚ
  thickCm : Bool
  scaleCur : ℚ
  scaleIce : ℚ
  scaleThick : ℚ
  scaleFrac : ℚ
  deriving DecidableEq, Repr

/-- one record in memory -/
structure Rec where
  cur : Vel
  ice : Vel
  thick : ℚ
  frac : ℚ
  deriving DecidableEq, Repr

def Vel.smul (k : ℚ) (w : Vel) : Vel := ⟨k * w.u, k * w.v⟩
def Vel.add (a b : Vel) : Vel := ⟨a.u + b.u, a.v + b.v⟩
def Vel.zero : Vel := ⟨0, 0⟩

/-- `unitConversion` (8122-8134) -/
def unitConv (a : Attrs) : ℚ := if a.thickCm then 1/100 else 1

/-- reading (7981-7984, 8172-8173): one conversion serves thickness and coverage -/
def load (a : Attrs) (r : Raw) : Rec :=
  ⟨Vel.smul a.unitCur (r.cur.getD Vel.zero), Vel.smul a.unitIce (r.ice.getD Vel.zero),
    (r.field.getD (0, 0)).1 * a.scaleThick * unitConv a, (r.field.getD (0, 0)).2 * a.scaleFrac * unitConv a⟩

/-- `fVar.fileScaleFactor` once current and ice have been read in this order (7272-7273, 7991): there is one for both -/
def fileScale (a : Attrs) : ℚ := if a.scaleIce ≠ 1 then a.scaleIce else a.scaleCur

/-- the records loaded: the earlier one, and the later one unless the data is constant or the time outside -/
structure Span where
  t0 : ℚ
  first : Nat → Raw
  last : Option (ℚ × (Nat → Raw))

/-- `timeAlpha` (7615) -/
def alpha (t0 t1 t : ℚ) : ℚ := (t1 - t) / (t1 - t0)

/-- a number at an index in time, e.g. 7706-7722 -/
def atTime (a : Attrs) (s : Span) (t : ℚ) (g : Rec → ℚ) (i : Nat) : ℚ :=
  match s.last with
  | none => g (load a (s.first i))
  | some (t1, b) => alpha s.t0 t1 t * g (load a (s.first i)) + (1 - alpha s.t0 t1 t) * g (load a (b i))

inductive Place
  | off
  | cell (i : Nat)
  | nodes (corners : List (ℚ × Nat)) (vertex : Nat)

/-- `GetDataField` for the coverage (7656-7735): on nodes, that of one corner -/
def coverage (a : Attrs) (s : Span) (t : ℚ) : Place → ℚ
  | .off => 0
  | .cell i => atTime a s t (·.frac) i
  | .nodes _ k => atTime a s t (·.frac) k

/-- a sum over corners (7800-7826) -/
def corners (a : Attrs) (s : Span) (t : ℚ) (g : Rec → ℚ) (cs : List (ℚ × Nat)) : ℚ :=
  (cs.map fun c => c.1 * atTime a s t g c.2).sum

/-- `TimeGridVelCurv_c::GetScaledPatValue` at the surface (2564-2690) -/
def current (a : Attrs) (s : Span) (t : ℚ) : Place → Vel
  | .off => Vel.zero
  | .cell i => Vel.smul (fileScale a) ⟨atTime a s t (·.cur.u) i, atTime a s t (·.cur.v) i⟩
  | .nodes cs _ => Vel.smul (fileScale a) ⟨corners a s t (·.cur.u) cs, corners a s t (·.cur.v) cs⟩

/-- `GetScaledPatValueIce` (7566-7654): on nodes `GetInterpolatedValue` looks up the currents (7782-7795) -/
def iceVel (a : Attrs) (s : Span) (t : ℚ) : Place → Vel
  | .off => Vel.zero
  | .cell i => Vel.smul (fileScale a) ⟨atTime a s t (·.ice.u) i, atTime a s t (·.ice.v) i⟩
  | .nodes cs _ => Vel.smul (fileScale a) ⟨corners a s t (·.cur.u) cs, corners a s t (·.cur.v) cs⟩

/-- the three cases of 7549-7563, also of 8500-8555 -/
def blend (c : ℚ) (ice cur : Vel) : Vel :=
  if c ≥ 4/5 then ice
  else if c ≤ 1/5 then cur
  else Vel.add (Vel.smul ((4/5 - c) / (4/5 - 1/5)) cur) (Vel.smul (1 - (4/5 - c) / (4/5 - 1/5)) ice)

/-- `TimeGridVelIce_c::GetScaledPatValue` (7540-7564) -/
def velocity (a : Attrs) (s : Span) (t : ℚ) (p : Place) : Vel := blend (coverage a s t p) (iceVel a s t p) (current a s t p)

/-- `TimeGridWindIce_c::GetScaledPatValue` (3461-3487): winds in the place of currents, and for cells only (1009-1026) -/
def windVelocity (a : Attrs) (s : Span) (t : ℚ) (p : Place) : Vel :=
  if coverage a s t p ≥ 4/5 then Vel.zero
  else if coverage a s t p ≤ 1/5 then current a s t p
  else Vel.smul ((4/5 - coverage a s t p) / (4/5 - 1/5)) (current a s t p)

/-- displacement in degrees of longitude and latitude (289-300); `ratio` is the cosine of the latitude -/
def displace (ratio dt : ℚ) (w : Vel) : Vel := ⟨w.u / 111120.00024 * dt / ratio, w.v / 111120.00024 * dt⟩

/-- `IceMover_c::get_move`, `GetMove` (246-300); 2 is in water -/
def move (a : Attrs) (s : Span) (scale ratio t dt : ℚ) (status : Int) (p : Place) : Vel :=
  if status ≠ 2 then Vel.zero else displace ratio dt (Vel.smul scale (velocity a s t p))

/-- `IceWindMover_c::get_move`, `GetMove` (186-255) -/
def windMove (a : Attrs) (s : Span) (scale ratio t dt windage z : ℚ) (status : Int) (p : Place) : Vel :=
  if status ≠ 2 then Vel.zero
  else if z > 0 then Vel.zero
  else displace ratio dt (Vel.smul windage (Vel.smul scale (windVelocity a s t p)))

/-! ### What is reported, cell by cell -/

/-- `GetIceFields` (8270-8309): coverage and thickness of each cell -/
def iceFields (a : Attrs) (s : Span) (t : ℚ) (cells : List Nat) : List (ℚ × ℚ) :=
  cells.map fun i => (atTime a s t (·.frac) i, atTime a s t (·.thick) i)

/-- `GetIceVelocities` (8372-8417) -/
def iceVelocities (a : Attrs) (s : Span) (t : ℚ) (cells : List Nat) : List Vel :=
  cells.map fun i => Vel.smul (fileScale a) ⟨atTime a s t (·.ice.u) i, atTime a s t (·.ice.v) i⟩

/-- `GetMovementVelocities` (8490-8565), and that of `TimeGridWindIce_c`: the coverage is that of the earlier record (8502) -/
def movementVelocities (a : Attrs) (s : Span) (t : ℚ) (cells : List Nat) : List Vel :=
  cells.map fun i => Vel.smul (fileScale a) (blend (load a (s.first i)).frac
    ⟨atTime a s t (·.ice.u) i, atTime a s t (·.ice.v) i⟩ ⟨atTime a s t (·.cur.u) i, atTime a s t (·.cur.v) i⟩)

end Verif.Mover.Ice
