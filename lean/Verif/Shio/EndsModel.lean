import Mathlib.Data.Rat.Defs
import Mathlib.Algebra.Order.Field.Rat

/-!
# The ends of the curve of a tide station

Sources: `py_gnome/lib_gnome/ShioCurrent1.cpp` `FixCEnds` (1758-1881), `py_gnome/lib_gnome/ShioHeight.cpp` `FixHEnds` (1026-1125), `ResetCTime`
(`ShioCurrent2.cpp` 2055-2081) and `ResetTime` (`ShioHeight.cpp` 1718-1743), and the loops of `ShioTimeValue_c::GetTimeValue` that copy what is not
flagged (`ShioTimeValue_c.cpp` 613-626, 695-721).

Simplifications: times (hours) and values are rationals; stations are not rotary; no point is flagged before; the conversion to whole seconds
and to m/s is left out.  There are at least two points.
-/

namespace Verif.Shio.Ends

/-- A point of a curve: `time[i].val`, `speed[i]` or `height[i]`. -/
structure Pt where
  t : ℚ
  v : ℚ
  deriving DecidableEq, Repr

/-- Which function: currents look for `endTime <= time`, heights for `endTime < time`. -/
inductive Station where
  | current | height
  deriving DecidableEq, Repr

/-- The test for the end (`ShioCurrent1.cpp:1800`, `ShioHeight.cpp:1059`). -/
def late (k : Station) (e t : ℚ) : Bool :=
  match k with
  | .current => decide (e ≤ t)
  | .height => decide (e < t)

/-- `startCross` (1791-1798, 1806): the point before the first, from the second on, that is after the begin. -/
def startCross (pts : List Pt) (b : ℚ) : Nat := (pts.tail.findIdx? fun p => decide (b < p.t)).getD 0

/-- `endCross` (1799-1803, 1807). -/
def endCross (k : Station) (pts : List Pt) (e : ℚ) : Nat := (pts.tail.findIdx? fun p => late k e p.t).getD (pts.length - 2)

/-- The value at `x` on the line through two points (1811-1826). -/
def onLine (p q : Pt) (x : ℚ) : ℚ := (1 - (x - p.t) / (q.t - p.t)) * p.v + (x - p.t) / (q.t - p.t) * q.v

/-- A point that does not exist is not asked for. -/
def zeroPt : Pt := ⟨0, 0⟩

/-- The value at `x` on the line through the points `i` and `i + 1`. -/
def valueAt (pts : List Pt) (i : Nat) (x : ℚ) : ℚ := onLine (pts.getD i zeroPt) (pts.getD (i + 1) zeroPt) x

/-- A point after the two loops (1831-1868); `none`: flagged.  The second loop is later. -/
def fixed (k : Station) (pts : List Pt) (b e : ℚ) (i : Nat) (p : Pt) : Option Pt :=
  let s := startCross pts b
  let c := endCross k pts e
  if i = c + 1 then some ⟨e, valueAt pts c e⟩
  else if c + 1 < i then none
  else if i = s then some ⟨b, valueAt pts s b⟩
  else if i < s then none
  else some p

/-- The points that are not flagged. -/
def kept (k : Station) (pts : List Pt) (b e : ℚ) : List Pt := (pts.mapIdx (fixed k pts b e)).filterMap id

/-- The events that are not flagged (1872-1879). -/
def keptEvents (evs : List Pt) (b e : ℚ) : List Pt := evs.filter fun p => !(decide (p.t < b) || decide (e < p.t))

/-- `ResetCTime`: times from the begin. -/
def reset (pts : List Pt) (b : ℚ) : List Pt := pts.map fun p => ⟨p.t - b, p.v⟩

/-- The curve of a station from `b` to `e`. -/
def curve (k : Station) (pts : List Pt) (b e : ℚ) : List Pt := reset (kept k pts b e) b

end Verif.Shio.Ends
