import Verif.Shio.PeaksModel

/-!
# Slack water, floods and ebbs of a tidal current station

Sources: `py_gnome/lib_gnome/ShioCurrent1.cpp` `FindFloodEbb` (1493-1591), `py_gnome/lib_gnome/ShioCurrent2.cpp` `GetRefCurrent`
(288-900), for stations that are not rotary (`rotFlag` 0).

Simplifications: as in `PeaksModel`: times are whole minutes, the step is ten minutes, currents are rationals and the current at a time is a
parameter `c` instead of `RStatCurrent`; memory can be allocated.  In the case of two equal samples the code asks `RStatCurrentRot`, also for
stations that are not rotary; what it says is the parameter `rot`.  The extra times of `FindExtraFE` are left out.
-/

namespace Verif.Shio.Flood
open Verif.Shio (sampleTime)

/-- What is looked for: `MinBeforeFlood`, `MaxFlood`, `MinBeforeEbb`, `MaxEbb` (`ShioCurrent1.cpp:1512-1513`). -/
def minBeforeFlood : Nat := 0
def maxFlood : Nat := 1
def minBeforeEbb : Nat := 2
def maxEbb : Nat := 3

/-- An event: `EbbFloodTimes`, `EbbFlood`, `EbbFloodSpeeds`. -/
structure Event where
  time : Int
  label : Nat
  value : ℚ
  deriving DecidableEq, Repr

/-- The test of `FindFloodEbb` for two successive minutes (1545-1576). -/
def hit (kind : Nat) (c0 c1 : ℚ) : Bool :=
  if kind = maxFlood then decide (c1 ≤ c0)
  else if kind = maxEbb then decide (c1 ≥ c0)
  else if kind = minBeforeEbb then decide (c0 > 0) && decide (c1 < 0)
  else if kind = minBeforeFlood then decide (c0 < 0) && decide (c1 > 0)
  else false

/-- The loop of `FindFloodEbb` (1542-1581), `n` steps from `t0`. -/
def findLoop (c : Int → ℚ) (kind : Nat) (t0 : Int) : Nat → Option Int
  | 0 => none
  | n + 1 => if hit kind (c t0) (c (t0 + 1)) then some t0 else findLoop c kind (t0 + 1) n

/-- `FindFloodEbb` (1493-1591): current and time.  It always returns 0; what is not found is a current of 0 in the middle. -/
def find (c : Int → ℚ) (t0 t2 : Int) (kind : Nat) : ℚ × Int :=
  let mid := (t0 + t2) / 2
  if t2 - t0 ≤ 3 then (c mid, mid)
  else
    match findLoop c kind t0 (t2 - t0).toNat with
    | none => (0, mid)
    | some t => (c t, t)

/-- The variables of the loop of `GetRefCurrent` (`ShioCurrent2.cpp:523-531`). -/
structure Scan where
  old : ℚ
  s1 : ℚ
  s2 : ℚ
  t0 : Int
  t1 : Int
  t2 : Int
  evs : List Event
  deriving Repr

/-- Before the loop (523-531). -/
def scan0 (b : Int) : Scan := ⟨0, 1, 1, b, b, b, []⟩

/-- Store an event: the count goes up only while there is room for one more, otherwise the slot after the last event is used again
(663-665, 700-702 and the like). -/
def push (maxPeaks : Nat) (l : List Event) (e : Event) : List Event := if l.length + 1 < maxPeaks then l ++ [e] else l

/-- The label of a strongest ebb or flood (691-698, 737-744): the kind itself at the beginning and after slack water of that kind, otherwise
the label before. -/
def labelOf (kind slack : Nat) (l : List Event) : Nat :=
  match l.getLast? with
  | none => kind
  | some e => if e.label = slack then kind else e.label

/-- The first part of a step (631-751): turning points. `none` is error 16. -/
def turning (c rot : Int → ℚ) (maxPeaks : Nat) (t : Int) (st : Scan) : Option (List Event) :=
  if st.s1 = 0 then
    let m := rot t
    if m > st.old then some (push maxPeaks st.evs ⟨(st.t0 + st.t1) / 2, maxFlood, m⟩) else none
  else if st.s2 = 0 then some st.evs
  else if st.s1 < 0 ∧ st.s2 > 0 then
    let f := find c st.t0 t maxEbb
    some (push maxPeaks st.evs ⟨f.2, labelOf maxEbb minBeforeEbb st.evs, f.1⟩)
  else if st.s1 > 0 ∧ st.s2 < 0 then
    let f := find c st.t0 t maxFlood
    some (push maxPeaks st.evs ⟨f.2, labelOf maxFlood minBeforeFlood st.evs, f.1⟩)
  else some st.evs

/-- The second part of a step (753-833): slack water. -/
def slack (c : Int → ℚ) (maxPeaks : Nat) (t : Int) (st : Scan) (l : List Event) : List Event :=
  if c t > 0 ∧ st.old < 0 then push maxPeaks l ⟨(find c st.t0 t minBeforeFlood).2, minBeforeFlood, 0⟩
  else if c t < 0 ∧ st.old > 0 then push maxPeaks l ⟨(find c st.t0 t minBeforeEbb).2, minBeforeEbb, 0⟩
  else if st.old = 0 then push maxPeaks l ⟨st.t1, if c t < 0 then maxFlood else minBeforeFlood, 0⟩
  else l

/-- Slopes and times of step `i` at the time `t` (603-622). -/
def slopes (c : Int → ℚ) (i : Nat) (t : Int) (st : Scan) : Scan :=
  if i = 1 then { st with s1 := c t - st.old, s2 := c t - st.old, t1 := t, t2 := t }
  else if i = 2 then { st with s2 := c t - st.old, t2 := t }
  else { st with s1 := st.s2, s2 := c t - st.old, t0 := st.t1, t1 := st.t2, t2 := t }

/-- Step `i` of the loop (543-836). -/
def step (c rot : Int → ℚ) (maxPeaks i : Nat) (t : Int) (st : Scan) : Option Scan :=
  if i = 0 then some { st with old := c t }
  else
    let st' := slopes c i t st
    match turning c rot maxPeaks t st' with
    | none => none
    | some l => some { st' with evs := slack c maxPeaks t st' l, old := c t }

/-- The first `n` steps. -/
def scan (c rot : Int → ℚ) (maxPeaks : Nat) (b : Int) : Nat → Option Scan
  | 0 => some (scan0 b)
  | n + 1 => (scan c rot maxPeaks b n).bind (step c rot maxPeaks n (sampleTime b n))

end Verif.Shio.Flood
