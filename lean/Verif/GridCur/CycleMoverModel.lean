import Mathlib.Data.Rat.Floor
import Mathlib.Data.List.GetD
import Mathlib.Algebra.Order.Field.Rat
import Mathlib.Tactic.Linarith
import Mathlib.Tactic.NormNum
import Mathlib.Tactic.Ring

/-!
# Currents of a tidal cycle

Source: `py_gnome/lib_gnome/CurrentCycleMover_c.cpp` (`PrepareForModelStep` 69-123, `GetMove` 203-266, `GetScaledVelocities` 421-424),
`py_gnome/lib_gnome/TimeGridVel_c.cpp` (`CheckInterval` 321-398, `SetInterval` 1273-1376, the weight in time of
`GetScaledPatValue` 2826-2848 and 8795-8816, of `GetScaledVelocities` 6899-6917 and 10987-11005),
`py_gnome/gnome/movers/c_current_movers.py` `CurrentCycleMover` (1007-1153).

Simplifications: one component of the current at one place, so a record of the file is one number, there are at least two
records, all in one file, with a time each; numbers are exact rationals (the fraction is a `float` in the code).  The loop
of 368-375 looks one entry behind the last time: whatever is there, the interval is `n` for a time after the last, so the loop stops
before it here.  A record behind the last one cannot be read.  The weights are those of an element at the surface without uncertainty.
With one record loaded (`extrapolate=True`) the model time differs from the time of the record.
-/

namespace Verif.GridCur.CycleMover

/-- The grid in time (`TimeGridVel_c`): records, their times, the records loaded (`fStartData.timeIndex`, `fEndData.timeIndex`),
`fTimeAlpha`, `fModelStartTime`. -/
structure Grid where
  recs : List ℚ
  times : List Int
  start : Option Nat := none
  stop : Option Nat := none
  alpha : ℚ := -1
  modelStart : Int := 0
  deriving DecidableEq

/-- `GetNumTimesInFile`. -/
def Grid.n (g : Grid) : Nat := g.recs.length

/-- `(*fTimeHdl)[i]`. -/
def Grid.time (g : Grid) (i : Nat) : Int := g.times.getD i 0

/-- A record of the file. -/
def Grid.rec' (g : Grid) (i : Nat) : ℚ := g.recs.getD i 0

/-- `numSegmentsPerFloodEbb * (fFraction + fOffset)` (350, 385). -/
def place (n : Nat) (f : ℚ) (o : Nat) : ℚ := (n : ℚ) / 4 * (f + o)

/-- The loop of 368-375. -/
def seek (g : Grid) (e : Int) : Option Nat :=
  (List.range (g.n - 1)).find? fun i => decide (g.time i ≤ e ∧ e ≤ g.time (i + 1))

/-- `CheckInterval` for a fraction of zero from the start of the pattern, or without a tide (351-384): the interval by the time since the
start of the run. -/
def checkElapsed (g : Grid) (t : Int) : Bool × Nat :=
  let e := if g.modelStart = 0 then g.time 0 else t - g.modelStart
  match g.start, g.stop with
  | some a, some b => if g.time a ≤ e ∧ e ≤ g.time b then (true, b) else (false, found g e)
  | _, _ => (false, found g e)
where
  /-- 368-381. -/
  found (g : Grid) (e : Int) : Nat :=
    match seek g e with
    | some i => i + 1
    | none => if e < g.time 0 then 0 else g.n

/-- `CheckInterval` of a cycle (344-398): loaded already, interval, `fTimeAlpha`. -/
def check (g : Grid) (f : ℚ) (o : Nat) (t : Int) : Bool × Nat × ℚ :=
  if f = 0 ∧ o = 0 then ((checkElapsed g t).1, (checkElapsed g t).2, -1)
  else
    let x := place g.n f o
    let i1 := ⌊x⌋.toNat
    let i2 := ⌈x⌉.toNat
    let k := if f = 0 then i2 + 1 else i2
    let i2' := if i2 = 12 then 0 else i2
    (decide (g.start = some i1 ∧ g.stop = some i2'), k, k - x)

/-- Records `a` and `b` are loaded (1343-1370): the first must be in the file. -/
def Grid.load (g : Grid) (a : Nat) (b : Option Nat) : Grid × Bool :=
  if a < g.n then ({ g with start := some a, stop := b }, true) else ({ g with start := none, stop := none }, false)

/-- `SetInterval` (1273-1376); `false`: an error, nothing is loaded. -/
def setInterval (ex : Bool) (f : ℚ) (o : Nat) (t : Int) (g : Grid) : Grid × Bool :=
  let c := check g f o t
  let k := c.2.1
  let g' := { g with alpha := c.2.2 }
  if c.1 = true then (g', true)
  else if k = 0 ∨ k = g.n then
    if 0 ≤ c.2.2 ∧ k = g.n then g'.load (k - 1) (some 0)
    else if ex = true ∧ k = g.n then g'.load (k - 1) none
    else if ex = true ∧ k = 0 then g'.load 0 none
    else ({ g' with start := none, stop := none }, false)
  else g'.load (k - 1) (if k < g.n then some k else none)

/-- The current of the pattern (`GetScaledPatValue`): with two records loaded, the weight of the first is `fTimeAlpha`, or from the time
since the start of the run. -/
def value (g : Grid) (t : Int) : Option ℚ :=
  match g.start, g.stop with
  | some a, some b =>
    let w : ℚ := if g.alpha = -1 then ((g.time b - (t - g.modelStart) : Int) : ℚ) / ((g.time b - g.time a : Int) : ℚ) else g.alpha
    some (w * g.rec' a + (1 - w) * g.rec' b)
  | some a, none => some (g.rec' a)
  | none, _ => none

/-- The tide of the mover at a time: none, harmonics (phase and fraction from `GetLocationInTideCycle`, value of the tide or an error of it), or
a series of values (`CyOSSMTime`). -/
inductive Tide where
  | off
  | shio (phase : Nat) (frac : ℚ) (value : Option ℚ)
  | series (value : ℚ)

/-- `offset` (111-118), from `fPatternStartPoint = MaxFlood = 1`. -/
def offsetOf (phase : Nat) : Nat := if 1 ≤ phase then phase - 1 else phase + 4 - 1

inductive Err where
  /-- A method is called for a null pointer (105). -/
  | crash
  /-- "Time outside of interval being modeled", or no such record. -/
  | noRecord
  deriving DecidableEq, Repr

/-- `PrepareForModelStep` (69-123): `first`: the first step of the run. -/
def prepare (ex first : Bool) (tide : Tide) (t : Int) (g : Grid) : Except Err Grid :=
  let g0 := if first then { g with modelStart := t } else g
  let go := fun f o => match setInterval ex f o t g0 with
    | (g', true) => .ok g'
    | (_, false) => .error .noRecord
  match tide with
  | .off => go 0 0
  | .shio p f _ => go f (offsetOf p)
  | .series _ => .error .crash

/-- The factor of the tide (236-249): `{1, 1}` without a tide, 0 for an error of the tide. -/
def factor : Tide → ℚ
  | .off => 1
  | .shio _ _ v => |v.getD 0|
  | .series v => |v|

/-- The current that moves an element (220-249). -/
def current (scale : ℚ) (tide : Tide) (g : Grid) (t : Int) : Option ℚ :=
  (value g t).map fun v => v * scale * factor tide

/-- What `get_scaled_velocities` gives (`GetScaledVelocities`): no scale, no tide, the weight from the time of the model. -/
def reported (ex : Bool) (f : ℚ) (o : Nat) (t : Int) (g : Grid) : Option ℚ :=
  match setInterval ex f o t g with
  | (_, false) => none
  | (g', true) =>
    if (check g' f o t).1 = false then none
    else
      match g'.start, g'.stop with
      | some a, some b =>
        let w : ℚ := ((g'.time b - t : Int) : ℚ) / ((g'.time b - g'.time a : Int) : ℚ)
        some (w * g'.rec' a + (1 - w) * g'.rec' b)
      | some a, none => some (g'.rec' a)
      | none, _ => none

end Verif.GridCur.CycleMover
