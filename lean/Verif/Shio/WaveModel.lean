import Mathlib.Analysis.Calculus.Deriv.Pow
import Mathlib.Analysis.Calculus.Deriv.Mul
import Mathlib.Analysis.Calculus.Deriv.Add
import Verif.Shio.DstProps

/-!
# Speeds from tide stations

Sources: `py_gnome/lib_gnome/ShioTimeValue_c.cpp` `GetTimeValue` (399-1176), `GetDeriv` (1178-1187),
`InHeightTimeRange` (1189-1200), `GetConvertedHeightValue` (1202-1228), `GetProgressiveWaveValue` (1230-1246).
The callers are `cy_ossm_time.pyx:259-263`, which passes memory from `np.empty`, and `CATSMover_c.cpp:320`, which
passes the value of the step before.

Simplifications: times are integers, heights and speeds reals; `float (t2 - t1)` is exact.  The computation of
the curves and of the highs and lows is a parameter (see `CurveModel.lean`), and so is the interpolation of a
list of values in time (`TSeries`).  There are at least two highs and lows (with fewer the code reads outside of
the list).
-/

namespace Verif.Shio

/-- A high or low: `HighLowData`. -/
structure Ext where
  time : Int
  height : ℝ

/-- `GetDeriv` (1178-1187). -/
noncomputable def getDeriv (t1 : Int) (val1 : ℝ) (t2 : Int) (val2 : ℝ) (t : Int) : ℝ :=
  let dt : ℝ := ((t2 - t1 : Int) : ℝ) / 3600
  if dt < 1 / 1000000000 then val2
  else
    let x : ℝ := ((t - t1 : Int) : ℝ) / (3600 * dt)
    3048 / 3600 * (6 * x * (val1 - val2) * (x - 1) / dt)

/-- The loop of `GetConvertedHeightValue` (1207-1227); `last` is the time of the last entry.  `none` is the
error -1. -/
noncomputable def convLoop (scale : ℝ) (last t : Int) : List Ext → Option ℝ
  | a :: b :: l =>
    if t = a.time ∨ t = last then some 0
    else if a.time < t ∧ t < b.time then some (getDeriv a.time a.height b.time b.height t * scale)
    else convLoop scale last t (b :: l)
  | _ => none

/-- The time of the last entry. -/
def lastTime : List Ext → Int
  | [] => 0
  | [a] => a.time
  | _ :: l => lastTime l

/-- The time of the first entry. -/
def firstTime : List Ext → Int
  | [] => 0
  | a :: _ => a.time

/-- `GetConvertedHeightValue` (1202-1228). -/
noncomputable def conv (scale : ℝ) (hl : List Ext) (t : Int) : Option ℝ := convLoop scale (lastTime hl) t hl

/-- `InHeightTimeRange` (1189-1200). -/
def inHeights (hl : List Ext) (t : Int) : Bool := decide (firstTime hl ≤ t) && decide (t ≤ lastTime hl)

/-- The loop after the heights have been computed (919-948).  `n` is the number of highs and lows: the time is
compared with `n - 1`, not with the time of entry `n - 1`. -/
noncomputable def freshLoop (n t : Int) : List Ext → ℝ × Bool → ℝ × Bool
  | a :: b :: l, (v, found) =>
    let (v, found) := if t = a.time ∨ t = n - 1 then ((0 : ℝ), true) else (v, found)
    let (v, found) :=
      if a.time < t ∧ t < b.time ∧ found = false then (getDeriv a.time a.height b.time b.height t, true) else (v, found)
    freshLoop n t (b :: l) (v, found)
  | _, r => r

/-- The value that is returned when the heights have just been computed (919-964); `v0` is what the caller's
variable holds. -/
noncomputable def fresh (scale : ℝ) (hl : List Ext) (t : Int) (v0 : ℝ) : ℝ :=
  (freshLoop hl.length t hl (v0, false)).1 * scale

/-! ## Questions -/

/-- `fStationType`. -/
inductive Kind
  | current | height | progressive
  deriving DecidableEq, Repr

/-- What is kept: the first and last time of `timeValues`, the interpolation in them, the highs and lows. -/
structure Range where
  lo : Int
  hi : Int
  curve : Int → ℝ
  hl : List Ext

/-- `GetTimeValue` (399-1176); `compute` gives the range for the time of a question.  `none` is an error. -/
noncomputable def get (k : Kind) (scale : ℝ) (compute : Int → Range) (st : Option Range) (t : Int) (v0 : ℝ) :
    Option ℝ × Option Range :=
  let again :=
    let r := compute t
    match k with
    | .current => (some (r.curve t), some r)
    | .height => (some (fresh scale r.hl t v0), some r)
    | .progressive => (some (v0 * scale), some r)
  match st with
  | none => again
  | some r =>
    if r.lo ≤ t ∧ t ≤ r.hi then
      match k with
      | .current => (some (r.curve t), st)
      | .progressive => (some (r.curve t * scale), st)
      | .height => if inHeights r.hl t then (conv scale r.hl t, st) else again
    else again

/-- A history of questions (time, content of the caller's variable). -/
noncomputable def asked (k : Kind) (scale : ℝ) (compute : Int → Range) : Option Range → List (Int × ℝ) → Option Range
  | st, [] => st
  | st, (t, v) :: qs => asked k scale compute (get k scale compute st t v).2 qs

/-- Midnight of the day that contains the time six hours before (445-456), in standard time. -/
def beginOf (s : Int) : Int := (s - 21600) - (s - 21600) % 86400

/-- `DateTimeRec` of a time. -/
def whenOf (s : Int) : When :=
  let d := Dates.civil s
  ⟨d.year, d.month, d.day, dayOfWeek (s / 86400), d.hour⟩

/-- The range of a current station (444-470, `GetTideCurrent`): the curve `ref` of the station in standard time, by the
hours of the first day with its daylight saving time; to the end of the day three days later. -/
noncomputable def computeCurrent (off : Bool) (ref : Int → ℝ) (s : Int) : Range :=
  let b := beginOf s
  let shift : Int := if dst off (whenOf b) then 3600 else 0
  ⟨b, (s + 259200) - (s + 259200) % 86400 + 86400, fun t => ref (t - shift), []⟩

end Verif.Shio
