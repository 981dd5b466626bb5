import Verif.TSeries.Model

/-!
# The running average of a wind

Source: `CalculateRunningAverage` (`py_gnome/lib_gnome/OSSMTimeValue_c.cpp:1390-1516`), called
from `RunningAverage` (`py_gnome/gnome/environment/running_average.py`).

Simplifications: `sqrt(u*u + v*v)` is a parameter `spd`; memory allocation does not fail; the
error of `GetTimeValue` is always the out-of-range one (series with equal neighbouring times
are not accepted as arrays, C71).
-/

namespace Verif.TSeries

/-- `runningAverageTimeStep` (`OSSMTimeValue_c.cpp:1447-1452`): an hour, or the smallest gap
if that is less. -/
def avgStep (ts : List TV) : Int :=
  (List.zipWith (fun p q => q.time - p.time) ts ts.tail).foldl
    (fun st d => if d < st ∧ st > 0 then d else st) 3600

/-- `startTime`, `endTime` (`OSSMTimeValue_c.cpp:1422-1445`). -/
def avgSpan (ts : List TV) (mt : Int) : Int × Int :=
  let first := (at' ts 0).time
  let last := (at' ts (ts.length - 1)).time
  if last - first > 48 * 3600 then
    if mt = 0 then (first, first + 48 * 3600)
    else (mt, if mt + 48 * 3600 > last then last else mt + 48 * 3600)
  else (first, last)

/-- `numRunningAverageValues` (`OSSMTimeValue_c.cpp:1454-1457`). -/
def avgCount (ts : List TV) (mt : Int) : Nat :=
  let s := (avgSpan ts mt).1
  let e := (avgSpan ts mt).2
  if e = s then 1 else ((e - s).tdiv (avgStep ts) + 1).toNat

/-- One sample (`OSSMTimeValue_c.cpp:1476-1495`): the velocity left behind, given the one from
the sample before. On an error `GetInterpolatedComponent` has set `u` to `0` and `v` is stale;
it is only replaced when the *model time* is outside of the data. `none`: the function gives up
(`return 0`). -/
def sample (ts : List TV) (extrap : Bool) (mt : Int) (prev : ℚ × ℚ) (t : Int) :
    Option (ℚ × ℚ) :=
  match getTimeValue ts extrap t with
  | .ok x => some x
  | .garbage => none
  | .err =>
    let first := (at' ts 0).time
    let last := (at' ts (ts.length - 1)).time
    let v0 := (0, prev.2)
    let v1 := if mt < first then
        (match getTimeValue ts extrap first with
        | .ok x => some x
        | _ => none)
      else some v0
    match v1 with
    | none => none
    | some v1 =>
      if mt > last then
        (match getTimeValue ts extrap last with
        | .ok x => some x
        | _ => none)
      else some v1

/-- The inner loop over `j` from `j` on, `n` samples to go (`OSSMTimeValue_c.cpp:1475-1504`):
velocity, `speed1` and `speed` in, velocity and `speed` out. -/
def avgLoop (spd : ℚ × ℚ → ℚ) (ts : List TV) (extrap : Bool) (mt cur : Int) :
    Nat → Nat → (ℚ × ℚ) → ℚ → ℚ → Option ((ℚ × ℚ) × ℚ)
  | 0, _, vel, _, acc => some (vel, acc)
  | n + 1, j, vel, speed1, acc =>
    match sample ts extrap mt vel (cur - j * 3600) with
    | none => none
    | some x =>
      let speed2 := spd x
      avgLoop spd ts extrap mt cur n (j + 1) x speed2
        (if j > 0 then acc + (speed1 + speed2) / 2 else acc)

/-- The outer loop (`OSSMTimeValue_c.cpp:1470-1512`), `n` values to go. The value is `none`
when the division by `pastHoursToAverage` is by zero (not a number). -/
def avgOuter (spd : ℚ × ℚ → ℚ) (ts : List TV) (extrap : Bool) (mt : Int) (hours : Nat)
    (start step : Int) : Nat → Nat → (ℚ × ℚ) → Option (List (Int × Option ℚ))
  | 0, _, _ => some []
  | n + 1, i, vel =>
    let cur := start + i * step
    match avgLoop spd ts extrap mt cur (hours + 1) 0 vel 0 0 with
    | none => none
    | some (vel', speed) =>
      match avgOuter spd ts extrap mt hours start step n (i + 1) vel' with
      | none => none
      | some rest => some ((cur, if hours = 0 then none else some (speed / hours)) :: rest)

/-- `CalculateRunningAverage(pastHoursToAverage, model_time)`
(`OSSMTimeValue_c.cpp:1390-1516`). -/
def runningAverage (spd : ℚ × ℚ → ℚ) (ts : List TV) (extrap : Bool) (hours : Nat) (mt : Int) :
    Option (List (Int × Option ℚ)) :=
  if ts.length = 0 then none
  else avgOuter spd ts extrap mt hours (avgSpan ts mt).1 (avgStep ts) (avgCount ts mt) 0 (0, 0)

end Verif.TSeries
