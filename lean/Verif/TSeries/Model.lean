import Mathlib.Data.Rat.Floor

/-!
# Time series of vectors: acceptance, interpolation, running average

Sources: `py_gnome/lib_gnome/OSSMTimeValue_c.cpp` (`GetTimeValue`,
`GetInterpolatedComponent`, `ClampToTimeRange`, `CheckStartTime`,
`CalculateRunningAverage`), `py_gnome/gnome/utilities/timeseries.py`
(`_check_timeseries`) and `py_gnome/gnome/cy_gnome/cy_ossm_time.pyx`.

Simplifications: times are integers (`Seconds` is `time_t`, no overflow), values
are exact rationals, the handle of pairs is a list, and `fInterpolationType` is
always `LINEAR` (the only assignments are in the two constructors,
`OSSMTimeValue_c.cpp:44,67`), so the Hermite branch is not modelled.
-/

namespace Verif.TSeries

/-- One `TimeValuePair`: a time and a velocity (`TypeDefs.h`). -/
structure TV where
  time : Int
  u : ℚ
  v : ℚ
  deriving DecidableEq, Repr

/-- What `GetInterpolatedComponent` leaves behind: a value, an error code, or a read of
the uninitialised indices `a`, `b` (`OSSMTimeValue_c.cpp:196,295`). -/
inductive R (α : Type) where
  | ok (x : α)
  | err
  | garbage
  deriving DecidableEq, Repr

/-- `INDEXH(timeValues, i)`; outside of the handle an arbitrary pair. -/
def at' (ts : List TV) (i : Nat) : TV := ts.getD i ⟨0, 0, 0⟩

/-- `TIMEVALUE_TOLERANCE` (`TypeDefs.h:27`). -/
def tol : ℚ := 1 / 100000

/-- The binary search of `OSSMTimeValue_c.cpp:266-276`: the start index it ends with. -/
def bsearch (ts : List TV) (t : Int) (s e : Nat) : Nat :=
  if h : e - s > 3 then
    if t ≤ (at' ts ((s + e) / 2)).time then bsearch ts t s ((s + e) / 2)
    else bsearch ts t ((s + e) / 2) e
  else s
termination_by e - s
decreasing_by all_goals omega

/-- The loop of `OSSMTimeValue_c.cpp:278-293`: the first index from `i` on whose time is not
before `t` (`none` when the loop runs off the end). -/
def scan (ts : List TV) (t : Int) (i : Nat) : Option Nat :=
  if h : i < ts.length then
    if t ≤ (at' ts i).time then some i else scan ts t (i + 1)
  else none
termination_by ts.length - i

/-- The straight line of `OSSMTimeValue_c.cpp:249-258,309-318`; `GetTimeChange` fails on
equal times (`:376-411`) and takes the absolute difference. -/
def line (p q : TV) (c : TV → ℚ) (dt : Int) (t : Int) : R ℚ :=
  if dt = 0 then .err
  else
    let slope := (c q - c p) / dt
    let intercept := c p - slope * p.time
    .ok (slope * t + intercept)

/-- `GetInterpolatedComponent` (`OSSMTimeValue_c.cpp:186-318`), linear branch. -/
def component (ts : List TV) (c : TV → ℚ) (t : Int) : R ℚ :=
  if ts.length = 1 then .ok (c (at' ts 0))
  else if t < (at' ts 0).time then .err
  else if t > (at' ts (ts.length - 1)).time then .err
  else if ts.length = 2 then
    line (at' ts 0) (at' ts 1) c ((at' ts 1).time - (at' ts 0).time) t
  else
    match scan ts t (bsearch ts t 0 (ts.length - 1)) with
    | none => .garbage
    | some i =>
      if (((at' ts i).time - t : Int) : ℚ) ≤ tol then .ok (c (at' ts i))
      else if i = 0 then .garbage
      else if |c (at' ts i) - c (at' ts (i - 1))| < tol then .ok (c (at' ts i))
      else
        line (at' ts (i - 1)) (at' ts i) c ((at' ts i).time - (at' ts (i - 1)).time) t

/-- `ClampToTimeRange` (`OSSMTimeValue_c.cpp:139-155`). -/
def clamp (ts : List TV) (t : Int) : Int :=
  if t < (at' ts 0).time then (at' ts 0).time
  else if t > (at' ts (ts.length - 1)).time then (at' ts (ts.length - 1)).time
  else t

/-- The two components in turn, the first failure ending the call
(`OSSMTimeValue_c.cpp:129-135`). -/
def both {α β : Type} : R α → R β → R (α × β)
  | .ok x, .ok y => .ok (x, y)
  | .ok _, .err => .err
  | .ok _, .garbage => .garbage
  | .err, _ => .err
  | .garbage, _ => .garbage

/-- `GetTimeValue` (`OSSMTimeValue_c.cpp:109-136`). -/
def getTimeValue (ts : List TV) (extrap : Bool) (t : Int) : R (ℚ × ℚ) :=
  if ts.length = 0 then .err
  else
    let t' := if extrap then clamp ts t else t
    both (component ts TV.u t') (component ts TV.v t')

/-- `get_time_value` of a sequence of times (`cy_ossm_time.pyx:253-282`): the first failing
time raises `IndexError` for the whole request. -/
def getTimeValues (ts : List TV) (extrap : Bool) : List Int → R (List (ℚ × ℚ))
  | [] => .ok []
  | t :: rest =>
    match getTimeValue ts extrap t with
    | .ok x =>
      match getTimeValues ts extrap rest with
      | .ok xs => .ok (x :: xs)
      | .err => .err
      | .garbage => .garbage
    | .err => .err
    | .garbage => .garbage

/-- What a caller hands over as a time series: a numpy array, or a list of
`(datetime, (a, b))` pairs (`timeseries.py:111-142`). -/
inductive Input where
  | array (ts : List TV)
  | pairs (ts : List TV)
  deriving DecidableEq, Repr

/-- `_timeseries_is_ascending` (`timeseries.py:183-198`): no difference of neighbouring
times is `≤ 0`. -/
def isAscending : List TV → Bool
  | [] => true
  | [_] => true
  | p :: q :: rest => decide (¬ (q.time - p.time ≤ 0)) && isAscending (q :: rest)

/-- `_check_timeseries` + `_xform_input_timeseries` (`timeseries.py:111-142,200-215`): the
pairs stored, or `none` for `TimeseriesError`. The shape of each pair of a list is taken to
be right; nothing else is checked for a list. -/
def accept : Input → Option (List TV)
  | .array ts => if isAscending ts then some ts else none
  | .pairs ts => some ts

end Verif.TSeries
