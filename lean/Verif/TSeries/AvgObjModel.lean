import Verif.TSeries.Avg

/-!
# The running average object of a wind

Source: `RunningAverage` (`py_gnome/gnome/environment/running_average.py:76-258`) on
`CyTimeseries` (`py_gnome/gnome/cy_gnome/cy_ossm_time.pyx:525-572`) and
`OSSMTimeValue_c::CheckStartTime` (`py_gnome/lib_gnome/OSSMTimeValue_c.cpp:461-484`).

Simplifications: the averages themselves are those of `Verif.TSeries.runningAverage`; the stored
series is kept as times and averages (its second component is always zero); the time `0` of the
constructor without a wind is the integer zero; schema and saving are left out. A failure of
`CalculateRunningAverage` (a null handle, read by the wrapper) and a copy of an empty series are
the outcome `crash`.
-/

namespace Verif.TSeries.AvgObj

/-- A wind as the running average sees it (`wind.ossm`): its series and whether it may be
extrapolated. -/
structure W where
  ts : List TV
  extrap : Bool
  deriving DecidableEq, Repr

/-- The object (`running_average.py:104-121`): `wind`, `_past_hours_to_average`, and the series
held by `ossm`. -/
structure Obj where
  wind : Option W
  hours : Nat
  stored : List (Int × Option ℚ)
  deriving DecidableEq, Repr

/-- What a call leaves behind: the object, or the exception. -/
inductive Out where
  | ok (o : Obj)
  /-- `ReferencedObjectNotSet` (`running_average.py:204-206`) -/
  | notSet
  /-- `self.wind.ossm` with no wind (`running_average.py:236`) -/
  | noAttr
  /-- `OSError` of `check_time_in_range` (`cy_ossm_time.pyx:538-543`) -/
  | noSeries
  /-- the wrapper reads a null handle or an empty array (`cy_ossm_time.pyx:563-570`) -/
  | crash
  deriving DecidableEq, Repr

/-- `create_running_average(past_hours, model_time)` (`cy_ossm_time.pyx:554-572`). -/
def average (spd : ℚ × ℚ → ℚ) (w : W) (hours : Nat) (mt : Int) :
    Option (List (Int × Option ℚ)) :=
  match runningAverage spd w.ts w.extrap hours mt with
  | none => none
  | some [] => none
  | some (x :: l) => some (x :: l)

/-- `RunningAverage(wind, timeseries, past_hours_to_average)` (`running_average.py:83-125`): a
wind that is given is taken and the series is not looked at; a series alone becomes a wind of
its own (`Wind(timeseries, units='mps', coord_sys='uv')`, which does not extrapolate). -/
def make (spd : ℚ × ℚ → ℚ) (wind : Option W) (series : Option (List TV)) (hours : Nat) : Out :=
  match wind, series with
  | none, none => .ok ⟨none, hours, [(0, some 0)]⟩
  | some w, _ =>
    match average spd w hours 0 with
    | some s => .ok ⟨some w, hours, s⟩
    | none => .crash
  | none, some ts =>
    match average spd ⟨ts, false⟩ hours 0 with
    | some s => .ok ⟨some ⟨ts, false⟩, hours, s⟩
    | none => .crash

/-- `check_time_in_range` (`cy_ossm_time.pyx:525-552`, `OSSMTimeValue_c.cpp:461-484`): no series
is an error, one value is good for every time. -/
def inRange (s : List (Int × Option ℚ)) (mt : Int) : Option Bool :=
  match s with
  | [] => none
  | [_] => some true
  | x :: y :: l =>
    some (decide (¬ mt < x.1) && decide (¬ mt > ((y :: l).getLast (by simp)).1))

/-- `create_running_average_timeseries` (`running_average.py:222-242`). -/
def renew (spd : ℚ × ℚ → ℚ) (o : Obj) (mt : Int) : Out :=
  match o.wind with
  | none => .noAttr
  | some w =>
    match average spd w o.hours mt with
    | some s => .ok { o with stored := s }
    | none => .crash

/-- `prepare_for_model_run` (`running_average.py:200-211`). -/
def prepareRun (spd : ℚ × ℚ → ℚ) (o : Obj) (mt : Int) : Out :=
  match o.wind with
  | none => .notSet
  | some _ => renew spd o mt

/-- `prepare_for_model_step` (`running_average.py:213-224`). -/
def prepareStep (spd : ℚ × ℚ → ℚ) (o : Obj) (mt : Int) : Out :=
  match inRange o.stored mt with
  | none => .noSeries
  | some true => .ok o
  | some false => renew spd o mt

/-- What can be done to the object: the hours set (`running_average.py:141-147`), the wind
changed in place or replaced (`self.wind` is an attribute; the wind is shared), a run or a step
prepared. -/
inductive Op where
  | hours (h : Nat)
  | wind (w : Option W)
  | run (mt : Int)
  | step (mt : Int)
  deriving DecidableEq, Repr

/-- One operation. -/
def apply (spd : ℚ × ℚ → ℚ) (o : Obj) : Op → Out
  | .hours h => .ok { o with hours := h }
  | .wind w => .ok { o with wind := w }
  | .run mt => prepareRun spd o mt
  | .step mt => prepareStep spd o mt

/-- A sequence of operations; an exception ends it. -/
def applyAll (spd : ℚ × ℚ → ℚ) (o : Obj) : List Op → Out
  | [] => .ok o
  | op :: ops =>
    match apply spd o op with
    | .ok o' => applyAll spd o' ops
    | e => e

end Verif.TSeries.AvgObj
