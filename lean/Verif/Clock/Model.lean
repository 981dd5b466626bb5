import Verif.Py
/-!
# Model of the clock of `gnome.model.Model`

Source: `/repo/py_gnome/gnome/model.py`. Times, time steps and durations are integer numbers of microseconds (the
resolution of Python's `datetime`/`timedelta`); float arithmetic on seconds is treated as exact. What a step does to
the elements is left out: only whether the spills/cache/outputters hold data of a run (`dirty`) is kept.
-/
namespace Verif.Clock
open Verif.Py

/-- Clock state: `_start_time`, `_time_step` (`None` until `setup_model_run`), `_duration`, `_run_backwards`,
`_current_time_step`, `model_time`, `_num_time_steps`, `spills.uncertain`; `dirty`: something was released, cached or
written since the last rewind (lines 266-338). -/
structure State where
  start : Int
  ts : Option Int
  dur : Int
  backward : Bool
  n : Int
  mt : Int
  num : Option Int
  uncertain : Bool
  dirty : Bool
  deriving DecidableEq, Repr

/-- `rewind` (lines 398-419) -/
def rewind (s : State) : State := { s with n := -1, mt := s.start, dirty := false }

/-- `_reset_num_time_steps` (lines 660-671): `1 + int(duration // time_step)`; ZeroDivisionError for step 0. -/
def resetNum (s : State) : Except Err State :=
  match s.ts with
  | none => .ok { s with num := none }
  | some t => if t = 0 then .error .zeroDivision else .ok { s with num := some (1 + Int.fdiv s.dur t) }

/-- The conversion in the `time_step` setter (lines 601-604): a timedelta (microseconds), or a number of seconds
given as a fraction `p/q` (`q > 0`), truncated towards zero by `int`. -/
inductive StepArg
  | delta (us : Int)
  | number (p : Int) (q : Nat)
  deriving Repr

def StepArg.us : StepArg → Int
  | .delta us => us
  | .number p q => Int.tdiv p q * 1000000

/-- `time_step` setter (lines 593-607). If `_reset_num_time_steps` raises, the new step is already stored and the
model has not been rewound. -/
def setTimeStep (s : State) (a : StepArg) : State × Option Err :=
  let s1 := { s with ts := some a.us }
  match resetNum s1 with
  | .error e => (s1, some e)
  | .ok s2 => (rewind s2, none)

/-- `start_time` setter (lines 580-583) -/
def setStart (s : State) (t : Int) : State := rewind { s with start := t }

/-- `duration` setter (lines 628-637) -/
def setDuration (s : State) (d : Int) : State × Option Err :=
  let s1 := if d < s.dur then rewind s else s
  let s2 := { s1 with dur := d }
  match resetNum s2 with
  | .error e => (s2, some e)
  | .ok s3 => (s3, none)

/-- `run_backwards` setter (lines 527-546): the duration is flipped directly, the time step through its setter -/
def setBackward (s : State) (b : Bool) : State × Option Err :=
  if s.backward = b then (s, none) else
  let s1 := { s with backward := b }
  if b then
    let s2 := { s1 with dur := if 0 < s1.dur then -s1.dur else s1.dur }
    match s2.ts with
    | some t => if 0 < t then
          match setTimeStep s2 (.delta (-t)) with
          | (s3, some e) => (s3, some e)
          | (s3, none) => (rewind s3, none)
        else (rewind s2, none)
    | none => (rewind s2, none)
  else
    let s2 := { s1 with dur := if s1.dur < 0 then -s1.dur else s1.dur }
    match s2.ts with
    | some t => if t < 0 then
          match setTimeStep s2 (.delta (-t)) with
          | (s3, some e) => (s3, some e)
          | (s3, none) => (rewind s3, none)
        else (rewind s2, none)
    | none => (rewind s2, none)

/-- `uncertain` setter (lines 507-515) -/
def setUncertain (s : State) (u : Bool) : State :=
  if s.uncertain = u then s else rewind { s with uncertain := u }

/-- `map` setter (lines 645-648) -/
def setMap (s : State) : State := rewind s

/-- Constructor (lines 197-330), the parts about the clock. `ts = none` leaves the step open. -/
def init (start dur : Int) (ts : Option StepArg) (backward uncertain : Bool) : Except Err State :=
  let s0 : State := ⟨start, none, dur, backward, -1, start, none, uncertain, false⟩
  let r : Except Err State :=
    match ts with
    | none => resetNum s0
    | some a =>
      match setTimeStep s0 a with
      | (_, some e) => .error e
      | (s1, none) => resetNum s1
  match r with
  | .error e => .error e
  | .ok s1 =>
    if backward then
      let s2 := { s1 with dur := if 0 < s1.dur then -s1.dur else s1.dur }
      match s2.ts with
      | some t => if 0 < t then
            match setTimeStep s2 (.delta (-t)) with
            | (_, some e) => .error e
            | (s3, none) => .ok s3
          else .ok s2
      | none => .ok s2
    else .ok s1

/-- `current_time_step` setter (lines 615-620) -/
def setCurrent (s : State) (k : Int) (t : Int) : State := { s with mt := s.start + k * t, n := k }

/-- the part of `setup_model_run` that chooses a time step when none was given (lines 915-928); `auto` is 900 or
3600 seconds depending on the movers and weatherers -/
def setupStep (s : State) (auto : Int) : Except Err State :=
  match s.ts with
  | some _ => .ok s
  | none => resetNum { s with ts := some auto }

/-- How a step can end: normally, by an exception of some component during set-up, before the step counter is
advanced, or after it (while releasing the second half or writing output). -/
inductive Outcome | ok | failSetup | failBefore | failAfter
  deriving DecidableEq, Repr

/-- what a client sees of a step: an output (step number, time, last-step flag), StopIteration, or another error -/
inductive Seen
  | output (n : Int) (t : Int) (last : Bool)
  | stop
  | error
  deriving DecidableEq, Repr

/-- islast flag passed to the outputters (`write_output`, lines 1144-1148) -/
def isLast (s : State) : Bool := s.num = some (s.n + 1)

/-- `step` (lines 1159-1226) -/
def step (s : State) (auto : Int) (o : Outcome) : State × Seen :=
  if s.n = -1 then
    match o with
    | .failSetup => ({ s with dirty := true }, .error)
    | _ =>
      match setupStep s auto with
      | .error _ => ({ s with dirty := true }, .error)
      | .ok s1 =>
        match s1.ts with
        | none => (s1, .error)
        | some t =>
          if o = .failBefore then ({ s1 with dirty := true }, .error)
          else
            let s2 := { setCurrent s1 (s1.n + 1) t with dirty := true }
            if o = .failAfter then (s2, .error)
            else (s2, .output s2.n s2.mt (isLast s2))
  else
    match s.num, s.ts with
    | some num, some t =>
      if s.n ≥ num - 1 then (s, .stop)
      else if o = .failBefore ∨ o = .failSetup then ({ s with dirty := true }, .error)
      else
        let s2 := { setCurrent s (s.n + 1) t with dirty := true }
        if o = .failAfter then (s2, .error)
        else (s2, .output s2.n s2.mt (isLast s2))
    | _, _ => (s, .error)

/-- everything a client can do to the clock -/
inductive Op
  | step (auto : Int) (o : Outcome)
  | rewind
  | setStart (t : Int)
  | setTimeStep (a : StepArg)
  | setDuration (d : Int)
  | setBackward (b : Bool)
  | setUncertain (u : Bool)
  | setMap
  deriving Repr

def exec (s : State) : Op → State
  | .step auto o => (step s auto o).1
  | .rewind => rewind s
  | .setStart t => setStart s t
  | .setTimeStep a => (setTimeStep s a).1
  | .setDuration d => (setDuration s d).1
  | .setBackward b => (setBackward s b).1
  | .setUncertain u => setUncertain s u
  | .setMap => setMap s

/-- `full_run` after its rewind (lines 1319-1333): step until StopIteration, collecting the outputs; every step is
assumed to succeed. `fuel` only makes the recursion structural: the result is `none` when it does not suffice. -/
def loop (auto : Int) : Nat → State → Option (State × List Seen)
  | 0, _ => none
  | fuel + 1, s =>
    match step s auto .ok with
    | (s', .output a b c) =>
      match loop auto fuel s' with
      | some (s'', l) => some (s'', .output a b c :: l)
      | none => none
    | (s', .stop) => some (s', [])
    | (s', .error) => some (s', [.error])

/-- `full_run` (lines 1310-1335) with the default `rewind=True` -/
def fullRun (auto : Int) (fuel : Nat) (s : State) : Option (State × List Seen) := loop auto fuel (rewind s)

/-! ## Sub-steps for weathering -/

/-- Python `range(0, stop, step)` -/
def pyRange0 (stop step : Int) : Except Err (List Int) :=
  if step = 0 then .error .valueError
  else if 0 < step then .ok ((List.range ((stop + step - 1) / step).toNat).map (fun (i : Nat) => (i : Int) * step))
  else .ok ((List.range ((-stop - step - 1) / (-step)).toNat).map (fun (i : Nat) => (i : Int) * step))

/-- `[(idx, next_idx - idx) for idx, next_idx in zip(indexes, indexes[1:])]` (line 1095-1096) -/
def pairs : List Int → List (Int × Int)
  | a :: b :: t => (a, b - a) :: pairs (b :: t)
  | _ => []

/-- `_split_into_substeps` (lines 1081-1104): `ts` is `int(self._time_step)` in seconds, `n` the number of
sub-steps asked for, `mt` the model time in seconds. -/
def split (ts n mt : Int) : Except Err (List (Int × Int)) :=
  if n = 0 then .error .zeroDivision else
  let sub := Int.fdiv ts n
  match pyRange0 (ts + 1) sub with
  | .error e => .error e
  | .ok indexes =>
    let res := pairs indexes
    match res.getLast? with
    | none => .error .indexError
    | some (a, d) =>
      let res := if a + d < ts then res ++ [(a + d, Int.fmod ts sub)] else res
      .ok (res.map (fun p => (mt + p.1, p.2)))

end Verif.Clock
