/-!
# Model of `gnome.utilities.inf_datetime` and of the activity test of `gnome.movers.movers.Process`

Source: `/repo/py_gnome/gnome/utilities/inf_datetime.py`, `/repo/py_gnome/gnome/movers/movers.py`.
A finite datetime is the number of microseconds since an epoch (time zones are not modelled).
-/
namespace Verif.InfDate

/-- A date as used in an `active_range`: `MinusInfTime()`, a datetime, or `InfTime()`. -/
inductive DT
  | minf
  | fin (t : Int)
  | inf
  deriving DecidableEq, Repr

/-- the six rich comparison methods -/
inductive Cmp | lt | le | eq | ne | gt | ge
  deriving DecidableEq, Repr

/-- `InfTime.__lt__` … `__ge__` (inf_datetime.py lines 42-82); the argument says whether `other` is an `InfTime`. -/
def infMethod (c : Cmp) (other : DT) : Bool :=
  match c with
  | .lt => false
  | .le => match other with | .inf => true | _ => false
  | .eq => match other with | .inf => true | _ => false
  | .ne => match other with | .inf => false | _ => true
  | .gt => match other with | .inf => false | _ => true
  | .ge => true

/-- `MinusInfTime.__lt__` … `__ge__` (inf_datetime.py lines 107-152). -/
def minfMethod (c : Cmp) (other : DT) : Bool :=
  match c with
  | .lt => match other with | .minf => false | _ => true
  | .le => true
  | .eq => match other with | .minf => true | _ => false
  | .ne => match other with | .minf => false | _ => true
  | .gt => false
  | .ge => match other with | .minf => true | _ => false

/-- comparison of two finite datetimes (`datetime.datetime`, trusted to compare by time) -/
def finMethod (c : Cmp) (a b : Int) : Bool :=
  match c with
  | .lt => a < b
  | .le => a ≤ b
  | .eq => a == b
  | .ne => a != b
  | .gt => b < a
  | .ge => b ≤ a

/-- the reflected method Python falls back to when the left operand returns `NotImplemented` -/
def Cmp.reflect : Cmp → Cmp
  | .lt => .gt | .le => .ge | .eq => .eq | .ne => .ne | .gt => .lt | .ge => .le

/-- Evaluation of `a <c> b`: the left operand's method; a finite `datetime` on the left returns `NotImplemented`
for the infinite objects (they are not datetimes), so Python calls the reflected method of the right operand. -/
def eval (c : Cmp) (a b : DT) : Bool :=
  match a, b with
  | .inf, b => infMethod c b
  | .minf, b => minfMethod c b
  | .fin a, .fin b => finMethod c a b
  | .fin a, .inf => infMethod c.reflect (.fin a)
  | .fin a, .minf => minfMethod c.reflect (.fin a)

/-- `InfTime.__neg__` / `MinusInfTime.__neg__` (lines 87-88, 157-158); a datetime has no negation. -/
def neg : DT → Option DT
  | .inf => some .minf
  | .minf => some .inf
  | .fin _ => none

/-- 1970-01-01 and 2038-01-19 in microseconds since 1970-01-01 (lines 20-21; 24855 days) -/
def minDatetime : Int := 0
def maxDatetime : Int := 24855 * 86400 * 1000000

/-- `InfDateTime(...)` for a real datetime `t` (lines 207-222): ValueError (none) out of range. -/
def mkFinite (t : Int) : Option DT :=
  if eval .gt (.fin t) (.fin maxDatetime) then none
  else if eval .lt (.fin t) (.fin minDatetime) then none
  else some (.fin t)

/-! ## `Process` -/

/-- `Process._check_active_startstop` (movers.py lines 88-105): `true` iff no ValueError is raised. -/
def checkStartStop (start stop : DT) : Bool :=
  match start, stop with
  | .fin _, .inf => !eval .le stop start
  | .fin _, .minf => !eval .le stop start
  | _, _ => !eval .ge start stop

/-- The state of a process that matters for activity (movers.py lines 75-81). -/
structure Process where
  on : Bool
  range : DT × DT
  active : Bool
  deriving Repr, DecidableEq

/-- constructor (lines 59-86); `none` = ValueError -/
def Process.mk? (on : Bool) (range : DT × DT) : Option Process :=
  if checkStartStop range.1 range.2 then some ⟨on, range, on⟩ else none

/-- `active_range` setter (lines 116-119); `none` = ValueError, the process is then unchanged -/
def Process.setRange (p : Process) (range : DT × DT) : Option Process :=
  if checkStartStop range.1 range.2 then some { p with range } else none

/-- `prepare_for_model_step` (lines 135-157). `t` is the model time in microseconds, `dt` the (whole, possibly
negative) number of seconds of the step, so `timedelta(seconds=dt/2)` is exactly `500000*dt` microseconds. -/
def Process.prepareStep (p : Process) (t dt : Int) : Process :=
  let half := DT.fin (t + 500000 * dt)
  { p with active := eval .le p.range.1 half && eval .ge p.range.2 half && p.on }

/-- the default range (line 62) -/
def defaultRange : DT × DT := (.minf, .inf)

/-- what a user can do with a process -/
inductive Op
  | setOn (b : Bool)
  | setRange (r : DT × DT)
  | step (t dt : Int)
  deriving Repr

/-- one operation; a rejected range leaves the process as it is -/
def Process.op (p : Process) : Op → Process
  | .setOn b => { p with on := b }
  | .setRange r => (p.setRange r).getD p
  | .step t dt => p.prepareStep t dt

end Verif.InfDate
