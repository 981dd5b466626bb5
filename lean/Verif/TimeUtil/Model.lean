import Mathlib.Data.Int.Order.Basic
import Mathlib.Data.Rat.Floor

/-!
# Rounding and conversion of times

Model of `gnome/utilities/time_utils.py` 150-197 (`date_to_sec`), 200-236 (`sec_to_date`, `sec_to_datetime`) and 268-297
(`round_time`).

A naive datetime is an `Int`: microseconds since midnight of day 0 (`datetime.min`).  Simplifications: no upper end of the
calendar (OverflowError past year 9999); the rounding interval is a positive whole number of seconds and the float
arithmetic of line 292 is exact (true for numbers of this size).
-/

namespace Verif.TimeUtil

/-- Conversion to `datetime64[s]`, line 283: the fraction of the second is dropped. -/
def toSec (us : Int) : Int := us / 1000000

/-- Lines 286-294 for one entry of the `datetime64[s]` array: seconds within the day (289),
`(seconds + roundTo / 2) // roundTo * roundTo` (292), the new entry (294; `date.microsecond` is 0 by now). -/
def roundSec (r : Int) (t : Int) : Int :=
  let seconds := t % 86400
  let rounding := ((2 * seconds + r) / (2 * r)) * r
  t + (rounding - seconds)

/-- `round_time` of one datetime, 283-297, in seconds. -/
def roundTime (r : Int) (us : Int) : Int := roundSec r (toSec us)

/-- What the caller passes: one datetime or a list of them, or an array that is already `datetime64[s]`. -/
inductive Arg where
  | dates (l : List Int)
  | array (l : List Int)
deriving DecidableEq, Repr

/-- `round_time` with its effect: the rounded values (in seconds) and the argument afterwards.  `np.asarray(…).reshape(-1)`
(283) does not copy an array of the right type, and line 294 writes into it. -/
def roundTimeCall (r : Int) : Arg → List Int × Arg
  | .dates l => (l.map (roundTime r), .dates l)
  | .array l => (l.map (roundSec r), .array (l.map (roundSec r)))

/-! ## Seconds since the epoch

`time.mktime` and `time.localtime` depend on the time zone of the machine: standard offset `off` (seconds east), a
predicate telling when the daylight saving flag is set (`dst`, on seconds since the epoch) and the shift `sh` then applied.
Simplification: one rule for all times (no historical changes of the standard offset); `mktime` of a tuple with
`tm_isdst = 0` subtracts the standard offset. -/

structure Zone where
  off : Int
  dst : Rat → Bool
  sh : Int

/-- microseconds of 1970-01-01 00:00 -/
def epoch : Int := 62135596800 * 1000000

/-- `date_to_sec` of a scalar, 183-197: the time tuple has whole seconds only, `tm_isdst` forced to 0. -/
def dateToSec (z : Zone) (us : Int) : Int := (us - epoch) / 1000000 - z.off

/-- `sec_to_datetime`, 224-236: `fromtimestamp` (local wall clock, microseconds kept), one hour back if the flag is set. -/
def secToDatetime (z : Zone) (s : Rat) : Rat :=
  let wall := s + z.off + (if z.dst s then z.sh else 0)
  (wall - (if z.dst s then 3600 else 0)) * 1000000 + epoch

/-- entry of the array result of `date_to_sec` (197): `uint32` -/
def toU32 (s : Int) : Int := s % 4294967296

end Verif.TimeUtil
