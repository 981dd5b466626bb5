import Verif.TimeUtil.Model
import Mathlib.Algebra.Module.Basic

/-!
# Integration methods of the Python movers

Model of `gnome/movers/movers.py` 269-312 (`get_delta_Euler`, `get_delta_RK2`, `get_delta_RK4`).

`V` is the space of velocities and displacements in metres, `P` that of positions (degrees); both arbitrary rational vector
spaces (the code: arrays of three columns).  `vel p t` is `vel_field.at(p, t)` at a naive datetime `t` (microseconds, as a
rational because of half steps); `m2l d p` is `FlatEarthProjection.meters_to_lonlat(d, p)`.  Simplification: exact arithmetic;
the resolution of a microsecond of the datetimes made by `fromtimestamp` is not applied.
-/

namespace Verif.Integ
open Verif.TimeUtil

variable {V P : Type} [AddCommGroup V] [Module Rat V] [AddCommGroup P]

/-- `get_delta_Euler`, 269-272. -/
def euler (vel : P → Rat → V) (dt : Rat) (t : Int) (pos : P) : V := dt • vel pos t

/-- `get_delta_RK2`, 274-287. -/
def rk2 (z : Zone) (vel : P → Rat → V) (m2l : V → P → P) (dt : Rat) (t : Int) (pos : P) : V :=
  let ts : Rat := dateToSec z t
  let newTime := secToDatetime z (ts + dt)
  let v0 := vel pos t
  let p1 := pos + m2l (dt • v0) pos
  let v1 := vel p1 newTime
  (dt / 2) • (v0 + v1)

/-- `get_delta_RK4`, 289-312. -/
def rk4 (z : Zone) (vel : P → Rat → V) (m2l : V → P → P) (dt : Rat) (t : Int) (pos : P) : V :=
  let ts : Rat := dateToSec z t
  let newTime := secToDatetime z (ts + dt)
  let newTime2 := secToDatetime z (ts + dt / 2)
  let v0 := vel pos t
  let p1 := pos + m2l ((dt / 2) • v0) pos
  let v1 := vel p1 newTime2
  let p2 := pos + m2l ((dt / 2) • v1) pos
  let v2 := vel p2 newTime2
  let p3 := pos + m2l (dt • v2) pos
  let v3 := vel p3 newTime
  (dt / 6) • (v0 + (2 : Rat) • v1 + (2 : Rat) • v2 + v3)

end Verif.Integ
