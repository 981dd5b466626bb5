import Mathlib.Data.Rat.Defs
import Mathlib.Algebra.Order.Field.Rat
/-!
# Model of the numerical methods of the mover of gridded currents

Source: `GridCurrentMover_c::GetMove` 285-395 in `/repo/py_gnome/lib_gnome/GridCurrentMover_c.cpp`. `vel t p` is the velocity at a time and
a place (`GetScaledPatValue` times `fCurScale`, with the interval loaded as in `Model.lean`), `m` is `METERSPERDEGREELAT`, `ratio` is
`LongToLatRatio3`, `unc` is `AddUncertainty`. Places and moves are in degrees (in C++ in millionths of a degree). Time steps are positive.
-/
namespace Verif.TGrid

/-- (east, north) or (longitude, latitude) -/
abbrev Vec := ℚ × ℚ

/-- `numerical_methods` in `gnome/basic_types.py`, `NUM_METHOD` in `TypeDefs.h`: RK2 is `TRAPEZOID` -/
inductive Method where
  | euler | rk2 | rk4
deriving DecidableEq

structure Env where
  vel : Int → Vec → Vec
  m : ℚ
  ratio : ℚ → ℚ
  unc : Vec → Vec

/-- `((u / METERSPERDEGREELAT) * timeStep) / LongToLatRatio3(lat)`, `(v / METERSPERDEGREELAT) * timeStep` -/
def east (e : Env) (lat u dt : ℚ) : ℚ := ((u / e.m) * dt) / e.ratio lat
def north (e : Env) (v dt : ℚ) : ℚ := (v / e.m) * dt

def add (a b : Vec) : Vec := (a.1 + b.1, a.2 + b.2)
def scale (a : Vec) (k : ℚ) : Vec := (a.1 * k, a.2 * k)

/-- 290-323 -/
def euler (e : Env) (uncertain : Bool) (t : Int) (dt : Nat) (p : Vec) : Vec :=
  let v := if uncertain then e.unc (e.vel t p) else e.vel t p
  (east e p.2 v.1 dt, north e v.2 dt)

/-- 325-355, as written: the northward move is from the first velocity, over half the step -/
def rk2 (e : Env) (t : Int) (dt : Nat) (p : Vec) : Vec :=
  let v0 := e.vel t p
  let p1 := add p (east e p.2 v0.1 dt, north e v0.2 dt)
  let v1 := e.vel (t + dt) p1
  (east e p.2 (v1.1 + v0.1) (dt / 2), north e v0.2 (dt / 2))

/-- 357-394: the time of each stage is `model_time + (Seconds)(timeStep * factor)` -/
def rk4 (e : Env) (t : Int) (dt : Nat) (p : Vec) : Vec :=
  let d (v : Vec) : Vec := (east e p.2 v.1 dt, north e v.2 dt)
  let half : Int := t + ((dt / 2 : Nat) : Int)
  let d1 := d (e.vel t p)
  let d2 := d (e.vel half (add p (scale d1 (1/2))))
  let d3 := d (e.vel half (add p (scale d2 (1/2))))
  let d4 := d (e.vel (t + dt) (add p d3))
  add (add (scale d1 (1/6)) (scale d2 (1/3))) (add (scale d3 (1/3)) (scale d4 (1/6)))

def move (e : Env) (k : Method) (uncertain : Bool) (t : Int) (dt : Nat) (p : Vec) : Vec :=
  match k with
  | .euler => euler e uncertain t dt p
  | .rk2 => rk2 e t dt p
  | .rk4 => rk4 e t dt p

end Verif.TGrid
