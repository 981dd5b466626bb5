import Mathlib.Analysis.SpecialFunctions.Trigonometric.Basic
import Mathlib.Analysis.SpecialFunctions.Pow.Real
import Mathlib.Analysis.Real.Sqrt
/-!
# Currents driven by the wind

Source: `/repo/py_gnome/lib_gnome/ComponentMover_c.cpp` (the parts compiled for pyGNOME): `CalculateAveragedWindsVelocity` (200-294),
`SetOptimizeVariables` (521-748), `GetMove` (792-831), `PrepareForModelStep` (156-197), `ModelStepIsDone` (134-139), `GetOptimizeValue`
(983-1004), `TextRead` (915-949); `OSSMTimeValue_c.cpp` `CheckStartTime` (461-484), `GetTimeValue` (108-133);
`/repo/py_gnome/gnome/movers/c_current_movers.py` `ComponentMover.get_scaled_velocities` (1419-1440).

Simplifications: doubles are real numbers; angles are in degrees as in the code; the velocity of a pattern at a point is given; speeds
are in m/s (the conversion of units is a factor); uncertainty is the subject of other files; the wind at a time is given, `none` if
`GetTimeValue` returns an error.
-/
namespace Verif.Mover.Component

abbrev V := ℝ × ℝ

/-- a pattern: direction the reference wind comes from, its speed, the speed that it is to give at the reference point, and the velocity
of the pattern there -/
structure Pat where
  angle : ℝ
  speed : ℝ
  scaleTo : ℝ
  atRef : V

/-- the settings; `scaleBy` is 1 for wind speed (TypeDefs.h 442) -/
structure Cfg where
  p1 : Pat
  p2 : Option Pat
  scaleBy : Nat
  averaged : Bool
  extrapolate : Bool
  original : Bool
  factor : ℝ
  power : ℝ
  hours : Nat

/-- the wind: its values, and how `CheckStartTime` sees them -/
inductive Kind | empty | single | series (first last : ℤ)

structure Wind where
  kind : Kind
  value : ℤ → Option V

inductive Err | noData | notEnough | outside
  deriving DecidableEq

/-- `PI * -(0.5 + (angle / 180.0))` -/
noncomputable def theta (angle : ℝ) : ℝ := Real.pi * -(1 / 2 + angle / 180)

/-- length of a vector -/
noncomputable def len (v : V) : ℝ := Real.sqrt (v.1 * v.1 + v.2 * v.2)

/-- `GetTimeValue` into `wVel` with the error ignored: out of range the first component becomes 0 and the second stays -/
noncomputable def fetch (w : Wind) (t : ℤ) (old : V) : V :=
  match w.value t with
  | some v => v
  | none => (0, old.2)

/-- the loop over the hours (249-276): the component of the wind along the first pattern is summed -/
noncomputable def hourSum (w : Wind) (th : ℝ) (start : ℤ) : Nat → V × ℝ
  | 0 => ((0, 0), 0)
  | n + 1 =>
    let s := hourSum w th start n
    let v := fetch w (start + n * 3600) s.1
    (v, s.2 + (v.1 * Real.cos th + v.2 * Real.sin th))

/-- `pow` with the sign kept (279-281) -/
noncomputable def signedPow (x p : ℝ) : ℝ := if x < 0 then -1 * (|x| ^ p) else x ^ p

/-- `CalculateAveragedWindsVelocity` (200-294): the averaged component -/
noncomputable def averagedWind (c : Cfg) (w : Wind) (t : ℤ) : Except Err ℝ :=
  let start := t - c.hours * 3600
  let mean (start : ℤ) (n : Nat) : ℝ := signedPow ((hourSum w (theta c.p1.angle) start n).2 / n) c.power
  match w.kind with
  | .empty => .error .noData
  | .single => .ok (mean t 1)
  | .series first last =>
    if (start < first ∨ last < start) ∧ c.extrapolate = false then .error .notEnough
    else .ok (mean start (if c.hours = 0 then 1 else c.hours))

/-- the wind used for a step (636-653) -/
noncomputable def usedWind (c : Cfg) (w : Option Wind) (t : ℤ) : Except Err V :=
  match w with
  | none => .ok (0, 0)
  | some w =>
    if c.averaged then
      match averagedWind c w t with
      | .error e => .error e
      | .ok x => .ok (x, 0)
    else
      match w.value t with
      | some v => .ok v
      | none => .error .outside

/-- the scale of a pattern by wind speed or wind stress (689-693, 724-728) -/
noncomputable def byWind (scaleBy : Nat) (p : Pat) (v : V) : ℝ :=
  let dot := v.1 * (Real.cos (theta p.angle) * p.speed) + v.2 * (Real.sin (theta p.angle) * p.speed)
  if scaleBy = 1 then dot * p.scaleTo / (p.speed * p.speed * len p.atRef)
  else dot * p.scaleTo * len v / (p.speed * p.speed * p.speed * len p.atRef)

/-- the scale of the first pattern (686-711) -/
noncomputable def scale1 (c : Cfg) (v : V) : ℝ :=
  if c.averaged then
    if c.original then v.1 * c.p1.scaleTo / (c.p1.speed * len c.p1.atRef) else v.1 * c.factor
  else byWind c.scaleBy c.p1 v

/-- the scale of the second pattern (712-735) -/
noncomputable def scale2 (c : Cfg) (v : V) : ℝ :=
  match c.p2 with
  | none => 0
  | some p =>
    if c.averaged = false ∨ c.original then byWind c.scaleBy p v
    else (v.1 * Real.cos (theta p.angle) + v.2 * Real.sin (theta p.angle)) * c.factor

/-- `SetOptimizeVariables` -/
noncomputable def optimize (c : Cfg) (w : Option Wind) (t : ℤ) : Except Err (ℝ × ℝ) :=
  match usedWind c w t with
  | .error e => .error e
  | .ok v => .ok (scale1 c v, scale2 c v)

/-- the velocity at a point with the velocities `a`, `b` of the patterns (`GetMove` 813-814, `get_scaled_velocities`) -/
def combine (s : ℝ × ℝ) (a b : V) : V := (a.1 * s.1 + b.1 * s.2, a.2 * s.1 + b.2 * s.2)

/-! ### what is kept between calls -/

/-- `fOptimize` -/
structure St where
  flag : Bool
  scales : ℝ × ℝ

/-- calls -/
inductive Call | prepare (t : ℤ) | done | ask (t : ℤ)

/-- `PrepareForModelStep` (the flag is set even after an error, and the scales stay), `ModelStepIsDone` (all zero), `GetOptimizeValue` (for
both patterns; after an error 0) -/
noncomputable def call (f : ℤ → Except Err (ℝ × ℝ)) (s : St) : Call → St × Option (ℝ × ℝ)
  | .prepare t => match f t with
    | .ok x => (⟨true, x⟩, none)
    | .error _ => (⟨true, s.scales⟩, none)
  | .done => (⟨false, (0, 0)⟩, none)
  | .ask t =>
    if s.flag then (s, some s.scales)
    else match f t with
      | .ok x => (⟨false, x⟩, some x)
      | .error _ => (s, some (0, 0))

noncomputable def after (f : ℤ → Except Err (ℝ × ℝ)) : St → List Call → St
  | s, [] => s
  | s, c :: cs => after f (call f s c).1 cs

/-- `TextRead` (915-949): whether each file can be read; the error code and the patterns that are there. Without a second file its name is
empty. -/
def textRead (first : Bool) (second : Option Bool) : Bool × Bool × Bool :=
  match second with
  | none => (first, first, false)
  | some b => (b, first, b)

end Verif.Mover.Component
