import Verif.Integ.Model
import Verif.TimeUtil.Props
import Mathlib.Algebra.Module.LinearMap.Defs
import Mathlib.Tactic.Module
import Mathlib.Tactic.Ring
import Mathlib.Tactic.NormNum

/-!
# C47: integration methods; C56: order of the Runge-Kutta methods
-/

namespace Verif.Integ
open Verif.TimeUtil

variable {V P : Type} [AddCommGroup V] [Module Rat V] [AddCommGroup P]

/-- **C47** (constant currents).  All three methods give velocity times time step: for every zone, time and position. -/
theorem C47_constant (z : Zone) (m2l : V → P → P) (c : V) (dt : Rat) (t : Int) (pos : P) :
    euler (fun _ _ => c) dt t pos = dt • c ∧ rk2 z (fun _ _ => c) m2l dt t pos = dt • c ∧
      rk4 z (fun _ _ => c) m2l dt t pos = dt • c := by
  refine ⟨rfl, ?_, ?_⟩
  · simp only [rk2]; module
  · simp only [rk4]; module

/-- seconds of a datetime given in microseconds -/
def sec (t : Rat) : Rat := t / 1000000

/-- **C47** (currents varying in time only), whole seconds and a zone with the usual one hour shift: RK2 gives the exact
integral of a velocity linear in time (`a + b t` with antiderivative `a t + b t²/2`). -/
theorem C47_rk2_linear_partial (z : Zone) (hz : z.sh = 3600) (m2l : V → P → P) (a b : V) (dt : Rat) (t : Int)
    (ht : t % 1000000 = 0) (pos : P) (F : Rat → V) (hF : ∀ s, F s = s • a + (s ^ 2 / 2) • b) :
    rk2 z (fun _ τ => a + sec τ • b) m2l dt t pos = F (sec t + dt) - F (sec t) := by
  simp only [rk2, hF, C55_time_plus z hz t ht]
  have h : sec ((t : Rat) + dt * 1000000) = sec t + dt := by unfold sec; ring
  rw [h]
  generalize sec (t : Rat) = s
  module

/-- RK4 gives the exact integral of a velocity cubic in time. -/
theorem C47_rk4_cubic_partial (z : Zone) (hz : z.sh = 3600) (m2l : V → P → P) (a b c d : V) (dt : Rat) (t : Int)
    (ht : t % 1000000 = 0) (pos : P) (F : Rat → V)
    (hF : ∀ s, F s = s • a + (s ^ 2 / 2) • b + (s ^ 3 / 3) • c + (s ^ 4 / 4) • d) :
    rk4 z (fun _ τ => a + sec τ • b + (sec τ ^ 2) • c + (sec τ ^ 3) • d) m2l dt t pos = F (sec t + dt) - F (sec t) := by
  simp only [rk4, hF, C55_time_plus z hz t ht]
  have h : sec ((t : Rat) + dt * 1000000) = sec t + dt := by unfold sec; ring
  have h2 : sec ((t : Rat) + dt / 2 * 1000000) = sec t + dt / 2 := by unfold sec; ring
  rw [h, h2]
  generalize sec (t : Rat) = s
  module

/-- a zone without daylight saving time -/
def utc : Zone := ⟨0, fun _ => false, 3600⟩

/-- Counterexample to C47 for a time with a fraction of a second: the end of the step is taken from the whole second, so for
a velocity equal to the time (seconds since the epoch) the half second is lost at the end of the step. -/
theorem C47_counterexample_fraction :
    rk2 (V := Rat) (P := Rat) utc (fun _ τ => sec (τ - epoch)) (fun d _ => d) 1 (epoch + 500000) 0 = 3 / 4 ∧
      ((1 / 2 + 1 : Rat) ^ 2 / 2 - (1 / 2) ^ 2 / 2) = 1 := by
  constructor
  · have h : dateToSec utc (epoch + 500000) = 0 := by decide
    simp only [rk2, h, sec, secToDatetime]
    simp only [utc]
    norm_num
  · norm_num

/-- Counterexample to C47 on a machine in a zone with another daylight saving shift: half an hour off, although time and step
are whole seconds. -/
theorem C47_counterexample_zone :
    rk2 (V := Rat) (P := Rat) lordHowe (fun _ τ => sec (τ - epoch)) (fun d _ => d) 900 (epoch + 86400000000) 0 ≠
      ((86400 + 900 : Rat) ^ 2 / 2 - 86400 ^ 2 / 2) := by
  have h : dateToSec lordHowe (epoch + 86400000000) = 48600 := by decide
  have hd : lordHowe.dst (48600 + 900) = true := by decide +kernel
  simp only [rk2, h, sec, secToDatetime, Int.cast_ofNat, hd]
  simp only [lordHowe]
  norm_num

/-! ## C56 -/

/-- **C56** (second order).  For a current that is an affine function of the position and does not change in time, with a
conversion to degrees linear in the displacement, RK2 agrees with the exact solution up to the second power of the time step:
the displacement is `dt·v + dt²/2·A L v` with `v` the velocity at the start and `A L` the derivative of the velocity along a
displacement. -/
theorem C56_rk2 (z : Zone) (m2l : V → P → P) [Module Rat P] (pos : P) (L : V →ₗ[Rat] P) (hL : ∀ d, m2l d pos = L d)
    (A : P →ₗ[Rat] V) (c : V) (dt : Rat) (t : Int) :
    rk2 z (fun p _ => A p + c) m2l dt t pos =
      dt • (A pos + c) + (dt ^ 2 / 2) • A (L (A pos + c)) := by
  simp only [rk2, hL, map_add, map_smul]
  module

/-- **C56** (fourth order).  RK4 agrees up to the fourth power of the time step. -/
theorem C56_rk4 (z : Zone) (m2l : V → P → P) [Module Rat P] (pos : P) (L : V →ₗ[Rat] P) (hL : ∀ d, m2l d pos = L d)
    (A : P →ₗ[Rat] V) (c : V) (dt : Rat) (t : Int) :
    rk4 z (fun p _ => A p + c) m2l dt t pos =
      dt • (A pos + c) + (dt ^ 2 / 2) • A (L (A pos + c)) + (dt ^ 3 / 6) • A (L (A (L (A pos + c)))) +
        (dt ^ 4 / 24) • A (L (A (L (A (L (A pos + c)))))) := by
  simp only [rk4, hL, map_add, map_smul]
  module

/-- The hypotheses can be met, and the value is the one of the exponential series: for `v = x` on the line a step of 1
from 1 gives 1 + 1/2 + 1/6 + 1/24. -/
example : rk4 (V := Rat) (P := Rat) utc (fun p _ => (LinearMap.id : Rat →ₗ[Rat] Rat) p + 0) (fun d _ => d) 1 0 1 =
    1 + 1 / 2 + 1 / 6 + 1 / 24 := by
  rw [C56_rk4 utc (fun d _ => d) 1 LinearMap.id (fun _ => rfl)]
  norm_num

example : utc.sh = 3600 ∧ (epoch % 1000000 = 0) := by decide

end Verif.Integ
