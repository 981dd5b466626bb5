import Mathlib.Analysis.Real.Sqrt

/-!
# The speed with which droplets rise

Source: `py_gnome/lib_gnome/RiseVelocity_c.cpp` `GetRiseVelocity` (73-109), called for each new element by `get_rise_velocity` (64-71),
`rise_velocity_from_drop_size` (`py_gnome/gnome/cy_gnome/cy_rise_velocity_mover.pyx` 126-143) and `InitRiseVelFromDropletSizeFromDist.initialize`
(`py_gnome/gnome/spills/initializers.py` 281-319); the move of the mover (`RiseVelocity_c.cpp` 199-209).

Numbers are real numbers; `none` is NaN, what `sqrt` gives for a negative number.
-/
namespace Verif.Mover.RiseVel

/-- Sizes up to which Stokes' law holds and from which form drag holds (`RiseVelocity_c.cpp:78`), in metres. -/
noncomputable def d1 : ℝ := 2 / 10000
noncomputable def d2 : ℝ := 1 / 100

/-- `dfac` (`RiseVelocity_c.cpp:75-77`): the acceleration by buoyancy. -/
noncomputable def buoyancy (oil water : ℝ) : ℝ := 98 / 10 * (water - oil) / water

/-- `sqrt` of the C library. -/
noncomputable def sqrtC (x : ℝ) : Option ℝ := if x < 0 then none else some (√x)

/-- The middle range (`RiseVelocity_c.cpp:96-105`), from the speed `a1` at `d1` and `a3` at `d2`. -/
noncomputable def middle (a1 a3 s : ℝ) : ℝ :=
  let a2 := a1 * (d2 - d1) / (2 * d1)
  let a4 := a3 * (d2 - d1) / (2 * d2)
  let c3 := 2 * a1 + a2 - 2 * a3 + a4
  let c2 := -3 * a1 - 2 * a2 + 3 * a3 - a4
  ((c3 * s + c2) * s + a2) * s + a1

/-- `GetRiseVelocity` (`RiseVelocity_c.cpp:73-109`) for buoyancy `f`, diameter `d` and viscosity `nu` of the water. -/
noncomputable def riseOf (f d nu : ℝ) : Option ℝ :=
  let s := (d - d1) / (d2 - d1)
  if s < 0 then
    let ds := s * (d2 - d1) + d1
    some (f * ds * ds / (18 * nu))
  else if 1 ≤ s then
    let df := s * (d2 - d1) + d1
    sqrtC (8 * f * df / 3)
  else (sqrtC (8 * f * d2 / 3)).map fun a3 => middle (f * d1 * d1 / (18 * nu)) a3 s

/-- `GetRiseVelocity` for densities. -/
noncomputable def rise (oil d nu water : ℝ) : Option ℝ := riseOf (buoyancy oil water) d nu

/-- `RiseVelocity_c::GetMove` (`RiseVelocity_c.cpp:199-209`): the change of depth; `none` is NaN. -/
noncomputable def moveZ (v : Option ℝ) (dt : ℝ) : Option ℝ := v.map fun v => -1 * v * dt

end Verif.Mover.RiseVel
