import Mathlib.Analysis.SpecialFunctions.Pow.Real
import Mathlib.Analysis.SpecialFunctions.Trigonometric.Basic

/-!
Spreading of oil: `FayGravityViscous` and `Langmuir` of
py_gnome/gnome/weatherers/spreading.py, and the initial area given to oil when
it is released (`Release.initialize_elements_post_substance`,
py_gnome/gnome/spills/release.py 475-516).

Real numbers for floats; where the code divides by zero, or raises a negative
number to a fractional power, the infinity or NaN of the floats is followed by
cases. The weatherers are active and the substance is weatherable; the loops
over the spills (`np.unique(data['spill_num'])`) touch disjoint elements and
are one pass over the elements here. Densities and the thickness limit are
positive. Splitting and removing elements are left out.
-/

namespace Verif.Spread

/-- What spreading reads and writes of an element. -/
structure El where
  spill : Nat
  pos : ℝ × ℝ
  /-- in the view 'surface_weather': floating, with a positive mass
  (spill_container.py 42-53, 867-890) -/
  surf : Bool
  mass : ℝ
  init : ℝ
  dens : ℝ
  age : ℝ
  /-- 'bulk_init_volume' -/
  bulk : ℝ
  /-- 'vol_frac_le_st' -/
  frac : ℝ
  /-- 'fay_area' -/
  fay : ℝ
  area : ℝ
  /-- 'frac_coverage' -/
  cover : ℝ
  /-- 'max_area_le' -/
  maxArea : ℝ

/-- `constants.gravity` (constants.py 18). -/
noncomputable def g : ℝ := 9.80665

/-- `constants.water_kinematic_viscosity` (constants.py 19), used in every step
of spreading (spreading.py 665). -/
noncomputable def waterVisc : ℝ := 0.000001

/-- `spreading_const` (spreading.py 54). -/
noncomputable def k1 : ℝ := 1.53
noncomputable def k2 : ℝ := 1.21
noncomputable def k3 : ℝ := 1.45

/-- `init_mass / density`, the volume an element had at first, at a density. -/
noncomputable def El.vol (e : El) : ℝ := e.init / e.dens

/-! ### Fay spreading -/

/-- `get_thickness_limit` (spreading.py 544-561). -/
noncomputable def thicknessLimit (vo : ℝ) : ℝ :=
  if 0.0001 ≤ vo then 0.0001
  else if 0.000001 ≤ vo then 0.00001 + 0.9091 * (vo - 0.000001)
  else 0.00001

/-- `_gravity_spreading_t0` (spreading.py 77-93), for a buoyancy that is not
zero. -/
noncomputable def t0 (nu rb V : ℝ) : ℝ :=
  (k2 / k1) ^ 4 * (V / (nu * g * rb)) ^ (1 / 3 : ℝ)

/-- `init_area` (spreading.py 113-153). -/
noncomputable def initArea (nu rb V lim : ℝ) : ℝ :=
  min (Real.pi * (k2 ^ 4 / k1 ^ 2) * ((V ^ 5 * g * rb) / nu ^ 2) ^ (1 / 6 : ℝ)) (V / lim)

/-- `C` of `update_area` (spreading.py 525-530). -/
noncomputable def coefC (rb V : ℝ) : ℝ :=
  Real.pi * k3 ^ 2 * (V ^ 2 * g * rb / √waterVisc) ^ (1 / 3 : ℝ)

/-- `K` of `update_area` (spreading.py 532). -/
noncomputable def coefK : ℝ := 4 * Real.pi * 2 * 0.033

/-- `vol_frac_le_st * (blob_area_fgv + blob_area_diffusion)`
(spreading.py 534-538). -/
noncomputable def gain (rb dt : ℝ) (e : El) : ℝ :=
  e.frac *
    (0.5 * (coefC rb e.bulk ^ 2 / (e.fay / e.frac)) * dt +
      ((7 / 6) * coefK * ((e.fay / e.frac) / coefK) ^ (1 / 7 : ℝ)) * dt)

/-- `update_area` for one element, `V0` being `blob_init_vol[0]`
(spreading.py 515-542). The maximal area and the age after the step are those
of the call (spreading.py 656, 664-672). A buoyancy of zero makes `t0` infinite, so
nothing is past it. -/
noncomputable def updateArea (rb V0 dt maxArea : ℝ) (e : El) : ℝ :=
  if rb ≠ 0 ∧ t0 waterVisc rb V0 < e.age + dt ∧ e.fay < maxArea ∧ 0 < e.fay then
    min (e.fay + gain rb dt e) maxArea
  else e.fay

/-- `data['bulk_init_volume'][s_mask][0]` of the elements of a spill in the
view (spreading.py 517, 667, 870). -/
noncomputable def firstBulk (els : List El) (s : Nat) : ℝ :=
  match els.find? (fun e => e.surf && e.spill == s) with
  | some e => e.bulk
  | none => 0

/-- `init_mass / density / thickness_limit` (spreading.py 656). -/
noncomputable def maxAreaOf (lim : ℝ) (e : El) : ℝ := e.vol / lim

/-- One element of the view after the step of Fay spreading
(spreading.py 653-689). -/
noncomputable def spreadEl (rb lim dt : ℝ) (els : List El) (e : El) : El :=
  let a := updateArea rb (firstBulk els e.spill) dt (maxAreaOf lim e) e
  { e with maxArea := maxAreaOf lim e, fay := a, area := a }

/-- `FayGravityViscous.weather_elements` (spreading.py 638-691); `none` is the
ValueError of `update_area` for an age of zero at the end of the step
(spreading.py 511-513). -/
noncomputable def fayStep (rb lim dt : ℝ) (els : List El) : Option (List El) :=
  if els.any (fun e => e.surf && decide (e.age + dt = 0)) then none
  else some (els.map (fun e => if e.surf then spreadEl rb lim dt els e else e))

/-! ### the initial area -/

/-- `Release._previously_released` after elements of volume `V` are released
(release.py 497-498); `within`: `end_time <= release_time + cumulative_time_scale`. -/
noncomputable def released (within : Bool) (prev V : ℝ) : ℝ := if within then prev + V else prev

/-- 'bulk_init_volume' of elements of volume `V` released together
(release.py 491-505); `cont`: `release_duration > 0`, so that the release rate
is not NaN (a continuous release of nothing in no time, whose rate is NaN, is
left out). -/
noncomputable def blob (cont within : Bool) (prev V : ℝ) : ℝ :=
  if cont then released within prev V else V

/-- The data of spreading of an element just released, in a blob of volume
`bulk` (release.py 508-516); `nu` is the viscosity passed to `init_area`, which
is that of the oil (`sc.substance.kvis_at_temp`, release.py 513). -/
noncomputable def releaseEl (nu rb lim bulk : ℝ) (e : El) : El :=
  let f := if 0 < bulk then e.vol / bulk else 0
  let a := initArea nu rb bulk lim * f
  { e with bulk := bulk, frac := f, fay := a, area := a }

/-- `Release._previously_released` and the elements just appended (mass and
density set), after `initialize_elements_post_substance`
(release.py 475-516). -/
noncomputable def release (cont within : Bool) (nu rb lim prev : ℝ) (new : List El) :
    ℝ × List El :=
  let V := (new.map El.vol).sum
  (released within prev V, new.map (releaseEl nu rb lim (blob cont within prev V)))

/-- `_set_init_relative_buoyancy` (spreading.py 590-611): oil denser than the
water is refused. -/
noncomputable def buoyancy (rhoWater rhoOil : ℝ) : Option ℝ :=
  if rhoWater < rhoOil then none else some ((rhoWater - rhoOil) / rhoWater)

/-! ### Langmuir -/

/-- The thickness of a slick, a float. -/
inductive Thick where
  | nan
  | inf
  | fin (t : ℝ)

/-- `bulk_init_volume[0] / fay_area.sum()` (spreading.py 869-871); volumes and
areas are not negative. -/
noncomputable def thickOf (bulk A : ℝ) : Thick :=
  if A = 0 then (if bulk = 0 then .nan else .inf) else .fin (bulk / A)

/-- The exponent of the code, not exactly minus a third (spreading.py 815). -/
noncomputable def expo : ℝ := -0.3333333333333333

/-- `np.clip(x, 0.1, 1.0)` (spreading.py 824). -/
noncomputable def clip (x : ℝ) : ℝ := min (max x 0.1) 1

/-- `_get_frac_coverage` for one element (spreading.py 778-826), from the wind
speed `U`. A zero to the power is infinite and is clipped to one; an infinity
to the power is zero and is clipped to 0.1; NaN becomes 0.1: this is `0/0`, and
a negative number to the power. -/
noncomputable def coverage (U rb : ℝ) (th : Thick) : ℝ :=
  let v := U * 0.005
  match th with
  | .nan => 0.1
  | .inf => if rb = 0 then 0.1 else 1
  | .fin t =>
    let d := 4 * t * rb * g
    if d = 0 then 0.1
    else if v = 0 then 1
    else
      let x := v ^ 2 * Real.pi ^ 2 / d
      if x < 0 then 0.1 else clip (x ^ expo)

/-- `np.max(self.get_wind_speed(points, model_time))` over the positions of
the whole view (spreading.py 794, 857), the wind being a function of the
position (core.py 107-121: at least zero). -/
noncomputable def maxWind (wind : ℝ × ℝ → ℝ) (els : List El) : ℝ :=
  ((els.filter El.surf).map (fun e => wind e.pos)).foldr max 0

/-- `fay_area[s_mask].sum()` (spreading.py 871). -/
noncomputable def fayOf (els : List El) (s : Nat) : ℝ :=
  ((els.filter (fun e => e.surf && e.spill == s)).map El.fay).sum

/-- `Langmuir.weather_elements` (spreading.py 842-883). -/
noncomputable def langmuir (rhoWater : ℝ) (wind : ℝ × ℝ → ℝ) (els : List El) : List El :=
  els.map (fun e =>
    if e.surf then
      let c := coverage (maxWind wind els) ((rhoWater - e.dens) / rhoWater)
        (thickOf (firstBulk els e.spill) (fayOf els e.spill))
      { e with cover := c, area := e.fay * c }
    else e)

/-- `_wind_speed_bound` (spreading.py 828-840). -/
noncomputable def windBounds (rb t : ℝ) : ℝ × ℝ :=
  (√(4 * t * rb * g / Real.pi ^ 2) / 0.005,
   √((1 / 0.1) ^ 3 * 4 * t * rb * g / Real.pi ^ 2) / 0.005)

end Verif.Spread
