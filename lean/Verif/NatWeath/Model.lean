import Mathlib.Analysis.SpecialFunctions.Pow.Real
import Mathlib.Analysis.SpecialFunctions.Trigonometric.Basic

/-!
Natural weathering: evaporation (py_gnome/gnome/weatherers/evaporation.py),
natural dispersion and sedimentation (natural_dispersion.py), dissolution
(dissolution.py), biodegradation (bio_degradation.py) and emulsification
(emulsification.py with `emulsify` of py_gnome/lib_gnome/Weatherers_c.cpp).

Real numbers for floats. A list of elements is the view 'surface_weather' of a
container: every element in it has a positive mass (spill_container.py 42-53).
Winds and waves at the time of the step are functions of the position; winds
over ice and masked values are left out. NaN is the outcome `Res.nan`.
-/

namespace Verif.NatWeath

/-- The outcome of a weatherer that can raise, or fill the arrays with NaN. -/
inductive Res (α : Type) where
  | raised
  | nan
  | ok (a : α)

/-- What the weatherers read and write of an element. -/
structure El where
  pos : ℝ × ℝ
  comps : List ℝ
  mass : ℝ
  init : ℝ
  fracEvap : ℝ
  fracLost : ℝ
  area : ℝ
  volFrac : ℝ
  density : ℝ
  viscosity : ℝ
  droplet : ℝ
  age : ℝ
  fracWater : ℝ
  /-- 'interfacial_area' -/
  surf : ℝ
  /-- 'bulltime', negative as long as the emulsion has not begun -/
  bulltime : ℝ

/-- A pseudocomponent of the oil: vapor pressure at the water temperature,
molecular weight (g/mol), density, aromatic or not, and the rate of
biodegradation in a step (`K_comp_rates`, bio_degradation.py 205-213). -/
structure Comp where
  vp : ℝ
  mw : ℝ
  rho : ℝ
  arom : Bool
  K : ℝ

noncomputable def totalMass (els : List El) : ℝ := (els.map El.mass).sum

/-- `data['mass_components'] = c; data['mass'] = data['mass_components'].sum(1)`
(evaporation.py 237-238, natural_dispersion.py 161-163 and others). -/
noncomputable def El.withComps (e : El) (c : List ℝ) : El := { e with comps := c, mass := c.sum }

/-! ### evaporation -/

/-- `sum_mi_mw` (evaporation.py 129-132). -/
noncomputable def sumMolar (o : List Comp) (c : List ℝ) : ℝ :=
  (List.zipWith (fun m (p : Comp) => m / (p.mw / 1000)) c o).sum

/-- `puddle_diameter ** (-1/9)` (evaporation.py 143-146). -/
noncomputable def puddle (e : El) : ℝ :=
  (max (2 * √(e.area / e.volFrac) / √Real.pi) 1) ^ (-(1 / 9) : ℝ)

/-- `_mass_transport_coeff` (evaporation.py 84-114), wind at least 1 m/s
(core.py 107-121). -/
noncomputable def transport (U : ℝ) : ℝ := 0.0048 * (if U < 1 then 1 else U) ^ (0.78 : ℝ)

/-- The row of 'evap_decay_constant' of an element (evaporation.py 116-158). -/
noncomputable def decay (T : ℝ) (o : List Comp) (U : ℝ) (e : El) : List ℝ :=
  o.map (fun p =>
    (-e.area * (1 - e.fracWater) * transport U * puddle e / (8.314 * T * sumMolar o e.comps)) * p.vp *
      (1.380277 * (0.018 / (p.mw / 1000)) ^ (1 / 3 : ℝ)))

/-- `_exp_decay` (core.py 99-105). -/
noncomputable def expDecay (c k : List ℝ) (dt : ℝ) : List ℝ :=
  List.zipWith (fun m l => m * Real.exp (l * dt)) c k

/-- The changes of an element (evaporation.py 223-241); the evaporated mass of
the element. -/
noncomputable def evapEl (T : ℝ) (o : List Comp) (dt U : ℝ) (e : El) : El × ℝ :=
  let r := expDecay e.comps (decay T o U e) dt
  let a := (List.zipWith (fun m m' => m - m') e.comps r).sum
  ({ e.withComps r with fracEvap := e.fracEvap + a / e.init, fracLost := 1 - r.sum / e.init }, a)

open Classical in
/-- `Evaporation.weather_elements` (evaporation.py 170-242): the elements and
what is added to `mass_balance['evaporated']`. `none`: a decay constant is
positive, ValueError (163-165). -/
noncomputable def evaporate (T : ℝ) (o : List Comp) (dt : ℝ) (U : ℝ × ℝ → ℝ) (els : List El) :
    Option (List El × ℝ) :=
  if ∃ e ∈ els, ∃ k ∈ decay T o (U e.pos) e, 0 < k then none
  else some (els.map (fun e => (evapEl T o dt (U e.pos) e).1),
    (els.map (fun e => (evapEl T o dt (U e.pos) e).2)).sum)

/-! ### natural dispersion -/

/-- What `waves` gives (natural_dispersion.py 105-116). -/
structure Sea where
  height : ℝ × ℝ → ℝ
  energy : ℝ × ℝ → ℝ
  breaking : ℝ × ℝ → ℝ
  viscW : ℝ
  rhoW : ℝ
  sediment : ℝ

/-- 'Roy's constant' (natural_dispersion.py 255, 307). -/
noncomputable def roy (v : ℝ) : ℝ := 2400 * Real.exp (-73.682 * √v)

/-- `C_disp` (natural_dispersion.py 252, 305). -/
noncomputable def cDisp (w : Sea) (p : ℝ × ℝ) : ℝ := w.energy p ^ (0.57 : ℝ) * w.breaking p

/-- The slick's thickness (natural_dispersion.py 320-325, 231-232). -/
noncomputable def thickness (e : El) : ℝ :=
  if e.area > 0 then e.mass / e.density / (1 - e.fracWater) / e.area else 0

/-- `speed` (natural_dispersion.py 336, 243-245). -/
noncomputable def riseSpeed (w : Sea) (e : El) : ℝ :=
  (0.613 * thickness e) * (0.613 * thickness e) * 9.80665 * (1 - e.density / w.rhoW) / (18 * w.viscW)

/-- `Q_sed` (natural_dispersion.py 338-349, 247-262). -/
noncomputable def qSed (w : Sea) (dt : ℝ) (e : El) : ℝ :=
  let v := 0.588 * (thickness e ^ (1.7 : ℝ) - 5.0e-8)
  let vRefloat := if v < 0 then 0 else v
  let q := roy e.viscosity * cDisp w e.pos * vRefloat * e.area
  let cOil := q * dt / (riseSpeed w e * dt + 1.5 * w.height e.pos)
  1.6 * 1.0e-4 * √(w.height e.pos * w.energy e.pos * w.breaking e.pos / (w.rhoW * w.viscW)) * cOil * w.sediment

/-- No more is taken from an element than it has (natural_dispersion.py
355-359, 268-270). -/
noncomputable def cap (d s m : ℝ) : ℝ × ℝ :=
  if d + s > m then (d / (d + s) * m, m - d / (d + s) * m) else (d, s)

/-- `disperse_oil_DS` for one element (natural_dispersion.py 300-365):
dispersed and sedimented mass. -/
noncomputable def dsEl (w : Sea) (dt : ℝ) (e : El) : ℝ × ℝ :=
  if e.fracWater ≥ 1 then (0, 0)
  else
    let d := roy e.viscosity * cDisp w e.pos * 3.9e-8 * (1 - e.fracWater) * e.area * dt
    let s := if w.sediment > 0 ∧ thickness e ≥ 1.0e-4 then (1 - e.fracWater) * qSed w dt e * dt else 0
    cap d s e.mass

/-- `disperse_oil_Li` for one element (natural_dispersion.py 187-272), the
area positive, the oil lighter than water. -/
noncomputable def liEl (w : Sea) (dt : ℝ) (e : El) : ℝ × ℝ :=
  let sigma : ℝ := 3.5e-2
  let dOil := 4 * √(sigma / (9.80665 * (w.rhoW - e.density)))
  let weber := w.rhoW * 9.80665 * (w.height e.pos / 0.707) * dOil / sigma
  let ohnesorge := e.viscosity * e.density / √(e.density * sigma * dOil)
  let qOil := 4.604e-10 * weber ^ (1.805 : ℝ) * ohnesorge ^ (-1.023 : ℝ)
  let qDisp := e.density * thickness e * w.breaking e.pos * qOil * (1 - e.fracWater) * e.area
  let d := 0.11 * qDisp * dt
  let s := if w.sediment > 0 ∧ thickness e ≥ 1.0e-4 then (1 - e.fracWater) * qSed w dt e * dt else 0
  cap d s e.mass

/-- The droplet size that dispersion leaves (natural_dispersion.py 315, 333,
363). -/
noncomputable def dsDroplet (e : El) : ℝ := if e.fracWater ≥ 1 then 0 else 0.613 * thickness e

/-- The fraction of all oil that is taken from every element
(natural_dispersion.py 153-159, 167-173). -/
noncomputable def share (x M : ℝ) : ℝ := if M > 0 then (if x / M > 1 then 1 else x / M) else 0

/-- (natural_dispersion.py 161-163, 175-177) -/
noncomputable def shrink (f : ℝ) (e : El) : El := e.withComps (e.comps.map (fun c => (1 - f) * c))

/-- What is done with the dispersed and sedimented masses
(natural_dispersion.py 151-177). -/
noncomputable def takeAway (f : El → ℝ × ℝ) (els : List El) : List El × ℝ × ℝ :=
  let d := (els.map (fun e => (f e).1)).sum
  let s := (els.map (fun e => (f e).2)).sum
  let els1 := els.map (shrink (share d (totalMass els)))
  (els1.map (shrink (share s (totalMass els1))), d, s)

/-- `NaturalDispersion.weather_elements` with 'D&S1988'
(natural_dispersion.py 87-186): the elements and what is added to
'natural_dispersion' and 'sedimentation'. -/
noncomputable def disperseDS (w : Sea) (dt : ℝ) (els : List El) : List El × ℝ × ℝ :=
  let r := takeAway (dsEl w dt) els
  (List.zipWith (fun e e' => { e' with droplet := dsDroplet e }) els r.1, r.2)

open Classical in
/-- The same with 'Li2017'. `thickness` has an entry for every element with a
positive area only and is combined with arrays of all elements (230-232,
243-248, 265-266): IndexError or ValueError. Oil that is not lighter than water
gives the root of a negative number (212), water alone or no viscosity a
division by zero; the sum of the dispersed masses is then NaN and with it the
mass of every element. The droplet sizes are left out. -/
noncomputable def disperseLi (w : Sea) (dt : ℝ) (els : List El) : Res (List El × ℝ × ℝ) :=
  if ∃ e ∈ els, ¬ e.area > 0 then .raised
  else if ∃ e ∈ els, e.density ≥ w.rhoW ∨ e.density ≤ 0 ∨ e.viscosity ≤ 0 ∨ e.fracWater ≥ 1 then .nan
  else .ok (takeAway (liEl w dt) els)

/-! ### dissolution -/

/-- `partition_coeff` of the aromatics (dissolution.py 184,
banerjee_huibers.py 35-41). -/
noncomputable def kow (p : Comp) : ℝ := if p.arom then 1.8 * Real.exp (0.059 * 1000 * p.mw / p.rho) else 0

/-- The wind of dissolution (dissolution.py 317, core.py 107-121). -/
noncomputable def dissWind (U : ℝ) : ℝ := max (if U < 0 then 0 else U) 0.01

/-- `oil_avg_density` (dissolution.py 261-274). -/
noncomputable def avgRho (o : List Comp) (e : El) : ℝ :=
  (List.zipWith (fun m (p : Comp) => m / e.comps.sum * p.rho) e.comps o).sum

/-- `oil_total_volume` (dissolution.py 276-286). -/
noncomputable def volume (o : List Comp) (e : El) : ℝ :=
  (List.zipWith (fun m (p : Comp) => m / p.rho) e.comps o).sum

/-- `Stokes.water_phase_xfer_velocity` (stokes.py). -/
noncomputable def kw (rhoW : ℝ) (o : List Comp) (e : El) : ℝ :=
  544.814 * (rhoW - avgRho o e) * e.droplet ^ 2

/-- `DelvigneSweeney.breaking_waves_frac` of `PiersonMoskowitz.peak_wave_period`. -/
noncomputable def breakingFrac (u : ℝ) : ℝ := min (max (0.032 * (u - 5) / (u * 3 / 4)) 0.01) 1

/-- `DingFarmer.calm_between_wave_breaks`. -/
noncomputable def calm (u : ℝ) : ℝ := (1 / breakingFrac u - 0.5) * (u * 3 / 4)

open Classical in
/-- `T_wc_i` (dissolution.py 201-202, 312-325, ding_farmer.py 21-46); the
division by a zero velocity gives infinity and the fraction 1 (waves of height
zero, NaN, are left out). -/
noncomputable def timeInWater (w : Sea) (o : List Comp) (dt u : ℝ) (e : El) : ℝ :=
  (if kw w.rhoW o e = 0 then 1
   else min (max (0.75 * w.height e.pos / kw w.rhoW o e / calm u) 0) 1) * dt

/-- `T_calm_i` (dissolution.py 205, 327-340). -/
noncomputable def timeCalm (dt u tw : ℝ) : ℝ := min (max (calm u) 0) (dt - tw)

/-- `oil_concentration` for a component of mass `m` (dissolution.py 342-358). -/
noncomputable def conc (o : List Comp) (e : El) (m : ℝ) : ℝ := m / e.comps.sum * avgRho o e

/-- `droplet_subsurface_mass_xfer_rate` (dissolution.py 360-437); 0/0 is made
0, as division by zero is here. -/
noncomputable def dropRate (w : Sea) (o : List Comp) (e : El) (m : ℝ) (p : Comp) : ℝ :=
  (if p.arom then conc o e m else 0) / kow p * ((kw w.rhoW o e + 0.134) / 3600) *
    (4 * Real.pi * (e.droplet / 2) ^ 2 * (volume o e / (4 / 3 * Real.pi * (e.droplet / 2) ^ 3)))

/-- `slick_subsurface_mass_xfer_rate` (dissolution.py 439-489): `us` are the
winds at all the elements, `np.prod(U_10 / 3600)` is their product (480). -/
noncomputable def slickRate (us : List ℝ) (o : List Comp) (e : El) (m : ℝ) (p : Comp) : ℝ :=
  if p.arom then 0.01 * (us.map (fun u => u / 3600)).prod * (conc o e m / kow p) * e.area else 0

/-- The mass of one component that is dissolved (dissolution.py 229-259). -/
noncomputable def dissOne (w : Sea) (o : List Comp) (dt : ℝ) (us : List ℝ) (u : ℝ) (e : El) (m : ℝ) (p : Comp) : ℝ :=
  let tw := timeInWater w o dt u e
  let t := dropRate w o e m p * tw + slickRate us o e m p * timeCalm dt u tw
  t + min (m - t) 0

/-- `Dissolution.weather_elements` (dissolution.py 491-527): the elements and
what is added to 'dissolution'. -/
noncomputable def dissolve (w : Sea) (o : List Comp) (dt : ℝ) (U : ℝ × ℝ → ℝ) (els : List El) : List El × ℝ :=
  let us := els.map (fun e => dissWind (U e.pos))
  let diss := fun e : El => List.zipWith (dissOne w o dt us (dissWind (U e.pos)) e) e.comps o
  (els.map (fun e => e.withComps (List.zipWith (fun m d => m - d) e.comps (diss e))),
    (els.map (fun e => (diss e).sum)).sum)

/-! ### biodegradation -/

/-- `bio_degradate_oil` for one element with the yield factor `y`
(bio_degradation.py 118-142); `prev_yield_factor` stays 0, as line 215 assigns
another attribute. -/
noncomputable def bioEl (o : List Comp) (y : ℝ) (e : El) : El :=
  e.withComps (List.zipWith (fun m (p : Comp) => m * Real.exp ((0 - y) * (6 * p.K))) e.comps o)

open Classical in
/-- `Biodegradation.weather_elements` (bio_degradation.py 178-239): the elements
and what is added to 'bio_degradation'. If some droplets have no size and some
have, the yield factor of the former is infinite: everything that degrades is
gone, and a component that does not degrade becomes NaN. -/
noncomputable def biodegrade (o : List Comp) (els : List El) : Res (List El × ℝ) :=
  if ∀ e ∈ els, e.droplet = 0 then
    let r := els.map (bioEl o 0)
    .ok (r, totalMass els - (r.map (fun e => e.comps.sum)).sum)
  else if ∃ e ∈ els, e.droplet * e.density = 0 then
    if ∃ p ∈ o, p.K = 0 then .nan
    else
      let r := els.map (fun e => if e.droplet * e.density = 0 then e.withComps (e.comps.map (fun _ => 0))
        else bioEl o (1 / (e.droplet * e.density)) e)
      .ok (r, totalMass els - (r.map (fun e => e.comps.sum)).sum)
  else
    let r := els.map (fun e => bioEl o (1 / (e.droplet * e.density)) e)
    .ok (r, totalMass els - (r.map (fun e => e.comps.sum)).sum)

/-! ### emulsification -/

/-- What the substance says (gnome_oil.py 269-278): the hours after which an
emulsion forms (negative if not given), the evaporated fraction at which it
forms, and the largest fraction of water. -/
structure Emul where
  hours : ℝ
  C : ℝ
  yMax : ℝ

/-- `drop_min`, `drop_max` (constants.py 14-15). -/
noncomputable def dropMin : ℝ := 1.0e-6
noncomputable def dropMax : ℝ := 1.0e-5

/-- `S_max` (emulsification.py 277). -/
noncomputable def sMax (m : Emul) : ℝ := 6 / dropMin * (m.yMax / (1 - m.yMax))

open Classical in
/-- One turn of the loop of `emulsify` (Weatherers_c.cpp 37-99), `none` for the
error code. -/
noncomputable def emulEl (m : Emul) (k dt : ℝ) (e : El) : Option El :=
  let emulTime := if m.hours > 0 then m.hours * 3600 else m.hours
  let (s, bt) :=
    if (e.age ≥ emulTime ∧ emulTime ≥ 0) ∨ ((e.fracEvap ≥ m.C ∧ m.C ≥ 0) ∧ emulTime < 0) then
      let (start, bt) :=
        if emulTime > 0 then (emulTime, e.bulltime)
        else if e.bulltime < 0 then (e.age, e.age)
        else (e.bulltime, e.bulltime)
      let s := e.surf + k * dt * Real.exp ((-k / sMax m) * (e.age - start))
      (if s > sMax m then sMax m else s, bt)
    else (0, e.bulltime)
  let y := if s < (6 / dropMax) * (m.yMax / (1 - m.yMax)) then s * dropMax / (6 + s * dropMax) else m.yMax
  if y < 0 then none else some { e with fracWater := y, surf := s, bulltime := bt }

/-- `k_emul` (emulsification.py 394-414). -/
noncomputable def kEmul (U : ℝ) : ℝ := 6 * 2.02E-06 * U * U / dropMax

/-- `weather_elements_adios2` (emulsification.py 249-304) without the entry of
the mass balance; `none`: ValueError. -/
noncomputable def emulsify (m : Emul) (dt : ℝ) (U : ℝ × ℝ → ℝ) (els : List El) : Option (List El) :=
  if m.yMax ≤ 0 then some els else els.mapM (fun e => emulEl m (kEmul (U e.pos)) dt e)

/-- `mass_balance['water_content']` (emulsification.py 297-299). -/
noncomputable def waterContent (els : List El) : ℝ :=
  (els.map (fun e => e.mass / totalMass els * e.fracWater)).sum

end Verif.NatWeath
