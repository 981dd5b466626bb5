import Verif.Integ.Model
import Mathlib.Analysis.SpecialFunctions.Trigonometric.Basic
import Mathlib.Analysis.SpecialFunctions.Sqrt

/-!
# The moves that the movers return

Model of the `get_move` methods of `SimpleMover` (`gnome/movers/simple_mover.py` 88-141), `CurrentMover`
(`gnome/movers/py_current_movers.py` 179-226, 311-340), `WindMover` (`gnome/movers/py_wind_movers.py` 356-450), `PointWindMover`
(`gnome/movers/c_wind_movers.py` 153-174 with `lib_gnome/WindMover_c.cpp` 360-420, 538-619), `RandomMover`
(`gnome/movers/movers.py` 409-432 with `lib_gnome/Random_c.cpp` 48-185), `IceAwareRandomMover`
(`gnome/movers/random_movers.py` 150-179), `RiseVelocityMover` (`lib_gnome/RiseVelocity_c.cpp` 154-209) and `RandomMover3D`
(`lib_gnome/RandomVertical_c.cpp` 57-222).

Simplifications: exact real arithmetic (the C++ code converts latitudes to millionths of a degree and single precision); the
random generator delivers the numbers given as arguments; the velocity fields are functions of position and time.
-/

namespace Verif.Mover
open Verif.Integ Verif.TimeUtil

/-- Positions (longitude, latitude, depth) and displacements (east, north, down). -/
abbrev V := ℝ × ℝ × ℝ

/-- An element: `positions`, `status_codes`, `windages`, `rise_vel`. -/
structure LE where
  pos : V
  status : Int
  windage : ℝ
  rise : ℝ

/-- `oil_status.in_water`. -/
def inWater (e : LE) : Prop := e.status = 2

noncomputable instance (e : LE) : Decidable (inWater e) := inferInstanceAs (Decidable (e.status = 2))

/-- `FlatEarthProjection.meters_to_lonlat` for one element (`gnome/utilities/projections.py` 355-399). -/
noncomputable def m2l (d p : V) : V :=
  (d.1 * (89992801 / 10 ^ 13) / Real.cos (p.2.1 * (Real.pi / 180)), d.2.1 * (89992801 / 10 ^ 13), d.2.2)

/-- Row by row: what `get_move` returns for the elements, given what it computes for each. -/
noncomputable def rowwise (f : Nat → LE → V) (els : List LE) : List V := els.mapIdx f

/-! ## SimpleMover -/

/-- One row of `SimpleMover.get_move` (simple_mover.py 113-141).  `r` are the numbers in `[-1, 1]` behind
`random.uniform(-scale, scale)`. -/
noncomputable def simpleRow (vel : V) (scale : ℝ) (active on uncertain : Bool) (dt : ℝ) (r : V) (e : LE) : V :=
  if active ∧ on then
    let d : V := if inWater e then
        if uncertain then
          (vel.1 * dt + r.1 * (scale * vel.1 * dt), vel.2.1 * dt + r.2.1 * (scale * vel.2.1 * dt),
            vel.2.2 * dt + r.2.2 * (scale * vel.2.2 * dt))
        else (vel.1 * dt, vel.2.1 * dt, vel.2.2 * dt)
      else 0
    m2l d e.pos
  else 0

/-! ## CurrentMover -/

/-- `_add_uncertainty` for one element: `α` along, `β` across (py_current_movers.py 311-340). -/
noncomputable def addCurrentUnc (α β : ℝ) (d : V) : V :=
  (d.1 * (1 + α) + d.2.1 * β, d.2.1 * (1 + α) - d.1 * β, d.2.2)

/-- `np.random.uniform(-a, a)`, `r` in `[0, 1]` (py_current_movers.py 264-269, 295-296). -/
def uniform (lo hi r : ℝ) : ℝ := lo + (hi - lo) * r

/-- One row of `CurrentMover.get_move` (py_current_movers.py 198-226): `dm` is the numerical method applied to the current,
`unc` the row of the list of uncertainty if there is one. -/
noncomputable def currentRow (active : Bool) (scale : ℝ) (dm : V → V) (unc : Option (ℝ × ℝ)) (e : LE) : V :=
  if active then
    let d := scale • dm e.pos
    let d1 := match unc with
      | none => d
      | some (α, β) => addCurrentUnc α β d
    if inWater e then m2l d1 e.pos else 0
  else 0

/-! ## WindMover -/

/-- The parameters of the uncertainty of a wind: `sigma2`, `sigma_theta`, `uncertain_diffusion`, and the numbers of a row:
`rand_cos`, `rand_sin`, and the two numbers in `[-1, 1]` drawn in light wind. -/
structure WUnc where
  σ2 : ℝ
  σθ : ℝ
  diff : ℝ
  c : ℝ
  s : ℝ
  r1 : ℝ
  r2 : ℝ

/-- The strength of the wind after perturbation, before the correction for the turn (py_wind_movers.py 374-382;
WindMover_c.cpp 388-402). -/
noncomputable def perturbed (w : WUnc) (norm : ℝ) : ℝ :=
  let sqs := √(max (norm * norm - w.σ2) 0)
  (w.c * √(norm - sqs) + √sqs) * (w.c * √(norm - sqs) + √sqs)

/-- The angle by which the wind is turned, in radians (py_wind_movers.py 383). -/
noncomputable def turn (w : WUnc) : ℝ := w.s * w.σθ * Real.pi / 180

/-- `add_uncertainty` for one element (py_wind_movers.py 356-410). -/
noncomputable def addWindUnc (w : WUnc) (dt : ℝ) (d : V) : V :=
  let u := d.1 / dt
  let v := d.2.1 / dt
  let norm := √(u * u + v * v)
  let t := perturbed w norm / max (Real.cos (turn w)) (1 / 1000) / max norm (1 / 1000)
  if norm < 1 then (u * t * w.diff * w.r1, v * t * w.diff * w.r2, d.2.2)
  else ((u * t * Real.cos (turn w) - v * t * Real.sin (turn w)) * dt, (v * t * Real.cos (turn w) + u * t * Real.sin (turn w)) * dt, d.2.2)

/-- One row of `WindMover.get_move` (py_wind_movers.py 431-450). -/
noncomputable def windRow (active : Bool) (scale dt : ℝ) (dm : V → V) (unc : Option WUnc) (e : LE) : V :=
  if active then
    let d := dm e.pos
    let d1 := match unc with
      | none => d
      | some w => addWindUnc w dt d
    if inWater e then m2l (d1.1 * (e.windage * scale), d1.2.1 * (e.windage * scale), d1.2.2) e.pos else 0
  else 0

/-- What a wind may be: a `Wind`, the same everywhere (`gnome/environment/wind.py` 606-686), or a `GridWind`
(`gnome/environment/environment_objects.py` 598-678). -/
inductive WindField where
  | point (f : Rat → ℝ × ℝ)
  | grid (f : V → Rat → ℝ × ℝ)

/-- `Wind.at` gives every point the same wind; `GridWind.at` has no wind under water (654). -/
noncomputable def windAt : WindField → V → Rat → V
  | .point f, _, t => ((f t).1, (f t).2, 0)
  | .grid f, p, t => if 0 < p.2.2 then 0 else ((f p t).1, (f p t).2, 0)

/-- The numerical methods (`delta_method`, movers.py 254-267). -/
inductive Method where
  | euler
  | rk2
  | rk4

/-- `delta_method(num_method)(sc, time_step, model_time, pos, wind)`. -/
noncomputable def delta (m : Method) (z : Zone) (vel : V → Rat → V) (dt : Rat) (t : Int) (pos : V) : V :=
  match m with
  | .euler => euler vel dt t pos
  | .rk2 => rk2 z vel m2l dt t pos
  | .rk4 => rk4 z vel m2l dt t pos

/-! ## PointWindMover -/

/-- The latitude-dependent ratio of the C++ code (`lib_gnome/GEOMETRY.cpp` 66-71). -/
noncomputable def ratio (p : V) : ℝ := Real.cos (p.2.1 * (314159 / 100000) / 180)

/-- `METERSPERDEGREELAT` (`Units.h` 7). -/
noncomputable def metresPerDegree : ℝ := 11112000024 / 100000

/-- `WindMover_c::AddUncertainty` (WindMover_c.cpp 360-420). -/
noncomputable def addWindUncC (w : WUnc) (u v : ℝ) : ℝ × ℝ :=
  let norm := √(v * v + u * u)
  if norm < 1 then (u + w.diff * w.r1, v + w.diff * w.r2)
  else
    let t := perturbed w norm / (if Real.cos (turn w) < 1 / 1000 then 1 / 1000 else Real.cos (turn w)) / norm
    (u * t * Real.cos (turn w) - v * t * Real.sin (turn w), v * t * Real.cos (turn w) + u * t * Real.sin (turn w))

/-- One row of `PointWindMover.get_move` (c_wind_movers.py 153-172; WindMover_c.cpp 538-619): `uv` is the wind at the time of the
step. -/
noncomputable def pointWindRow (active : Bool) (dt : ℝ) (uv : ℝ × ℝ) (unc : Option WUnc) (e : LE) : V :=
  if active then
    if inWater e then
      if 0 < e.pos.2.2 then 0
      else
        let w := match unc with
          | none => uv
          | some w => addWindUncC w uv.1 uv.2
        (w.1 * e.windage / metresPerDegree * dt / ratio e.pos, w.2 * e.windage / metresPerDegree * dt, 0)
    else 0
  else 0

/-! ## RandomMover -/

/-- One row of `RandomMover.get_move` (Random_c.cpp 64-185): `factor` is the factor for uncertain elements, 1 for the forecast,
`r1`, `r2` the two numbers. -/
noncomputable def randomRow (active : Bool) (coef factor dt r1 r2 : ℝ) (e : LE) : V :=
  if active then
    if inWater e then
      if 0 < e.pos.2.2 then 0
      else (r1 * (√(factor * 6 * (coef / 10000) * |dt|) / metresPerDegree) / ratio e.pos,
        r2 * (√(factor * 6 * (coef / 10000) * |dt|) / metresPerDegree), 0)
    else 0
  else 0

/-- The factor of `IceAwareRandomMover` for an ice concentration (random_movers.py 159-167). -/
noncomputable def iceDamp (c : ℝ) : ℝ := if 8 / 10 ≤ c then 0 else if c < 2 / 10 then 1 else 1 - ((c - 2 / 10) * 10) / 6

/-- `IceAwareRandomMover.get_move` (random_movers.py 150-179): the factors are only computed when some element is in ice. -/
noncomputable def iceRandomMove (active : Bool) (coef factor dt : ℝ) (r1 r2 : Nat → ℝ) (ice : LE → ℝ) (els : List LE) : List V :=
  haveI := Classical.propDecidable (∃ e ∈ els, 2 / 10 ≤ ice e)
  if ∃ e ∈ els, 2 / 10 ≤ ice e then
    rowwise (fun i e => if inWater e then iceDamp (ice e) • randomRow active coef factor dt (r1 i) (r2 i) e else 0) els
  else rowwise (fun i e => randomRow active coef factor dt (r1 i) (r2 i) e) els

/-! ## RiseVelocityMover -/

/-- One row of `RiseVelocityMover.get_move` (RiseVelocity_c.cpp 174-209). -/
noncomputable def riseRow (active : Bool) (dt : ℝ) (e : LE) : V :=
  if active then
    if inWater e then (0, 0, -1 * e.rise * dt) else 0
  else 0

/-- The length of the step is handed over as `unsigned long` (`cy_gnome/movers.pxd` 47, 61): Cython raises `OverflowError` when it is
negative; nothing is handed over when the mover is not active or there are no elements (vertical_movers.py 70, movers.py 424). -/
noncomputable def unsignedStep (active : Bool) (dt : ℝ) (els : List LE) (move : List V) : Option (List V) :=
  if active ∧ els ≠ [] ∧ dt < 0 then none else some move

/-- `RiseVelocityMover.get_move` (vertical_movers.py 58-80). -/
noncomputable def riseMove (active : Bool) (dt : ℝ) (els : List LE) : Option (List V) :=
  unsignedStep active dt els (rowwise (fun _ e => riseRow active dt e) els)

/-! ## RandomMover3D -/

/-- The parameters of `RandomMover3D` (random_movers.py 210-245): coefficients in cm²/s, above and below the mixed layer. -/
structure Vert where
  vAbove : ℝ
  vBelow : ℝ
  hAbove : ℝ
  hBelow : ℝ
  mld : ℝ
  surfaceAllowed : Bool

/-- The numbers in `[0, 1]` drawn for one element: two horizontal, two vertical, one for a random depth in the mixed layer and one
for a random depth in the water column. -/
structure Draws where
  h1 : ℝ
  h2 : ℝ
  v1 : ℝ
  v2 : ℝ
  m : ℝ
  w : ℝ

/-- `eps` (RandomVertical_c.cpp 126). -/
noncomputable def eps : ℝ := 1 / 1000000

/-- `INFINITE_DEPTH` (TypeDefs.h 29), the depth everywhere (RandomVertical_c.cpp 101-106). -/
def bottom : ℝ := 5000

/-- Above the mixed layer depth: the vertical move after reflection at that depth (RandomVertical_c.cpp 151-175), and the depth
before the reflection, which is what the checks at the end look at. -/
noncomputable def mixedMove (p : Vert) (dt : ℝ) (r : Draws) (z : ℝ) : ℝ × ℝ :=
  let dz := uniform (-1) 1 r.v1 * √(6 * (p.vAbove / 10000) * dt)
  let mld := if bottom < p.mld then bottom else p.mld
  let total := z + dz
  if mld < total then
    let dz' := mld - (total - mld) - z
    (if z + dz' ≤ 0 then uniform eps mld r.m - z else dz', total)
  else (dz, total)

/-- The checks at the surface and the bottom (RandomVertical_c.cpp 186-216): `z` the depth of the element, `dz` the move so far,
`total` the depth checked. -/
noncomputable def checks (r : Draws) (z dz total : ℝ) : ℝ :=
  if total = 0 then eps - z
  else if total < 0 then
    let d := -total - z
    if bottom < z + d then uniform eps (bottom - eps) r.w - z else d
  else if total = bottom then (bottom - eps) - z
  else if bottom < total then
    let d := bottom - (total - bottom) - z
    if z + d ≤ 0 then uniform eps (bottom - eps) r.w - z else d
  else dz

/-- The vertical move of one element below the surface or in a model where the surface is not allowed (RandomVertical_c.cpp
144-216). -/
noncomputable def vertDz (p : Vert) (dt : ℝ) (r : Draws) (z : ℝ) : ℝ :=
  if z ≤ p.mld ∧ p.vAbove = 0 then 0
  else
    let first := if z ≤ p.mld then mixedMove p dt r z else (0, z)
    let mld := if z ≤ p.mld ∧ bottom < p.mld then bottom else p.mld
    if mld = bottom ∨ p.vBelow = 0 then checks r z first.1 first.2
    else
      let dz := first.1 + uniform (-1) 1 r.v2 * √(6 * (p.vBelow / 10000) * dt)
      checks r z dz (z + dz)

/-- The horizontal reach in degrees of latitude (RandomVertical_c.cpp 133-136). -/
noncomputable def vertReach (p : Vert) (dt z : ℝ) : ℝ :=
  √(6 * ((if p.mld < z then p.hBelow else p.hAbove) / 10000) * dt) / metresPerDegree

/-- One row of `RandomMover3D.get_move` (RandomVertical_c.cpp 57-99, 108-222). -/
noncomputable def vertRow (p : Vert) (active : Bool) (dt : ℝ) (r : Draws) (e : LE) : V :=
  if active then
    if inWater e then
      if 0 < e.pos.2.2 ∨ p.surfaceAllowed = false then
        (uniform (-1) 1 r.h1 * vertReach p dt e.pos.2.2 / ratio e.pos, uniform (-1) 1 r.h2 * vertReach p dt e.pos.2.2,
          vertDz p dt r e.pos.2.2)
      else 0
    else 0
  else 0

/-- `RandomMover3D.get_move`. -/
noncomputable def vertMove (p : Vert) (active : Bool) (dt : ℝ) (r : Nat → Draws) (els : List LE) : Option (List V) :=
  unsignedStep active dt els (rowwise (fun i e => vertRow p active dt (r i) e) els)

/-! ## All of them -/

/-- A mover with everything that it uses in one step, random numbers included. -/
inductive AnyMover where
  | simple (vel : V) (scale : ℝ) (active on uncertain : Bool) (r : Nat → V)
  | current (active : Bool) (scale : ℝ) (dm : V → V) (unc : Nat → Option (ℝ × ℝ))
  | wind (active : Bool) (scale : ℝ) (dm : V → V) (unc : Nat → Option WUnc)
  | pointWind (active : Bool) (uv : ℝ × ℝ) (unc : Nat → Option WUnc)
  | random (active : Bool) (coef factor : ℝ) (r1 r2 : Nat → ℝ)
  | iceRandom (active : Bool) (coef factor : ℝ) (r1 r2 : Nat → ℝ) (ice : LE → ℝ)
  | rise (active : Bool)
  | vertical (p : Vert) (active : Bool) (r : Nat → Draws)

/-- `get_move(sc, time_step, model_time)`; `none` if it raises. -/
noncomputable def AnyMover.move (dt : ℝ) (els : List LE) : AnyMover → Option (List V)
  | .simple vel scale active on uncertain r => some (rowwise (fun i e => simpleRow vel scale active on uncertain dt (r i) e) els)
  | .current active scale dm unc => some (rowwise (fun i e => currentRow active scale dm (unc i) e) els)
  | .wind active scale dm unc => some (rowwise (fun i e => windRow active scale dt dm (unc i) e) els)
  | .pointWind active uv unc => some (rowwise (fun i e => pointWindRow active dt uv (unc i) e) els)
  | .random active coef factor r1 r2 => some (rowwise (fun i e => randomRow active coef factor dt (r1 i) (r2 i) e) els)
  | .iceRandom active coef factor r1 r2 ice => some (iceRandomMove active coef factor dt r1 r2 ice els)
  | .rise active => riseMove active dt els
  | .vertical p active r => vertMove p active dt r els

/-- Whether the mover is active (`SimpleMover` looks at `on` as well, simple_mover.py 120). -/
def AnyMover.active : AnyMover → Bool
  | .simple _ _ active on _ _ => active && on
  | .current active _ _ _ => active
  | .wind active _ _ _ => active
  | .pointWind active _ _ => active
  | .random active _ _ _ _ => active
  | .iceRandom active _ _ _ _ _ => active
  | .rise active => active
  | .vertical _ active _ => active

/-- `Model.move_elements` up to the map (`gnome/model.py` 989-1000): the moves of all movers added to the positions. -/
noncomputable def nextPositions (dt : ℝ) (movers : List AnyMover) (els : List LE) : Option (List V) :=
  movers.foldl (fun acc m => acc.bind fun ps => (m.move dt els).map fun ds => List.zipWith (· + ·) ps ds) (some (els.map LE.pos))

end Verif.Mover
