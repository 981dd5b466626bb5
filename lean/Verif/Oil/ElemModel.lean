import Mathlib.Data.Rat.Floor
/-!
# Model of the densities and amounts carried by the elements of an oil

Sources in `/repo/py_gnome/gnome`: `ops/density.py` (9-47 `init_density`, 49-128 `recalc_density`),
`spills/gnome_oil.py` 334-362 (`GnomeOil.initialize_elements`), `spills/substance.py` 204-218 (`Substance`'s part of it),
`ops/aggregated_data.py` (`aggregate`). Floats are rationals. What the oil and the water are at a temperature are
parameters (see `DensityModel`, `ViscModel`). Which elements the density update reaches is C49 (area `Fate`).
-/
namespace Verif.Oil

/-- water: temperature in Kelvin and density, as `Water.get` returns them -/
structure Wat where
  temp : ℚ
  rho : ℚ
  deriving DecidableEq

/-- `default_constants` lines 6-7, used where there is no water object -/
def noWater : Wat := ⟨288.15, 1025⟩

/-- an oil: density and viscosity as functions of temperature, its pseudo-components, and its own water, if any -/
structure EOil where
  rhoAt : ℚ → ℚ
  viscAt : ℚ → ℚ
  frac : List ℚ
  compRho : List ℚ
  water : Option Wat

/-- status codes and fates that matter here -/
inductive Fate | nonWeather | surface | subsurf | other
  deriving DecidableEq, Repr

/-- an element -/
structure El where
  mass : ℚ
  z : ℚ := 0
  inWater : Bool := true
  fate : Fate := .nonWeather
  comps : List ℚ := []
  fracWater : ℚ := 0
  density : ℚ := 0
  oilDensity : ℚ := 0
  viscosity : ℚ := 0
  deriving DecidableEq, Repr

/-- `environment` as passed to `initialize_elements`: absent or an empty dict, or a dict whose 'water' may be None -/
inductive Env
  | absent
  | dict (water : Option Wat)

/-- `_pick_water` substance.py 216-218; `dflt` is a new `Water()` -/
def pickWater (o : EOil) (dflt : Wat) : Env → Option Wat
  | .dict w => w
  | .absent => match o.water with
    | some w => some w
    | none => some dflt

/-- the density given to new elements, density.py 22-44 -/
def initDensity (o : EOil) (w : Option Wat) : ℚ :=
  let w := w.getD noWater
  if o.rhoAt w.temp > w.rho then w.rho else o.rhoAt w.temp

/-- `GnomeOil.initialize_elements` gnome_oil.py 334-362 for one new element. The call of the base class in line 362 does not pass
the environment on. -/
def initOne (o : EOil) (dflt : Wat) (env : Env) (e : El) : El :=
  let w1 := (pickWater o dflt env).getD noWater
  { e with
    viscosity := o.viscAt w1.temp
    fate := if e.z = 0 ∧ e.inWater then .surface else .subsurf
    comps := o.frac.map (· * e.mass)
    density := initDensity o (pickWater o dflt .absent) }

/-- the slice `[-n:]`, which is everything for `n = 0` -/
def onLast (n : Nat) (f : El → El) (l : List El) : List El :=
  if n = 0 then l.map f else l.take (l.length - n) ++ (l.drop (l.length - n)).map f

/-- `GnomeOil.initialize_elements` on the container's elements -/
def initElements (o : EOil) (dflt : Wat) (env : Env) (n : Nat) (l : List El) : List El :=
  onLast n (initOne o dflt env) l

/-- `Σ a_i b_i` -/
def dot (a b : List ℚ) : ℚ := (List.zipWith (· * ·) a b).sum

/-- `_get_k_rho_weathering_dens_update` density.py 113-128 -/
def kRho (o : EOil) (T : ℚ) : ℚ := o.rhoAt T / dot o.compRho o.frac

/-- lines 89-93: the density of the oil in an element; `comps` may be padded with zeros -/
def oilRho (o : EOil) (T : ℚ) (e : El) : ℚ :=
  kRho o T * dot o.compRho ((e.comps.take o.frac.length).map (· / e.mass))

/-- lines 95-105 -/
def recalcOne (o : EOil) (w : Option Wat) (e : El) : El :=
  let w := w.getD noWater
  let r := oilRho o w.temp e
  let n := e.fracWater * w.rho + (1 - e.fracWater) * r
  { e with density := if n > w.rho then w.rho else n, oilDensity := r }

/-- the entries of `mass_balance` that `aggregate` keeps -/
structure Bal where
  avgDensity : Option ℚ := none
  avgVisc : Option ℚ := none
  floating : ℚ := 0
  nonWeath : ℚ := 0
  released : Option ℚ := none
  deriving DecidableEq

def mass (l : List El) : ℚ := (l.map (·.mass)).sum

/-- `np.sum(mass / mass.sum() * x)` -/
def avg (x : El → ℚ) (l : List El) : ℚ := (l.map (fun e => e.mass / mass l * x e)).sum

/-- `aggregate` lines 8-40 -/
def aggregate (n : Nat) (l : List El) (b : Bal) : Bal :=
  let b := if mass l > 0 then { b with avgDensity := some (avg (·.density) l), avgVisc := some (avg (·.viscosity) l) } else b
  let b := { b with
    floating := mass (l.filter (fun e => e.inWater && decide (e.z = 0)))
    nonWeath := mass (l.filter (fun e => decide (e.fate = .nonWeather))) }
  if n > 0 then
    { b with released := some (match b.released with
      | some a => a + mass (l.drop (l.length - n))
      | none => mass (l.drop (l.length - n))) }
  else b

/-- what happens to a container in a run, as far as `aggregate` sees it (model.py 1107-1119, 1244-1265): elements are released
(appended and aggregated with their number), or anything else happens to the elements and the step ends -/
inductive Ev
  | release (new : List El)
  | step (f : List El → List El)

def run1 : Ev → List El × Bal → List El × Bal
  | .release new, (l, b) => (l ++ new, aggregate new.length (l ++ new) b)
  | .step f, (l, b) => (f l, aggregate 0 (f l) b)

def run (evs : List Ev) (s : List El × Bal) : List El × Bal := evs.foldl (fun s e => run1 e s) s

end Verif.Oil
