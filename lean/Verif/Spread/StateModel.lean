import Verif.Spread.Model

/-!
# What spreading remembers of the oil and the water

Source: `py_gnome/gnome/weatherers/spreading.py` `FayGravityViscous.__init__` (73-74), `prepare_for_model_run` (568-588),
`_set_init_relative_buoyancy` (590-611), `initialize_data` (613-634), `weather_elements` (636-682: what it works with); `py_gnome/gnome/model.py`
`setup_model_run` (815-851: spreading is switched on where the array `area` is wanted; 904-911), `setup_time_step` (969-973), `release_elements` (1255-1262).

Simplifications: one best estimate, one oil, oil and water as they are at the start of a run do not change during it; an active range without ends; the elements that were released are on the surface; an
error (oil that sinks, arithmetic with `None`) ends the run. The steps are: the user switches spreading on or off, elements are released, the elements
are weathered; any order of them is looked at.
-/
namespace Verif.Spread.State

/-- Oil and water of a run: densities, the kinematic viscosity of the oil, whether it weathers; whether another weatherer that is on wants the array `area`. -/
structure World where
  rhoWater : ℝ
  rhoOil : ℝ
  visc : ℝ
  weathers : Bool
  wanted : Bool

/-- The object (73-74): `on`, `thickness_limit`, `_init_relative_buoyancy`; of the run: whether there are elements, the buoyancy and the thickness limit that each step worked with, and
whether there was an error. -/
structure St where
  on : Bool
  lim : Option ℝ
  rb : Option ℝ
  any : Bool
  used : List (ℝ × ℝ)
  failed : Bool

/-- `FayGravityViscous()`. -/
def fresh : St := ⟨true, none, none, false, [], false⟩

/-- `prepare_for_model_run` (568-588). -/
noncomputable def prepare (w : World) (s : St) : St :=
  { s with lim := if w.weathers then some (thicknessLimit w.visc) else s.lim, rb := none }

/-- `setup_model_run` (815-851, 904-911): spreading stays on, or is switched on, where `area` is wanted; its own arrays have it; only what is on is prepared. -/
noncomputable def start (w : World) (s : St) : St :=
  let s1 := { s with on := s.on || w.wanted, any := false, used := [], failed := false }
  if s1.on then prepare w s1 else s1

/-- What happens in a run. -/
inductive Op where
  | switch (b : Bool)
  | release
  | weather
  deriving DecidableEq

/-- `initialize_data` (613-634) with the check of the model (1261). -/
noncomputable def initData (w : World) (s : St) : St :=
  if !s.on || !w.weathers then s
  else match s.rb with
    | some _ => s
    | none => match buoyancy w.rhoWater w.rhoOil with
      | some b => { s with rb := some b }
      | none => { s with failed := true }

/-- `weather_elements` (636-682). -/
def weather (w : World) (s : St) : St :=
  if !s.on || !w.weathers || !s.any then s
  else match s.rb, s.lim with
    | some b, some l => { s with used := s.used ++ [(b, l)] }
    | _, _ => { s with failed := true }

/-- One of them; after an error nothing happens. -/
noncomputable def step (w : World) (s : St) (op : Op) : St :=
  if s.failed then s
  else match op with
    | .switch b => { s with on := b }
    | .release => initData w { s with any := true }
    | .weather => weather w s

/-- A run. -/
noncomputable def run (w : World) (ops : List Op) (s : St) : St := ops.foldl (step w) (start w s)

/-- Several runs, one after another; before each the user may switch spreading on or off. -/
noncomputable def history : List (Bool × World × List Op) → St → St
  | [], s => s
  | (b, w, ops) :: r, s => history r (run w ops { s with on := b })

end Verif.Spread.State
