import Verif.Cleanup.Model
/-!
# Model of a whole burn

Source: `/repo/py_gnome/gnome/weatherers/cleanup.py`: `Burn.__init__` 413-483, `prepare_for_model_run` 565-574, `prepare_for_model_step` 576-615,
`_init_rate_duration` 617-643, `_set_burn_params` 645-665, `weather_elements` 684-729; marking, the time of a step and the removal of mass are those of
`Verif.Cleanup.Model`.

Simplifications: those of `Verif.Cleanup.Model`; area and thickness are in metres; the efficiency is a number; one call of `weather_elements` in a step (one
sub-step). What else happens to the elements between two steps is any function of them.
-/
namespace Verif.Cleanup.Fire

/-- a burn: `area`, `thickness`, `efficiency`, the standard density of the oil and the start of `active_range` -/
structure Burn where
  area : ℚ
  thickness : ℚ
  eff : ℚ
  rho : ℚ
  start : ℚ

/-- `_min_thickness` 463 -/
def minThickness : ℚ := 2 / 1000

/-- `_burn_constant` 466 in m/s -/
def constant : ℚ := 58 / 1000000

/-- `_oil_vol_burnrate` 628-630 -/
def Burn.volRate (b : Burn) (frac : ℚ) : ℚ := constant * frac ^ 2 * b.area

/-- `_active_range` 638-643 -/
def Burn.range (b : Burn) (frac : ℚ) : Range := ⟨b.start, b.start + (b.thickness - minThickness) / (constant * frac)⟩

/-- the state of a burn and the elements: the active range, the rate, the amount in the mass balance -/
structure St where
  range : Range
  vol : ℚ
  es : List El
  burned : ℚ

/-- `prepare_for_model_run` 565-574 -/
def Burn.fresh (b : Burn) (es : List El) : St := ⟨b.range 1, b.volRate 1, es, 0⟩

/-- `weather_elements` with the duration `ts` -/
def St.burn (b : Burn) (s : St) (ts : ℚ) : St :=
  { s with es := (Cleanup.burn s.vol b.rho b.eff ts s.es).es, burned := s.burned + (Cleanup.burn s.vol b.rho b.eff ts s.es).added }

/-- marking in the first active step and the new range and rate 597-615, 663-665 -/
def St.marked (b : Burn) (s : St) (es : List El) : St :=
  { s with es := es, range := b.range (avgFracOil burnFlag es), vol := b.volRate (avgFracOil burnFlag es) }

/-- one model step from `t`: `prepare_for_model_step`, then `weather_elements`; `none`: an exception -/
def step (b : Burn) (t dt : ℚ) (s : St) : Option St :=
  if active s.range t dt then
    if b.thickness ≤ minThickness then some s
    else if s.es.countP (fun e => e.fate == burnFlag) = 0 then
      match mark true burnFlag (b.eff * (b.rho * (b.area * b.thickness))) s.es with
      | none => none
      | some es => some ((s.marked b es).burn b (timestep (s.marked b es).range t dt))
    else some (s.burn b (timestep s.range t dt))
  else some s

/-- steps from `t`; before each the elements change by other causes -/
def run (b : Burn) (dt : ℚ) : ℚ → List (List El → List El) → St → Option St
  | _, [], s => some s
  | t, f :: fs, s => (step b t dt { s with es := f s.es }).bind (run b dt (t + dt) fs)

end Verif.Cleanup.Fire
