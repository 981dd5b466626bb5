import Verif.Roc.SeriesModel
import Mathlib.Data.Rat.Defs
import Mathlib.Algebra.Order.Field.Rat
/-!
# Model of the spraying of dispersant from a plane (ROC)

Source: `/repo/py_gnome/gnome/weatherers/roc.py` class `Disperse`: `prepare_for_model_step` 865-906, `simulate_plane` 1133-1533,
`reset_for_return_to_base`, `update_time`, `dispersable_oil_amount` 1535-1577, and of `Platform` `num_passes_possible` 471-479,
`sortie_possible` 538-546. Times and durations are integers (microseconds, as in `timedelta`). The durations of the phases of a sortie and the
rate of the pump are parameters, the oil of a step too. An exception is `none`.
-/
namespace Verif.Roc.Plane

/-- the values of `cur_state`; `disperse true` is the way back of a pass, `disperse_<n>u` -/
inductive Cur
  | retired | ready | enRoute | approach | disperse (back : Bool) | uTurn | departure | holding | rtb | reload | cascade | deactivated
deriving DecidableEq, Repr

/-- the entries of `state` -/
inductive Act
  | transit | onsite | reload
deriving DecidableEq, Repr

/-- what is set by the user, and durations computed from that: `one_way_transit_time`, `pass_duration_tuple`, `refuel_reload`,
`max_onsite_time`, `cascade_time` -/
structure Cfg where
  transit : Int
  approach : Int
  spray : Int
  uTurn : Int
  depart : Int
  refuel : Int
  maxOnsite : Int
  cascade : Int
  /-- `int(pass_duration)`, whole seconds as microseconds -/
  passDur : Int
  /-- `sortie_possible` adds the duration of a pass in both directions -/
  mission : Int
  bidir : Bool
  payload : ℚ
  /-- `disp_oil_ratio` -/
  ratio : ℚ

/-- the oil in the step: whether some can be dispersed, its mass and mean density, and the rate of the pump for it (`eff_pump_rate`, m³/s) -/
structure Oil where
  any : Bool
  mass : ℚ
  dens : ℚ
  rate : ℚ

/-- the fields of `Disperse`, and the variables `model_time` (`now`) and `time_step` (`ts`) of `simulate_plane` -/
structure St where
  cur : Cur
  nst : Option Int := none
  disp : ℚ
  opEnd : Option Int := none
  num : Nat := 1
  treated : ℚ := 0
  sprayed : ℚ := 0
  payloads : ℚ := 0
  /-- the number of calls of `pass_duration_tuple`: each adds the whole spray time of a pass to `_ts_spray_time` -/
  calls : Nat := 0
  log : List (Act × Int) := []
  rem : Int := 0
  now : Int := 0
  ts : Int := 0
deriving DecidableEq

/-- `x -= min(x, d)`, and `update_time` 1547-1551 -/
def advance (s : St) (d : Int) : St :=
  let rem := s.rem - min s.rem d
  { s with rem := rem, now := if 0 < rem then s.now + s.ts - rem else s.now, ts := if 0 < rem then rem else s.ts }

/-- with an entry in `state` -/
def spend (s : St) (a : Act) (d : Int) : St := { advance s d with log := s.log ++ [(a, min s.rem d)] }

/-- `dispersable_oil_amount` in kilograms 1565-1577 -/
def avail (o : Oil) (treated : ℚ) : ℚ := if o.any then max 0 (o.mass - treated / o.dens) else 0

/-- `np.isclose(x, 0)` -/
def close (x : ℚ) : Bool := decide (x ≤ 1 / 100000000) && decide (-(1 / 100000000) ≤ x)

/-- `num_passes_possible` 471-479 -/
def passes (c : Cfg) (t : Int) : Int := t.tdiv c.passDur

/-- `reset_for_return_to_base` 1535-1545 -/
def toBase (c : Cfg) (s : St) : St := { s with nst := some (s.now + c.transit), opEnd := none, num := 1, cur := .rtb }

/-- 'retired' 1152-1191 -/
def retired (ts : List Period) (ttni : Int) (s : St) : St :=
  if ((indexOf ts s.now).bind (fun i => ts[i]?)).map Prod.fst = some s.now then { s with cur := .ready }
  else
    let s := advance s ttni
    if 0 < s.rem ∧ (indexOf ts s.now).isSome then { s with cur := .ready } else s

/-- 'ready' 1193-1219 -/
def ready (c : Cfg) (ttni : Int) (s : St) : St :=
  let s := { s with calls := s.calls + 1 }
  if c.mission < ttni then { s with nst := some (s.now + c.transit), cur := .enRoute }
  else { advance s ttni with cur := .retired }

/-- 'en_route' 1221-1256 -/
def enRoute (c : Cfg) (s : St) (n : Int) : St :=
  let s := spend s .transit (n - s.now)
  if 0 < s.rem then
    { s with opEnd := some (s.now + c.maxOnsite), num := 1, cur := .approach, nst := some (s.now + c.approach), calls := s.calls + 1 }
  else s

/-- 'approach' 1258-1281 -/
def approach (c : Cfg) (s : St) (n : Int) : St :=
  let s := spend s .onsite (n - s.now)
  if 0 < s.rem then { s with nst := some (s.now + c.spray), cur := .disperse false, calls := s.calls + 1 } else s

/-- 'u-turn' 1283-1310 -/
def uTurn (c : Cfg) (s : St) (n : Int) : Option St :=
  if c.bidir then
    let s := spend s .onsite (n - s.now)
    some (if 0 < s.rem then { s with nst := some (s.now + c.spray), cur := .disperse true, calls := s.calls + 1 } else s)
  else none

/-- 'departure' 1312-1376 -/
def departure (c : Cfg) (o : Oil) (s : St) (n : Int) : Option St :=
  let s := spend s .onsite (n - s.now)
  if 0 < s.rem then
    match s.opEnd with
    | none => none
    | some e =>
      let p := passes c (e - s.now)
      let ph := passes c (e - s.now + s.ts)
      let s := { s with num := s.num + 1, calls := s.calls + 2 }
      some (if s.disp = 0 then toBase c s
        else if close (avail o s.treated) then
          if 0 < ph then { s with cur := .holding, nst := some (s.now + s.ts) } else toBase c s
        else if p = 0 then toBase c s
        else { s with cur := .disperse false, nst := some (s.now + c.spray) })
  else some s

/-- 'holding' 1378-1389 -/
def holding (s : St) (n : Int) : St := { spend s .onsite (n - s.now) with cur := .approach }

/-- the spraying 1391-1447 -/
def sprayed (c : Cfg) (o : Oil) (s : St) (n : Int) : St :=
  let t := min s.rem (n - s.now)
  let possible : ℚ := (t : ℚ) / 1000000 * o.rate
  let d := min s.disp possible
  let treatable : ℚ := if o.any then o.dens * (d * c.ratio) else 0
  let s' := spend { s with calls := s.calls + 1 } .onsite (n - s.now)
  { s' with sprayed := s.sprayed + d, disp := s.disp - d, payloads := s.payloads + d / c.payload
            treated := s.treated + min treatable (avail o s.treated) }

/-- 'disperse' 1391-1467 -/
def disperse (c : Cfg) (o : Oil) (back : Bool) (s : St) (n : Int) : St :=
  let s := sprayed c o s n
  if 0 < s.rem then
    if c.bidir && decide (0 < s.disp) && !back then { s with cur := .uTurn, nst := some (s.now + c.uTurn) }
    else { s with cur := .departure, nst := some (s.now + c.depart) }
  else s

/-- 'rtb' 1469-1490 -/
def rtb (c : Cfg) (s : St) (n : Int) : St :=
  let s := spend s .transit (n - s.now)
  if 0 < s.rem then { s with nst := some (s.now + c.refuel), cur := .reload } else s

/-- 'refuel_reload' 1492-1511 -/
def reload (c : Cfg) (s : St) (n : Int) : St :=
  let s := spend s .reload (n - s.now)
  if 0 < s.rem then { s with disp := c.payload, cur := .ready } else s

/-- 'cascade' 1513-1530 -/
def cascade (c : Cfg) (s : St) : St :=
  let n := s.nst.getD (s.now + c.cascade)
  let s := advance { s with nst := some n } (n - s.now)
  if 0 < s.rem then { s with cur := .ready } else s

/-- one pass of the loop 1137-1533 when there is a time to the next interval -/
def pass (c : Cfg) (ts : List Period) (ttni : Int) (o : Oil) (s : St) : Option St :=
  match s.cur, s.nst with
  | .retired, _ => some (retired ts ttni s)
  | .ready, _ => some (ready c ttni s)
  | .enRoute, some n => some (enRoute c s n)
  | .approach, some n => some (approach c s n)
  | .uTurn, some n => uTurn c s n
  | .departure, some n => departure c o s n
  | .holding, some n => some (holding s n)
  | .disperse b, some n => some (disperse c o b s n)
  | .rtb, some n => some (rtb c s n)
  | .reload, some n => some (reload c s n)
  | .cascade, _ => some (cascade c s)
  | _, _ => none

/-- the loop, at most `n` times; it does not recompute the time to the next interval -/
def loop (c : Cfg) (ts : List Period) (ttni : Int) (o : Oil) : Nat → St → Option St
  | 0, s => if 0 < s.rem then none else some s
  | n + 1, s => if 0 < s.rem then (pass c ts ttni o s).bind (loop c ts ttni o n) else some s

/-- `prepare_for_model_step` 865-906 for a plane: only what is within the schedule is simulated; without a next interval the operation
is over 1138-1150 -/
def step (c : Cfg) (ts : List Period) (o : Oil) (t dt : Int) (n : Nat) (s : St) : Option St :=
  if isActive ts t dt then
    let s := { s with log := [], calls := 0, payloads := 0 }
    if s.cur = .deactivated then some s
    else match timeToNext ts t with
      | .error _ => none
      | .ok none => if s.cur = .retired ∨ s.cur = .reload ∨ s.cur = .ready then some { s with cur := .deactivated } else none
      | .ok (some ttni) => loop c ts ttni o n { s with rem := dt, now := t, ts := dt }
  else some { s with log := [] }

/-- `prepare_for_model_run` 794-820 -/
def new (c : Cfg) (casc : Bool) : St := { cur := if casc then .cascade else .retired, disp := c.payload }

/-! ## the report -/

/-- `weather_elements` 1579-1631: 'dispersant_applied' and 'oil_treated' of the mass balance grow by what the counters say; the counter of the
oil is set back (1630), and 1631 sets an attribute of another name -/
def report (applied oil : ℚ) (s : St) : ℚ × ℚ × St :=
  if s.treated ≠ 0 then (applied + s.sprayed, oil + s.treated, { s with treated := 0 }) else (applied, oil, s)

end Verif.Roc.Plane
