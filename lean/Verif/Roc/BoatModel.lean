import Verif.Roc.SeriesModel
import Mathlib.Data.Rat.Defs
import Mathlib.Data.Rat.Floor
import Mathlib.Algebra.Order.Field.Rat
/-!
# Model of the spraying of dispersant from a boat (ROC)

Source: `/repo/py_gnome/gnome/weatherers/roc.py` class `Disperse`: `prepare_for_model_step` 865-906, `simulate_boat` 908-1131, `update_time`,
`dispersable_oil_amount` 1547-1577, and of `Platform` `sortie_possible` 538-546. Times and durations are integers (microseconds, as in
`timedelta`). The durations of transit and reloading and the rate of the pump are parameters, the oil of a step too. An exception is `none`.
`_area_sprayed_this_ts`, the report in words and `_op_start` are left out; a number of seconds is rounded to the nearest microsecond, ties upward.
-/
namespace Verif.Roc.Boat

/-- the values of `cur_state` for a boat -/
inductive Cur
  | retired | ready | enRoute | onsite | rtb | reload | cascade | deactivated
deriving DecidableEq, Repr

/-- the entries of `state` -/
inductive Act
  | transit | onsite | reload
deriving DecidableEq, Repr

/-- what is set by the user, and durations computed from that: `one_way_transit_time`, `refuel_reload`, the time `sortie_possible` asks for,
`onsite_reload_refuel`, the payload and `disp_oil_ratio` -/
structure Cfg where
  transit : Int
  refuel : Int
  mission : Int
  onsiteReload : Bool
  payload : ℚ
  ratio : ℚ

/-- the oil in the step: whether some can be dispersed, its mass and mean density, and the rate of the pump for it (`eff_pump_rate`, m³/s) -/
structure Oil where
  any : Bool
  mass : ℚ
  dens : ℚ
  rate : ℚ

/-- the fields of `Disperse`, and the variables `model_time` (`now`) and `time_step` (`ts`) of `simulate_boat`; an amount of oil that is
not a number is `none` -/
structure St where
  cur : Cur
  nst : Option Int := none
  disp : ℚ
  opEnd : Option Int := none
  treated : Option ℚ := some 0
  sprayed : ℚ := 0
  payloads : ℚ := 0
  log : List (Act × Int) := []
  rem : Int := 0
  now : Int := 0
  ts : Int := 0
deriving DecidableEq

/-- `x -= min(x, d)`, and `update_time` 1547-1551 -/
def advance (s : St) (d : Int) : St :=
  let rem := s.rem - min s.rem d
  { s with rem := rem, now := if 0 < rem then s.now + s.ts - rem else s.now, ts := if 0 < rem then rem else s.ts }

/-- with an entry in `state` -/
def spend (s : St) (a : Act) (d : Int) : St := { advance s d with log := s.log ++ [(a, min s.rem d)] }

/-- `dispersable_oil_amount` in kilograms 1565-1577; `max(0, nan)` is 0 -/
def avail (o : Oil) (treated : Option ℚ) : ℚ :=
  match treated with
  | some x => if o.any then max 0 (o.mass - x / o.dens) else 0
  | none => 0

/-- 'retired' 917-934; before the first period the attribute `time_remaining`, which there is not, is asked for -/
def retired (ts : List Period) (s : St) : Option St :=
  match ts.head? with
  | none => none
  | some p => if s.now < p.1 then none else some { s with cur := .ready }

/-- 'ready' 936-957 -/
def ready (c : Cfg) (ttni tte : Int) (s : St) : St :=
  if c.mission < tte then { s with nst := some (s.now + c.transit), cur := .enRoute }
  else { advance s ttni with cur := .deactivated }

/-- 'en_route' 959-982; `_next_state_time` is set to a time that is not used -/
def enRoute (c : Cfg) (last : Int) (s : St) (n : Int) : St :=
  let s := spend s .transit (n - s.now)
  if 0 < s.rem then { s with opEnd := some (last - c.transit), cur := .onsite } else s

/-- the dispersant sprayed in a time, and the time it takes 988-1002 -/
def spray (o : Oil) (disp : ℚ) (t : Int) : ℚ × Int :=
  let possible : ℚ := (t : ℚ) / 1000000 * o.rate
  let d := min disp possible
  (d, if d ≠ possible then ⌊d / o.rate * 1000000 + 1 / 2⌋ else t)

/-- the spraying 986-1041: the mean density of no oil is not a number, and so is what is treated then -/
def sprayed (c : Cfg) (o : Oil) (s : St) (t : Int) : St :=
  let x := spray o s.disp t
  let s' := spend s .onsite x.2
  { s' with sprayed := s.sprayed + x.1, disp := s.disp - x.1, payloads := s.payloads + x.1 / c.payload
            treated := if o.any then s.treated.map (· + min (o.dens * (x.1 * c.ratio)) (avail o s.treated)) else none }

/-- to the base 1067-1070, 1077-1081, 1089-1096 -/
def toBase (c : Cfg) (s : St) : St := { s with nst := some (s.now + c.transit), cur := .rtb }

/-- 'onsite' 984-1096 -/
def onsite (c : Cfg) (ts : List Period) (o : Oil) (s : St) (e : Int) : Option St :=
  if isOperating ts s.now then
    match timeToNext ts s.now with
    | .ok (some i) =>
      let s := sprayed c o s (min (min s.rem (e - s.now)) i)
      some (if 0 < s.rem then
        if s.disp = 0 then
          if c.onsiteReload then { s with cur := .reload, nst := some (s.now + c.refuel) } else toBase c s
        else if s.now = e then toBase c s else s
      else s)
    | _ => none
  else
    let s := advance s (e - s.now)
    some (if 0 < s.rem then toBase c s else s)

/-- 'rtb' 1098-1116 -/
def rtb (c : Cfg) (s : St) (n : Int) : St :=
  let s := spend s .transit (n - s.now)
  if 0 < s.rem then { s with nst := some (s.now + c.refuel), cur := .reload } else s

/-- 'refuel_reload' 1118-1131 -/
def reload (c : Cfg) (s : St) (n : Int) : St :=
  let s := spend s .reload (n - s.now)
  if 0 < s.rem then { s with disp := c.payload, cur := if c.onsiteReload then .onsite else .ready } else s

/-- one pass of the loop 916-1131: in the states 'cascade' and 'deactivated' nothing is done -/
def pass (c : Cfg) (ts : List Period) (ttni tte last : Int) (o : Oil) (s : St) : Option St :=
  match s.cur with
  | .retired => retired ts s
  | .ready => some (ready c ttni tte s)
  | .enRoute => s.nst.map (enRoute c last s)
  | .onsite => s.opEnd.bind (onsite c ts o s)
  | .rtb => s.nst.map (rtb c s)
  | .reload => s.nst.map (reload c s)
  | .cascade => some s
  | .deactivated => some s

/-- the loop, at most `n` times; times to the next interval and to the end are those of the beginning of the step -/
def loop (c : Cfg) (ts : List Period) (ttni tte last : Int) (o : Oil) : Nat → St → Option St
  | 0, s => if 0 < s.rem then none else some s
  | n + 1, s => if 0 < s.rem then (pass c ts ttni tte last o s).bind (loop c ts ttni tte last o n) else some s

/-- the time of the end of the last period -/
def lastEnd (ts : List Period) : Int := (ts.getLast?.map Prod.snd).getD 0

/-- `prepare_for_model_step` 865-906 for a boat, with 908-914: only what is within the schedule is simulated -/
def step (c : Cfg) (ts : List Period) (o : Oil) (t dt : Int) (n : Nat) (s : St) : Option St :=
  if isActive ts t dt then
    let s := { s with log := [], payloads := 0 }
    if s.cur = .deactivated then some s
    else match timeToNext ts t with
      | .error _ => none
      | .ok ttni =>
        if lastEnd ts - t < 0 then some { s with rem := dt }
        else loop c ts (ttni.getD 0) (lastEnd ts - t) (lastEnd ts) o n { s with rem := dt, now := t, ts := dt }
  else some { s with log := [] }

/-- `prepare_for_model_run` 794-820 -/
def new (c : Cfg) (casc : Bool) : St := { cur := if casc then .cascade else .retired, disp := c.payload }

end Verif.Roc.Boat
