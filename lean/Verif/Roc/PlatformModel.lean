import Mathlib.Data.Rat.Defs
import Mathlib.Data.Rat.Floor
import Mathlib.Algebra.Order.Field.Rat
/-!
# Model of the figures of a platform that sprays dispersant (ROC)

Source: `/repo/py_gnome/gnome/weatherers/roc.py` class `Platform`: the attributes 270-302, `get` 349-365, `set` 367-372, `release_rate` 374-384,
`one_way_transit_time` 386-402, `max_dosage`, `min_dosage` 400-422, `cascade_time` 424-457, `num_passes_possible` 471-479, `refuel_reload` 481-486,
`pass_duration`, `pass_duration_tuple` 488-536, `sortie_possible` 538-546, `eff_pump_rate` 548-577, `spray_time_fraction` 579-591, and how `Disperse`
calls them (938, 943, 1040). Numbers are rationals. The attributes of a platform are held in m, s, m/s, m³ and m³/s, `get` with a unit divides by the size of the unit.
An exception (an attribute that does not exist, a value that is `None`) is `none`. A dosage is a depth in m (1 gal/acre is a constant number of microns).
-/
namespace Verif.Roc.Platform

/-- the keys of `Platform._attr` 270-302 -/
def names : List String :=
  ["swath_width_max", "swath_width", "swath_width_min", "reposition_speed", "application_speed_min", "application_speed", "application_speed_max",
   "cascade_transit_speed_max_without_payload", "cascade_transit_speed_without_payload", "cascade_transit_speed_min_without_payload",
   "cascade_transit_speed_with_payload", "cascade_transit_speed_max_with_payload", "cascade_transit_speed_min_with_payload", "transit_speed_max",
   "transit_speed_min", "transit_speed", "fuel_load", "taxi_time_landing", "staging_area_brief", "dispersant_load", "taxi_land_depart",
   "taxi_time_takeoff", "u_turn_time", "max_op_time", "max_range_no_payload", "max_range_with_payload", "approach", "departure", "payload",
   "pump_rate_max", "pump_rate_min"]

/-- a platform: the values that are set -/
abbrev Plat := String → Option ℚ

/-- `get` 349-365 with a unit of the size `u` -/
def get (p : Plat) (name : String) (u : ℚ) : Option ℚ := if name ∈ names then (p name).map (· / u) else none

/-- the sizes of units -/
def nm : ℚ := 1852
def knot : ℚ := 1852 / 3600

/-- `one_way_transit_time` 386-402; the arguments `unit` and `payload` are not used -/
def oneWay (p : Plat) (dist : ℚ) : Option ℚ :=
  (get p "transit_speed" knot).bind fun ts =>
    match p "taxi_land_depart" with
    | none => some (dist / ts * 3600)
    | some _ => (get p "taxi_land_depart" 1).map fun t => dist / ts * 3600 + t

/-- an optional attribute, with a value for `None` -/
def getOr (p : Plat) (name : String) (d : ℚ) : ℚ := ((p name)).getD d

inductive PassType | bidirectional | unidirectional
deriving DecidableEq, Repr

/-- `pass_duration_tuple` 504-536 for a length in a unit of the size `u` -/
def passTuple (p : Plat) (len : ℚ) (t : PassType) (u : ℚ) : Option (List ℚ) :=
  let rep := getOr p "reposition_speed" 1
  let appr := getOr p "approach" 0 / rep
  let dep := getOr p "departure" 0 / rep
  let turn := getOr p "u_turn_time" 0
  (get p "application_speed" 1).map fun a =>
    match t with
    | .bidirectional => [appr, len * u / a, turn, len * u / a, dep]
    | .unidirectional => [appr, len * u / a, turn, dep]

/-- `pass_duration` 488-502: the argument `units` (here `_u`) is not used -/
def passDuration (p : Plat) (len : ℚ) (t : PassType) (_u : ℚ) : Option ℚ := (passTuple p len t nm).map List.sum

/-- `sortie_possible` 538-546 for a time in seconds -/
def sortiePossible (p : Plat) (avail transit len : ℚ) : Option Bool :=
  (passDuration p len .bidirectional nm).bind fun d => (oneWay p transit).map fun o => decide (o * 2 + d < avail)

/-- `int` of a number that is not negative -/
def trunc (x : ℚ) : Int := ⌊x⌋

/-- `num_passes_possible` 471-479 -/
def numPasses (p : Plat) (time len : ℚ) (t : PassType) : Option Int :=
  (passDuration p len t nm).bind fun d => if trunc d = 0 then none else some (trunc (time / trunc d))

/-- `refuel_reload` 481-486 -/
def refuelReload (p : Plat) (simul : Bool) : Option ℚ :=
  (get p "dispersant_load" 1).bind fun rl => (get p "fuel_load" 1).map fun rf => if simul then max rl rf else rf + rl

inductive Loading | simultaneous | separate
deriving DecidableEq, Repr

/-- the values of `loading_type` -/
def Loading.str : Loading → String
  | .simultaneous => "simultaneous"
  | .separate => "separate"

/-- `self.platform.refuel_reload(simul=self.loading_type)`: a string that is not empty counts as true -/
def reloadTime (p : Plat) (l : Loading) : Option ℚ := refuelReload p (l.str ≠ "")

/-- `eff_pump_rate` 548-577 for a dosage as a depth in m -/
def pumpRate (p : Plat) (dosage : ℚ) : Option ℚ :=
  (get p "application_speed" 1).bind fun a => (get p "swath_width" 1).bind fun w =>
    (get p "pump_rate_max" 1).bind fun hi => (get p "pump_rate_min" 1).map fun lo =>
      if hi < dosage * a * w then hi else if dosage * a * w < lo then lo else dosage * a * w

/-- `max_dosage` 400-410 as a depth in m -/
def maxDosage (p : Plat) : Option ℚ :=
  (get p "pump_rate_max" 1).bind fun r => (get p "application_speed" 1).bind fun a => (get p "swath_width_min" 1).map fun w => r / (a * w)

/-- `min_dosage` 412-422 as a depth in m -/
def minDosage (p : Plat) : Option ℚ :=
  (get p "pump_rate_min" 1).bind fun r => (get p "application_speed" 1).bind fun a => (get p "swath_width_max" 1).map fun w => r / (a * w)

/-- `spray_time_fraction` 579-591: a length in a unit of the size `u` -/
def sprayFraction (p : Plat) (len : ℚ) (t : PassType) (u : ℚ) : Option ℚ :=
  (get p "application_speed" 1).bind fun a => (passDuration p (len * u) t u).map fun d =>
    match t with
    | .bidirectional => len * u / a * 2 / d
    | .unidirectional => len * u / a / d

/-- `release_rate` 374-384 in m³/s, for a dosage in gal/acre as a depth -/
def releaseRate (p : Plat) (dosage : ℚ) : Option ℚ :=
  (get p "application_speed" 1).bind fun a => (get p "swadth_width" 1).map fun w => dosage * a * w

/-- `cascade_time` 424-457 for a distance in nm, in seconds -/
def cascadeTime (p : Plat) (dist : ℚ) (payload : Bool) : Option ℚ :=
  (get p (if payload then "max_rage_with_payload" else "max_range_no_payload") nm).bind fun range =>
    (get p (if payload then "cascade_transit_speed_with_payload" else "cascade_transit_speed_without_payload") knot).bind fun speed =>
      (get p "taxi_land_depart" 3600).bind fun taxi => (get p "refuel" 3600).map fun fuel =>
        let legs := dist / range
        let frac := legs * 1000 - 1000 * trunc (legs * 1000 / 1000)
        (if range < dist then taxi + trunc legs * range + trunc legs * (taxi * 2 + fuel) + frac * (range / speed) + taxi
         else taxi * 2 + dist / speed) * 3600

/-! ## units -/

/-- a value with its unit -/
structure Q where
  value : ℚ
  unit : String
deriving DecidableEq

/-- the sizes of some units of length -/
def len : String → ℚ
  | "m" => 1
  | "km" => 1000
  | "ft" => 3048 / 10000
  | "nm" => 1852
  | _ => 0

/-- `self.platform.one_way_transit_time(self.transit)` of `Disperse` (943 and others): the unit of `transit` is not asked for -/
def flight (p : Plat) (transit : Q) : Option ℚ := oneWay p transit.value

/-- what `set` 367-372 stores -/
abbrev Store := String → Option Q

/-- the kind of quantity of an attribute (the second entry in `_attr`), for some of them -/
def kind : String → Option String
  | "swath_width" => some "length"
  | "transit_speed" => some "velocity"
  | "payload" => some "volume"
  | "fuel_load" => some "time"
  | "pump_rate_max" => some "discharge"
  | _ => none

/-- `unit in s` for strings -/
def within (unit s : String) : Bool := decide (unit.toList <:+: s.toList)

/-- `set` 367-372: the test is for a part of the name of the kind -/
def set (s : Store) (attr : String) (v : ℚ) (unit : String) : Option Store :=
  (kind attr).bind fun k => if within unit k then some (fun a => if a = attr then some ⟨v, unit⟩ else s a) else none

end Verif.Roc.Platform
