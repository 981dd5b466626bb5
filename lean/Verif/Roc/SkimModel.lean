import Mathlib.Data.Rat.Defs
import Mathlib.Algebra.Order.Field.Rat
/-!
# Model of the skimmer of ROC

Source: `/repo/py_gnome/gnome/weatherers/roc.py` class `Skim` 2095-2459. Numbers are rationals. Within a step, the oil is as it is at its
beginning: its thickness and the water in it are parameters. Whether the step is within the schedule (`_is_active`, see `SeriesModel`) is a
parameter too. The attributes are in the units of the class (barrels are already gallons). Without a barge (`barge_arrival` is not a
parameter of the constructor).
-/
namespace Verif.Roc.Skim

/-- the entries of `_state_list` -/
inductive Act
  | skim | transit | offload
deriving DecidableEq, Repr

/-- what is set by the user -/
structure Cfg where
  /-- in gallons -/
  storage : ℚ
  swath : ℚ
  speed : ℚ
  throughput : ℚ
  /-- in gallons per minute -/
  nameplate : ℚ
  recovery : ℚ
  decant : ℚ
  decantPump : ℚ
  dischargePump : ℚ
  /-- in minutes -/
  rigTime : ℚ
  transitTime : ℚ

/-- `offload` 2161-2163 -/
def offloadTime (c : Cfg) : ℚ := c.storage / c.dischargePump * 60

/-- the oil in this step: its thickness in inches and the mean of the water in it -/
structure Oil where
  thick : ℚ
  water : ℚ

/-- `_maximum_effective_swath` 2236-2244 -/
def maxSwath (c : Cfg) (o : Oil) : ℚ :=
  if 0 < c.recovery ∧ 0 < c.throughput ∧ 0 < o.thick then
    c.nameplate * c.recovery / (6313 / 100 * c.speed * o.thick * c.throughput)
  else 0

/-- `swath` 2246-2249 -/
def swath (c : Cfg) (o : Oil) : ℚ := if maxSwath c o < c.swath then maxSwath c o else c.swath

/-- `encounter_rate` 2255 -/
def enc (c : Cfg) (o : Oil) : ℚ := o.thick * c.speed * swath c o * (6313 / 100)

/-- the rates of 2262-2311, in gallons per minute -/
structure Rates where
  fluid : ℚ
  throughput : ℚ
  emulsion : ℚ
  water : ℚ
  retain : ℚ
  oil : ℚ
  waterRetained : ℚ
  waterDecanted : ℚ
  /-- `rate_of_coverage` 2256 -/
  area : ℚ
deriving DecidableEq

/-- `totalFluidRecoveryRate` and `throughput` 2262-2282 -/
def fluid (c : Cfg) (e : ℚ) : ℚ × ℚ :=
  let t := e * c.throughput / c.recovery
  if c.nameplate < t then
    let th := c.nameplate * c.recovery / e
    (e * th / c.recovery, th)
  else (t, c.throughput)

/-- 2285-2311 -/
def ratesOf (c : Cfg) (o : Oil) (e : ℚ) : Rates :=
  let f := fluid c e
  let emulsion := e * f.2
  let water := (1 - c.recovery) * f.1
  let retained := water * (1 - c.decant)
  let computed := c.decant * (f.1 - emulsion)
  let diff := if c.decantPump < computed then computed - c.decantPump else 0
  let recovered := emulsion + water
  let retain := emulsion + retained + diff
  { fluid := f.1, throughput := f.2, emulsion := emulsion, water := recovered - emulsion, retain := retain, oil := emulsion * (1 - o.water)
    waterRetained := retain - emulsion, waterDecanted := (recovered - emulsion) - (retain - emulsion)
    area := swath c o * c.speed * (233 / 100000) }

/-- `none` where `_collect` has no rates: 2258, 2261, 2284 -/
inductive How
  | rates (r : Rates)
  | nothing
  | noOp
deriving DecidableEq

def how (c : Cfg) (o : Oil) : How :=
  if 0 < enc c o then
    if 0 < c.recovery then
      if 0 < (fluid c (enc c o)).2 then .rates (ratesOf c o (enc c o)) else .noOp
    else .noOp
  else .nothing

/-- the fields of `Skim` -/
structure St where
  collecting : Bool := true
  transiting : Bool := false
  offloading : Bool := false
  /-- `_storage_remaining` -/
  room : ℚ
  transitRem : ℚ := 0
  offloadRem : ℚ := 0
  tsTime : ℚ := 0
  tsFluid : ℚ := 0
  tsEmulsion : ℚ := 0
  tsOil : ℚ := 0
  tsWater : ℚ := 0
  tsDecanted : ℚ := 0
  tsRetained : ℚ := 0
  tsArea : ℚ := 0
  tsFills : ℚ := 0
  log : List (Act × ℚ) := []
  rem : ℚ := 0
deriving DecidableEq

/-- the state after `prepare_for_model_run` 2153-2183 of a new object -/
def new (c : Cfg) : St := { room := c.storage }

/-- `timeToFill` 2313-2316 -/
def timeToFill (room retain : ℚ) : ℚ := 7 / 10 * room / retain * 60 * 60

/-- `_collect` 2313-2363 -/
def gather (c : Cfg) (r : Rates) (s : St) : St :=
  let ttf := timeToFill s.room r.retain
  let full := !decide (s.rem < ttf)
  let t := if full then ttf else s.rem
  let s := if full then { s with rem := s.rem - ttf, transitRem := c.transitTime * 60, collecting := false, transiting := true }
           else { s with rem := 0 }
  let got := r.retain * (t / 60)
  let fills := if 0 < got ∧ got ≤ s.room then got / c.storage else if 0 < s.room then s.room / c.storage else 0
  { s with log := s.log ++ [(.skim, t)], tsFills := s.tsFills + fills
           room := if s.room < got then 0 else s.room - got
           tsTime := s.tsTime + t, tsFluid := s.tsFluid + got, tsEmulsion := s.tsEmulsion + r.emulsion * t / 60
           tsOil := s.tsOil + r.oil * t / 60, tsWater := s.tsWater + r.water * t / 60
           tsDecanted := s.tsDecanted + r.waterDecanted * t / 60, tsRetained := s.tsRetained + r.waterRetained * t / 60
           tsArea := s.tsArea + r.area * t / 60 }

/-- `_collect` 2233-2372 -/
def collect (c : Cfg) (h : How) (s : St) : St :=
  match h with
  | .rates r => gather c r s
  | .noOp => { s with rem := 0 }
  | .nothing => { s with log := s.log ++ [(.skim, s.rem)], rem := 0 }

/-- `_transit` 2374-2395 -/
def transit (c : Cfg) (s : St) : St :=
  if s.transitRem ≤ s.rem then
    let s := { s with log := s.log ++ [(Act.transit, s.transitRem)], rem := s.rem - s.transitRem, transitRem := 0, transiting := false }
    if s.room = 0 then { s with offloading := true, offloadRem := offloadTime c + c.rigTime * 60 } else { s with collecting := true }
  else { s with log := s.log ++ [(.transit, s.rem)], transitRem := s.transitRem - s.rem, rem := 0 }

/-- `_offload` 2397-2413 -/
def offload (c : Cfg) (s : St) : St :=
  if s.offloadRem ≤ s.rem then
    { s with log := s.log ++ [(.offload, s.offloadRem)], rem := s.rem - s.offloadRem, offloadRem := 0, room := c.storage
             offloading := false, transiting := true, transitRem := c.transitTime * 60 }
  else { s with log := s.log ++ [(.offload, s.rem)], offloadRem := s.offloadRem - s.rem, rem := 0 }

/-- one pass of the loop 2223-2231 -/
def pass (c : Cfg) (h : How) (s : St) : St :=
  let s := if s.collecting then collect c h s else s
  let s := if s.transiting then transit c s else s
  if s.offloading then offload c s else s

/-- the condition of the loop 2217-2222 -/
def goes (active : Bool) (s : St) : Prop := 0 < s.rem ∧ (active = true ∨ s.transiting = true ∨ s.offloading = true)

instance (active : Bool) (s : St) : Decidable (goes active s) := inferInstanceAs (Decidable (_ ∧ _))

/-- the loop, at most `n` times -/
def loop (c : Cfg) (h : How) (active : Bool) : Nat → St → Option St
  | 0, s => if goes active s then none else some s
  | n + 1, s => if goes active s then loop c h active n (pass c h s) else some s

/-- `prepare_for_model_step` 2185-2231: nothing when it is not active (the fields of the step before stay as they are) -/
def step (c : Cfg) (o : Oil) (active : Bool) (dt : ℚ) (n : Nat) (s : St) : Option St :=
  if active || s.transiting || s.offloading then
    loop c (how c o) active n { s with log := [], tsFills := 0, tsEmulsion := 0, tsOil := 0, tsWater := 0, tsDecanted := 0, tsRetained := 0,
                                       tsArea := 0, tsTime := 0, tsFluid := 0, rem := dt }
  else some s

end Verif.Roc.Skim
