import Mathlib.Data.Rat.Defs
import Mathlib.Algebra.Order.Field.Rat
/-!
# Model of the in-situ burn of ROC

Source: `/repo/py_gnome/gnome/weatherers/roc.py` class `Burn` 1661-2048. Numbers are rationals. Within a step, the oil is as it is at its
beginning: the rates computed from it are parameters (`Oil`). Whether the step is within the schedule (`_is_active`, see `SeriesModel`) is a
parameter too. The conversion of cubic feet to gallons is a factor.
-/
namespace Verif.Roc.Burn

/-- the entries of `_state_list` -/
inductive Act
  | collect | transit | burn | clean
deriving DecidableEq, Repr

/-- what is set by the user, or computed from that in `prepare_for_model_run` 1737-1785 -/
structure Cfg where
  /-- `_boom_capacity_max`, in cubic feet -/
  capMax : ℚ
  /-- `_offset_time` -/
  offset : ℚ
  /-- `boom_draft` in inches -/
  draft : ℚ
  /-- gallons in a cubic foot -/
  gal : ℚ

/-- the oil in this step as `_collect` 1835-1890 sees it: whether it has a thickness, `encounter_rate`, `emulsion_rr`, and the burn rate -/
structure Oil where
  thick : Bool
  enc : ℚ
  rr : ℚ
  rate : ℚ

/-- the fields of `Burn` -/
structure St where
  collecting : Bool := true
  transiting : Bool := false
  burning : Bool := false
  cleaning : Bool := false
  full : Bool := false
  cap : ℚ
  offRem : ℚ := 0
  burnTime : Option ℚ := none
  burnRate : Option ℚ := none
  burnRem : ℚ := 0
  cleanRem : ℚ := 0
  timeBurning : ℚ := 0
  tsCollected : ℚ := 0
  tsBurned : ℚ := 0
  tsNum : Nat := 0
  tsArea : ℚ := 0
  log : List (Act × ℚ) := []
  rem : ℚ := 0
deriving DecidableEq

/-- the state after `prepare_for_model_run` of a new object -/
def new (c : Cfg) : St := { cap := c.capMax }

/-- `_collect` 1835-1890 -/
def collect (c : Cfg) (o : Oil) (s : St) : St :=
  let s := { s with burnRate := match s.burnRate with | some r => some r | none => some o.rate }
  let ttf : ℚ := if o.thick then (c.gal * s.cap) / o.rr else s.rem
  if s.rem ≤ ttf then
    let col := o.rr * s.rem / c.gal
    { s with tsCollected := col, cap := s.cap - col, tsArea := o.enc * s.rem / 60, log := s.log ++ [(.collect, s.rem)], rem := 0 }
  else if 0 < s.rem then
    let col := o.rr * ttf / c.gal
    { s with tsCollected := col, tsArea := o.enc * (ttf / 60), cap := s.cap - col, full := true, rem := s.rem - ttf, offRem := c.offset,
             collecting := false, transiting := true, log := s.log ++ [(.collect, ttf)] }
  else s

/-- `_transit` 1892-1913 -/
def transit (s : St) : St :=
  if s.rem < s.offRem then { s with offRem := s.offRem - s.rem, log := s.log ++ [(.transit, s.rem)], rem := 0 }
  else if 0 < s.rem then
    { s with rem := s.rem - s.offRem, log := s.log ++ [(.transit, s.offRem)], offRem := 0, transiting := false,
             burning := s.burning || s.full, collecting := s.collecting || !s.full }
  else s

/-- `np.isclose(x, 0)` -/
def close (x : ℚ) : Bool := decide (x ≤ 1 / 100000000) && decide (-(1 / 100000000) ≤ x)

/-- the beginning of `_burn` 1915-1933; the burn rate has been set by `_collect` (0 stands for `None`) -/
def startBurn (c : Cfg) (s : St) : St :=
  match s.burnTime with
  | some _ => s
  | none =>
    let bt : ℚ := 33 / 100 * c.draft / s.burnRate.getD 0 * 60
    { s with tsNum := 1, burnTime := some bt, burnRem := if close s.cap then bt else bt * (1 - s.cap) / c.capMax }

/-- `_burn` 1915-1962 -/
def burn (c : Cfg) (s : St) : St :=
  let s := { startBurn c s with full := false }
  if s.rem < s.burnRem then
    { s with burnRem := s.burnRem - s.rem, timeBurning := s.timeBurning + (s.burnRem - s.rem), log := s.log ++ [(.burn, s.rem)], rem := 0 }
  else if 0 < s.rem then
    { s with cap := s.cap + (c.capMax - s.cap), tsBurned := c.capMax - s.cap, timeBurning := s.timeBurning + s.burnRem,
             rem := s.rem - s.burnRem, log := s.log ++ [(.burn, s.burnRem)], burnRem := 0, burning := false, cleaning := true,
             cleanRem := 3600 }
  else s

/-- `_clean` 1964-1987 -/
def clean (c : Cfg) (active : Bool) (s : St) : St :=
  let s := { s with burnTime := none, burnRate := none }
  if s.rem < s.cleanRem then { s with cleanRem := s.cleanRem - s.rem, log := s.log ++ [(Act.clean, s.rem)], rem := 0 }
  else if 0 < s.rem then
    let s := { s with rem := s.rem - s.cleanRem, log := s.log ++ [(Act.clean, s.cleanRem)], cleanRem := 0, cleaning := false }
    if active then { s with transiting := true, offRem := c.offset } else { s with rem := 0 }
  else s

/-- one pass of the loop 1815-1833 -/
def pass (c : Cfg) (o : Oil) (active : Bool) (s : St) : St :=
  let s := if !s.collecting && !s.transiting && !s.burning && !s.cleaning && active then { s with collecting := true } else s
  let s := if s.collecting then collect c o s else s
  let s := if s.transiting then transit s else s
  let s := if s.burning then burn c s else s
  if s.cleaning then clean c active s else s

/-- the loop, at most `n` times -/
def loop (c : Cfg) (o : Oil) (active : Bool) : Nat → St → Option St
  | 0, s => if 0 < s.rem then none else some s
  | n + 1, s => if 0 < s.rem then loop c o active n (pass c o active s) else some s

/-- the beginning of `prepare_for_model_step` 1787-1815: the fields of the step reset, and whether the response is active -/
def begin (s : St) (active : Bool) (dt : ℚ) : St × Bool :=
  let s := { s with tsCollected := 0, tsBurned := 0, tsNum := 0, tsArea := 0, log := [] }
  if active || s.burning || s.cleaning then ({ s with rem := dt }, true) else (s, false)

/-- `prepare_for_model_step` 1787-1833, with at most `n` passes of the loop -/
def step (c : Cfg) (o : Oil) (active : Bool) (dt : ℚ) (n : Nat) (s : St) : Option St :=
  let r := begin s active dt
  if r.2 then loop c o active n r.1 else some r.1

end Verif.Roc.Burn
