import Mathlib.Data.Rat.Defs
import Mathlib.Algebra.Order.Field.Rat

/-!
# The settings of a release and of a spill

Model of the attributes of `Release` (`gnome/spills/release.py` 137-350) and of the amount of a `Spill` (`gnome/spills/spill.py`
117-186, 279-362, 389-418).

Simplifications: times are seconds and exact; `TZOffset(None)` and no offset at all are `none`; exceptions are a flag beside what the
object is afterwards; a release time is always given.
-/

namespace Verif.SpillSet

/-- `Release`: `release_time`, `_end_release_time`, `_num_elements`, `_num_per_timestep`, `_release_mass`, the offset in hours of
`_timezone_offset`. -/
structure Rel where
  start : ℚ
  stop : Option ℚ
  num : Option Int
  per : Option Int
  mass : ℚ
  tz : Option ℚ
deriving DecidableEq

/-- `end_release_time` (`gnome/spills/release.py` 325-330). -/
def Rel.endTime (r : Rel) : ℚ := r.stop.getD r.start

/-- `release_duration` (315-323). -/
def Rel.duration (r : Rel) : ℚ := r.endTime - r.start

/-- `end_release_time = v` (332-350). -/
def setEnd (r : Rel) (v : Option ℚ) : Rel × Bool := match v with
  | none => ({ r with stop := none }, false)
  | some e => if e < r.start then (r, true) else ({ r with stop := some e }, false)

/-- `release_time = v`: a plain attribute, nothing is checked (also `gnome/spills/spill.py` 241-243). -/
def setStart (r : Rel) (v : ℚ) : Rel × Bool := ({ r with start := v }, false)

/-- `num_elements = v` (298-313). -/
def setNum (r : Rel) (v : Option Int) : Rel × Bool := match v with
  | none => ({ r with num := none, per := if r.per = none then some 1 else r.per }, false)
  | some n => if n < 0 then (r, true) else ({ r with num := some n, per := none }, false)

/-- `num_per_timestep = v` (277-292): for `None` the comparison `val < 0` raises, after `_num_per_timestep` has been set. -/
def setPer (r : Rel) (v : Option Int) : Rel × Bool := match v with
  | none => ({ r with per := none }, true)
  | some n => ({ r with per := some n, num := none }, false)

/-- `release_mass = v` (267-271). -/
def setMass (r : Rel) (v : ℚ) : Rel × Bool := ({ r with mass := if v < 0 then 0 else v }, false)

/-- `timezone_offset = tz` (223-244): `release_time` is moved, then `end_release_time` is read and moved; `_timezone_offset` is set at the
end. -/
def setTz (r : Rel) (tz : Option ℚ) : Rel × Bool := match r.tz, tz with
  | some old, some new =>
    let off := new * 3600 - old * 3600
    let r1 := { r with start := r.start + off }
    let q := setEnd r1 (some (r1.endTime + off))
    if q.2 then q else ({ q.1 with tz := some new }, false)
  | _, _ => ({ r with tz := tz }, false)

/-- `Release.__init__` (180-206): the number of elements, then the times. -/
def newRel (start : ℚ) (stop : Option ℚ) (num per : Option Int) (mass : ℚ) (tz : Option ℚ) : Option Rel :=
  let num := if num = none ∧ per = none then some 1000 else num
  if num ≠ none ∧ per ≠ none then none
  else
    let r0 : Rel := ⟨start, none, none, per, 0, tz⟩
    let r1 := setNum r0 num
    let r2 := setEnd r1.1 stop
    if r1.2 ∨ r2.2 then none else some (setMass r2.1 mass).1

/-- What a user can do to a release. -/
inductive Op where
  | start (v : ℚ)
  | stop (v : Option ℚ)
  | num (v : Option Int)
  | per (v : Option Int)
  | mass (v : ℚ)
  | tz (v : Option ℚ)
deriving DecidableEq

def apply (r : Rel) : Op → Rel × Bool
  | .start v => setStart r v
  | .stop v => setEnd r v
  | .num v => setNum r v
  | .per v => setPer r v
  | .mass v => setMass r v
  | .tz v => setTz r v

/-- A sequence of assignments, each in its own `try`. -/
def run (r : Rel) (l : List Op) : Rel := l.foldl (fun r o => (apply r o).1) r

/-- `update` with `release_time`, `end_release_time` and `timezone_offset`, in the order of the schema (`BaseReleaseSchema`,
`gnome/spills/release.py` 93-107; `gnome/gnomeobject.py` 520-534); an exception ends it. -/
def update (r : Rel) (start stop : ℚ) (tz : Option ℚ) : Rel × Bool :=
  let r1 := (setStart r start).1
  let r2 := setEnd r1 (some stop)
  if r2.2 then r2 else setTz r2.1 tz

/-! ## The amount of a spill -/

/-- Units: of mass, so many kilograms each, or of volume, so many cubic metres each (what `nucos.convert` knows). -/
inductive Units where
  | mass (kg : ℚ)
  | volume (m3 : ℚ)
deriving DecidableEq

/-- What decides on the amount: the units, the `standard_density` of the substance, the `release_mass` of the release, and
`amount_uncertainty_scale`. -/
structure Spill where
  units : Units
  density : ℚ
  mass : ℚ
  scale : ℚ
deriving DecidableEq

/-- `amount` (`gnome/spills/spill.py` 283-293). -/
def Spill.amount (s : Spill) : ℚ := match s.units with
  | .mass kg => s.mass / kg
  | .volume m3 => s.mass / s.density / m3

/-- `amount = a` (295-308). -/
def setAmount (s : Spill) (a : ℚ) : Spill × Bool :=
  if a < 0 then (s, true)
  else
    let m := match s.units with
      | .mass kg => a * kg
      | .volume m3 => a * m3 * s.density
    ({ s with mass := if m < 0 then 0 else m }, false)

/-- `units = u` for units that are known (341-356). -/
def setUnits (s : Spill) (u : Units) : Spill := { s with units := u }

/-- `substance = x` (204-235). -/
def setSubstance (s : Spill) (density : ℚ) : Spill := { s with density := density }

/-- `set_amount_uncertainty` (389-418); the answer is second. -/
def amountUncertainty (s : Spill) (dir : Option Bool) : Spill × Bool :=
  if s.scale ≤ 0 ∨ s.scale > 1 then (s, false)
  else match dir with
    | some true => ((setAmount s (s.amount * (1 + 2 / 3 * s.scale))).1, true)
    | some false => ((setAmount s (s.amount * (1 - 2 / 3 * s.scale))).1, true)
    | none => (s, false)

/-- `Spill(release=r, amount=a, units=u, substance=x)` (117-186): the amount, by default 0, is set on the release. -/
def newSpill (releaseMass density : ℚ) (amount : Option ℚ) (u : Units) (scale : ℚ) : Spill × Bool :=
  setAmount ⟨u, density, releaseMass, scale⟩ (amount.getD 0)

end Verif.SpillSet
