import Mathlib.Data.Rat.Floor
import Mathlib.Tactic.Linarith
import Mathlib.Tactic.Ring
import Mathlib.Tactic.FieldSimp

/-!
# Plume element generation

Model of `gnome/utilities/plume.py` 64-176 (`PlumeGenerator`).

Simplifications: times are rational seconds (the code's are datetimes, to the microsecond), numbers are exact, numpy vectors are
lists; `int32` overflow is not modelled.
-/

namespace Verif.Plume

/-- The attributes of a generator: `mass_flux` of its plume, times, step, and the mass of an element. -/
structure Gen where
  flux : List Rat
  release : Rat
  stop : Option Rat
  dt : Rat
  mass : Rat

/-- `_seconds_from_beginning`, 108-119. -/
def Gen.seconds (g : Gen) (t : Rat) : Rat :=
  let t := if t < g.release then g.release
    else match g.stop with
      | some e => if t > e then e else t
      | none => t
  t - g.release

/-- `astype(np.int32)` of a double: truncation towards zero. -/
def trunc (q : Rat) : Int := if 0 ≤ q then q.floor else -((-q).floor)

/-- `elems_from_beginning`, 146-152, with `_mass_to_elems` 133-138. -/
def Gen.fromBeginning (g : Gen) (t : Rat) : List Int := g.flux.map (fun f => trunc (f * g.seconds t / g.mass))

/-- Difference of two vectors. -/
def vsub (a b : List Int) : List Int := List.zipWith (· - ·) a b
/-- Sum of two vectors. -/
def vadd (a b : List Int) : List Int := List.zipWith (· + ·) a b

/-- `elems_in_range`, 154-156. -/
def Gen.inRange (g : Gen) (a b : Rat) : List Int := vsub (g.fromBeginning b) (g.fromBeginning a)

/-- The item yielded in step `i`, 161-166 and 170-176: time and elements per depth. -/
def Gen.item (g : Gen) (i : Nat) : Rat × List Int :=
  let t := g.release + g.dt * i
  (t, g.inRange t (t + g.dt))

/-- `int(self.time_steps)`, 101-106 and 160; `none` is the endless iteration. -/
def Gen.steps (g : Gen) : Option Nat :=
  match g.stop with
  | none => none
  | some e => some (trunc ((e - g.release) / g.dt)).toNat

/-- The first `n` items of the iteration, 158-176. -/
def Gen.items (g : Gen) (n : Nat) : List (Rat × List Int) :=
  let m := match g.steps with
    | none => n
    | some k => min n k
  (List.range m).map g.item

/-- `set_le_mass_from_total_le_count`, 121-131; `none`: OverflowError. -/
def Gen.setMass (g : Gen) (n : Rat) : Option Gen :=
  match g.stop with
  | none => none
  | some e => some { g with mass := g.flux.sum * (e - g.release) / n }

/-- The constructor's mass of an element, 84. -/
def defaultMass (flux : List Rat) (dt : Rat) : Rat := flux.sum / flux.length * dt

end Verif.Plume
