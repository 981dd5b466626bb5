import Mathlib.Algebra.Order.Field.Rat
import Mathlib.Tactic.Linarith
import Mathlib.Tactic.NormNum
import Mathlib.Tactic.Ring
import Mathlib.Tactic.FieldSimp
import Mathlib.Tactic.Positivity

/-!
# The place in the tidal cycle

Source: `py_gnome/lib_gnome/ShioTimeValue_c.cpp` `GetLocationInTideCycle` (1246-1400), used by `CurrentCycleMover_c.cpp:106`.
Phases: 0 minimum before flood, 1 maximum flood, 2 minimum before ebb, 3 maximum ebb.

Simplifications: fractions are exact rationals, not floats.  Behind the last high or low the code reads the entry
after the end of the array: that entry is a parameter.  There are at least two events.
-/

namespace Verif.Shio.Cycle

/-- An entry of `fEbbFloodDataHdl`. -/
structure Ev where
  time : Int
  phase : Nat
  deriving DecidableEq, Repr

/-- The fraction of the time from `a` to `b`. -/
def frac (a b t : Int) : ℚ := ((t - a : Int) : ℚ) / ((b - a : Int) : ℚ)

/-- The phase before (1275-1276). -/
def before (p : Nat) : Nat := if p > 0 then p - 1 else 3

/-- The loop for a current station (1262-1282) from entry `i` on, with the entry `e2` of the iteration before;
after the loop (1283-1290). -/
def locC (t : Int) (isFirst : Bool) : List Ev → Option (Nat × ℚ)
  | e1 :: e2 :: l =>
    if e1.time ≤ t ∧ t < e2.time then some (e1.phase, frac e1.time e2.time t)
    else if isFirst = true ∧ t < e1.time then
      let f := ((e1.time - t : Int) : ℚ) / ((e2.time - e1.time : Int) : ℚ)
      some (before e1.phase, if f > 1 then 1 else f)
    else
      match l with
      | [] => if t = e2.time then some (e2.phase, 0) else none
      | _ => locC t false (e2 :: l)
  | _ => none

/-- A high or low. -/
structure HL where
  time : Int
  high : Bool
  deriving DecidableEq, Repr

/-- Phase of slack water at a high or low, and of the maximum after it (1313-1340). -/
def slackOf (high : Bool) : Nat := if high then 2 else 0

/-- `MaxFlood` for a low, `MaxEbb` for a high. -/
def maxOf (high : Bool) : Nat := if high then 3 else 1

/-- The loop for a station of heights (1301-1388): iteration `2 k` and `2 k + 1` for every high or low but for the last,
for which there is only the first of them, with the entry `junk` behind the array. -/
def locH (t : Int) (junk : HL) (isFirst : Bool) : List HL → Option (Nat × ℚ)
  | [] => none
  | a :: l =>
    let b := match l with
      | [] => junk
      | b :: _ => b
    let mid := (b.time - a.time) / 2 + a.time
    let mid2 := (b.time - a.time) / 2 + b.time
    -- iteration 2 k
    if a.time ≤ t ∧ t < b.time then some (slackOf a.high, frac a.time b.time t)
    else if isFirst = true ∧ t < a.time then
      let f := ((a.time - t : Int) : ℚ) / ((b.time - a.time : Int) : ℚ)
      some (before (slackOf a.high), if f > 1 then 1 else f)
    else
      match l with
      | [] => if t = b.time then some (slackOf b.high, 0) else none
      | b' :: l' =>
        -- iteration 2 k + 1
        if mid ≤ t ∧ t < mid2 then some (maxOf a.high, frac mid mid2 t)
        else locH t junk false (b' :: l')

end Verif.Shio.Cycle
