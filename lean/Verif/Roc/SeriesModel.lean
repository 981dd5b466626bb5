import Mathlib.Data.List.Basic
import Mathlib.Data.Int.Order.Basic
/-!
# Model of the schedule of a response (ROC)

Source: `/repo/py_gnome/gnome/weatherers/roc.py` class `Response` 130-237. The operational periods are a list of (begin, end). Times are
integers (microseconds, as in `timedelta`). Python's `None` is `none`; an exception is `.error ()`.
-/
namespace Verif.Roc

abbrev Period := Int × Int

/-- `_is_active` 130-136; `dt / 2` is compared as twice the rest -/
def isActive (ts : List Period) (t dt : Int) : Bool :=
  ts.any (fun p => decide (p.1 ≤ t) && decide (2 * t + dt ≤ 2 * p.2))

/-- `index_of` 183-192; -1 is `none` -/
def indexOf (ts : List Period) (t : Int) : Option Nat :=
  ts.findIdx? (fun p => decide (p.1 ≤ t) && decide (t < p.2))

/-- the loop over gaps 214-217 -/
def gapAfter : List Period → Int → Nat → Option Nat
  | p :: q :: l, t, i => if p.2 ≤ t ∧ t < q.1 then some (i + 1) else gapAfter (q :: l) t (i + 1)
  | _, _, _ => none

/-- `next_interval_index` 194-217; an empty list raises IndexError -/
def nextIndex (ts : List Period) (t : Int) : Except Unit (Option Nat) :=
  match ts.head?, ts.getLast? with
  | some f, some l =>
    if l.2 ≤ t then .ok none
    else if t < f.1 then .ok (some 0)
    else match indexOf ts t with
      | some i => .ok (if i + 1 ≠ ts.length then some (i + 1) else none)
      | none => .ok (gapAfter ts t 0)
  | _, _ => .error ()

/-- `time_to_next_interval` 219-234 -/
def timeToNext (ts : List Period) (t : Int) : Except Unit (Option Int) :=
  match indexOf ts t with
  | some i => .ok (ts[i]?.map (fun p => p.2 - t))
  | none =>
    match nextIndex ts t with
    | .error e => .error e
    | .ok none => .ok none
    | .ok (some i) => .ok (ts[i]?.map (fun p => p.1 - t))

/-- `is_operating` 236-237 -/
def isOperating (ts : List Period) (t : Int) : Bool := (indexOf ts t).isSome

end Verif.Roc
