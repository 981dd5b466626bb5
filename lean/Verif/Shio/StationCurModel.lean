import Mathlib.Data.Rat.Defs
import Mathlib.Algebra.Order.Field.Rat
/-!
# Model of the currents of a tide station: from the events of the reference curve to the curve of the station

Sources in `/repo/py_gnome/lib_gnome`: the end of `GetRefCurrent` (`ShioCurrent2.cpp` 874, 899-911), `DoOffSetCurrents` (`ShioCurrent1.cpp` 832-1084),
`CurveFitOffsetCurve` 577-786, `DoHermite` 789-826, `GetFloodEbbKey` 2247-2406, `GetFloodEbbSpans` with `whatFlag` 0 (`ShioCurrent2.cpp` 188-252),
`Hermite` (`CompFunctions.cpp` 31-59).

Times are hours, values knots, both rational: rounding and the `float` in 1053 are left out. Stations are not rotary. Arrays are functions from the index.
The events before the first and after the last are found by `FindExtraFE`, which is not modelled: they are parameters.
-/
namespace Verif.Shio.StationCur

/-- labels of events: 0, 1, 2, 3 in the code -/
inductive Kind where
  | minFlood | maxFlood | minEbb | maxEbb
  deriving DecidableEq, Repr

/-- an event: `EbbFloodTimes[i].val`, `EbbFloodSpeeds[i]`, `EbbFlood[i]`, and whether `EbbFloodTimes[i].flag` is `outOfSequenceFlag` (`Shio.h` 12) -/
structure Ev where
  time : ℚ
  val : ℚ
  kind : Kind
  off : Bool := false
  deriving DecidableEq

abbrev Arr := Nat → Ev

/-- the arrays are cleared first (`ShioCurrent2.cpp` 513-522) -/
def blank : Ev := ⟨0, 0, .minFlood, false⟩

def put (a : Arr) (i : Nat) (e : Ev) : Arr := fun j => if j = i then e else a j

/-- The two extra events are stored behind the events (`ShioCurrent2.cpp` 901-911); `cap` is `maxMinHdlNumElements`, to which `maxPeaks` is equal after 434.
`none` = error 41. -/
def store (cap : Nat) (evs : List Ev) (zero last : Ev) : Option Arr :=
  let n := evs.length
  if cap - 1 ≤ n then none
  else
    let a := put (fun i => evs.getD i blank) n zero
    let n' := if n + 1 < cap then n + 1 else n
    some (put a (n' + 1) last)

/-- the corrections of a subordinate station -/
structure Offset where
  minFlood : ℚ
  maxFlood : ℚ
  minEbb : ℚ
  maxEbb : ℚ
  floodRatio : ℚ
  ebbRatio : ℚ
  deriving DecidableEq

/-- `ShioCurrent1.cpp` 977-1001, for each of the events and the two extra ones -/
def correct (o : Offset) (e : Ev) : Ev :=
  match e.kind with
  | .maxFlood => { e with time := e.time + o.maxFlood, val := e.val * o.floodRatio }
  | .minFlood => { e with time := e.time + o.minFlood, val := if o.minFlood ≠ 0 then 0 else e.val }
  | .minEbb => { e with time := e.time + o.minEbb, val := if o.minEbb ≠ 0 then 0 else e.val }
  | .maxEbb => { e with time := e.time + o.maxEbb, val := e.val * o.ebbRatio }

/-- One pair in the check of the order (1035-1063). The test of `flag` in 1048-1051 holds for both values that a flag can have, 0 and 2. -/
def fixPair (fixing : Bool) (s : Arr × Bool) (i : Nat) : Arr × Bool :=
  if (s.1 i).time < (s.1 (i - 1)).time then
    if fixing then
      let avg := ((s.1 i).time + (s.1 (i - 1)).time) / 2
      (put (put s.1 (i - 1) { s.1 (i - 1) with time := avg - 1 / 120 }) i { s.1 i with time := avg + 1 / 120 }, true)
    else (put (put s.1 i { s.1 i with off := true }) (i - 1) { s.1 (i - 1) with off := true }, s.2)
  else s

/-- one of the five tries: the pairs 1 to `n - 1` -/
def tryOnce (n : Nat) (fixing : Bool) (a : Arr) : Arr × Bool := (List.range' 1 (n - 1)).foldl (fixPair fixing) (a, false)

/-- the tries (1032-1067); `k` are left -/
def order (n : Nat) : Nat → Arr → Arr
  | 0, a => a
  | k + 1, a =>
    let r := tryOnce n (decide (0 < k) && decide (2 < n)) a
    if r.2 then order n k r.1 else r.1

/-- the events that take part in the curve (`CurveFitOffsetCurve` 658-669) -/
def kept (n : Nat) (a : Arr) : List Ev := ((List.range (n + 2)).map a).filter (fun e => !e.off)

/-- which events are before and after `t` (`GetFloodEbbKey` 2266-2315), of `m` events and the two extra ones; `none` = error 40 -/
def segment (L : Arr) (m : Nat) (t : ℚ) : Option (Nat × Nat) :=
  if t < (L 0).time ∧ t < (L m).time then none
  else if (L (m - 1)).time < t then if (L (m + 1)).time < t then none else some (m - 1, m + 1)
  else if t < (L 0).time then some (m, 0)
  else ((List.range m).find? (fun i => decide (t < (L i).time))).map (fun i => (i - 1, i))

/-- at which ends the slope is zero -/
inductive Shape where
  | minToMax | maxToMin | maxToMax | free
  deriving DecidableEq, Repr

/-- the rest of `GetFloodEbbKey` (2317-2406) -/
def shape (a b : Ev) : Option Shape :=
  if a.val = 0 then if b.val = 0 then none else some .minToMax
  else if b.val = 0 then some .maxToMin
  else match a.kind, b.kind with
    | .minFlood, .maxFlood => some .minToMax
    | .minEbb, .maxEbb => some .minToMax
    | .maxFlood, .maxEbb => some .maxToMax
    | .maxFlood, .minEbb => some .maxToMin
    | .maxFlood, .maxFlood => some .free
    | .maxEbb, .maxFlood => some .maxToMax
    | .maxEbb, .minFlood => some .maxToMin
    | .maxEbb, .maxEbb => some .free
    | _, _ => none

/-- times and values of four events around `t` -/
structure Four where
  t0 : ℚ
  v0 : ℚ
  t1 : ℚ
  v1 : ℚ
  t2 : ℚ
  v2 : ℚ
  t3 : ℚ
  v3 : ℚ
  deriving DecidableEq

/-- `GetFloodEbbSpans` with `whatFlag` 0; `next` is the first of the `m` events after `t` and `previous` the one before it -/
def spans (L : Arr) (m : Nat) (t : ℚ) : Four :=
  let next := (List.range m).find? (fun i => decide (t < (L i).time))
  let prev : Option Nat := match next with
    | none => some (m - 1)
    | some 0 => none
    | some (i + 1) => some i
  let p : ℚ × ℚ × ℚ × ℚ := match prev with
    | some 0 => ((L m).time, (L m).val, (L 0).time, (L 0).val)
    | some (i + 1) => ((L i).time, (L i).val, (L (i + 1)).time, (L (i + 1)).val)
    | none => ((L m).time - ((L 0).time - (L m).time), (L m).val - ((L 0).val - (L m).val), (L m).time, (L m).val)
  let q : ℚ × ℚ × ℚ × ℚ := match next with
    | some i => if i + 1 < m then ((L i).time, (L i).val, (L (i + 1)).time, (L (i + 1)).val)
        else ((L i).time, (L i).val, (L (m + 1)).time, (L (m + 1)).val)
    | none => ((L (m + 1)).time, (L (m + 1)).val, (L (m + 1)).time + ((L (m + 1)).time - (L (m - 1)).time),
        (L (m + 1)).val + ((L (m + 1)).val - (L (m - 1)).val))
  ⟨p.1, p.2.1, p.2.2.1, p.2.2.2, q.1, q.2.1, q.2.2.1, q.2.2.2⟩

/-- `Hermite` (`CompFunctions.cpp` 31-59); `tol` is `TIMEVALUE_TOLERANCE` -/
def hermite (tol v1 s1 t1 v2 s2 t2 t : ℚ) : ℚ :=
  if (if t2 - t1 < 0 then -(t2 - t1) else t2 - t1) < tol then v2
  else
    let x := (t - t1) / (t2 - t1)
    (2 * v1 - 2 * v2 + s1 * (t2 - t1) + s2 * (t2 - t1)) * x * x * x +
      (-3 * v1 + 3 * v2 - 2 * (s1 * (t2 - t1)) - s2 * (t2 - t1)) * x * x + s1 * (t2 - t1) * x + v1

/-- `DoHermite` (789-826) as it is called in 697-771 -/
def curve (tol : ℚ) (f : Four) (s : Shape) (t : ℚ) : ℚ :=
  let chord := (f.v2 - f.v1) / (f.t2 - f.t1)
  let before := ((f.v1 - f.v0) / (f.t1 - f.t0) + chord) * (1 / 2)
  let after := ((f.v3 - f.v2) / (f.t3 - f.t2) + chord) * (1 / 2)
  match s with
  | .maxToMin => hermite tol f.v1 0 f.t1 f.v2 after f.t2 t
  | .minToMax => hermite tol f.v1 before f.t1 f.v2 0 f.t2 t
  | .maxToMax => hermite tol f.v1 0 f.t1 f.v2 0 f.t2 t
  | .free => hermite tol f.v1 before f.t1 f.v2 after f.t2 t

/-- the value at a time, if there is no error -/
def fit (tol : ℚ) (L : Arr) (m : Nat) (t : ℚ) : Option ℚ :=
  (segment L m t).bind fun ij => (shape (L ij.1) (L ij.2)).map fun s => curve tol (spans L m t) s t

/-- One sample of the curve (676-776): number `i` of the reference curve `ref` is replaced, or left as it is in case of an error. `step` is in hours. -/
def sample (tol : ℚ) (L : Arr) (m : Nat) (start stop step : ℚ) (i : Nat) (ref : ℚ × ℚ) : ℚ × ℚ :=
  let t := if stop < start + i * step then stop else start + i * step
  match fit tol L m t with
  | some v => (t, v)
  | none => ref

/-- the events of a station as `DoOffSetCurrents` hands them to `CurveFitOffsetCurve` -/
def events (o : Offset) (n : Nat) (a : Arr) : List Ev :=
  kept n (order n 5 (fun i => if i < n + 2 then correct o (a i) else a i))

/-- the array of these events, and how many there are without the two extra ones -/
def arrayOf (l : List Ev) : Arr := fun i => l.getD i blank

/-- a station: events of the reference curve and the two extra ones, corrections; the value at a time -/
def station (tol : ℚ) (cap : Nat) (evs : List Ev) (zero last : Ev) (o : Offset) (t : ℚ) : Option (Option ℚ) :=
  (store cap evs zero last).map fun a =>
    let l := events o evs.length a
    fit tol (arrayOf l) (l.length - 2) t

end Verif.Shio.StationCur
