import Mathlib.Algebra.Order.Field.Rat
import Mathlib.Tactic.Linarith
import Mathlib.Tactic.NormNum
import Mathlib.Tactic.Ring
import Mathlib.Data.List.Forall2

/-!
# Highs and lows of a tide station

Sources: `py_gnome/lib_gnome/ShioHeight.cpp` `FindHighLow` (944-1022), `GetReferenceCurve` (1170-1494).

Simplifications: times are whole minutes (`GetTideHeight` fixes the step at ten minutes, line 75; hours that are
not whole minutes by the offsets of a station are shifted by a constant); heights are rationals and the height
of the water at a time is a parameter, instead of `RStatHeight`.  The two extra times of `FindExtraHL` are left out.
-/

namespace Verif.Shio

/-- A high (`high = true`) or low: `HighLowTimes`, `HighLow`, `HighLowHeights`. -/
structure Peak where
  time : Int
  high : Bool
  height : ℚ
  deriving DecidableEq, Repr

/-- The loop of `FindHighLow` (985-1006), `n` steps from `t0`. -/
def findLoop (h : Int → ℚ) (high : Bool) (t0 : Int) : Nat → Option Int
  | 0 => none
  | n + 1 =>
    let h0 := h t0
    let h1 := h (t0 + 1)
    if high = false then
      if h1 ≥ h0 then some t0 else findLoop h high (t0 + 1) n
    else
      if h1 < h0 then some t0 else findLoop h high (t0 + 1) n

/-- `FindHighLow` (944-1022): height and time. -/
def findHighLow (h : Int → ℚ) (t0 t2 : Int) (high : Bool) : ℚ × Int :=
  let mid := (t0 + t2) / 2
  if t2 - t0 ≤ 3 then (h mid, mid)
  else
    match findLoop h high t0 (t2 - t0).toNat with
    | none => (0, mid)
    | some t => (h t, t)

/-- The variables of the loop of `GetReferenceCurve`. -/
structure Scan where
  old : ℚ
  s1 : ℚ
  s2 : ℚ
  t0 : Int
  t1 : Int
  t2 : Int
  peaks : List Peak
  deriving Repr

/-- Before the loop (1330-1338). -/
def scan0 (b : Int) : Scan := ⟨0, 1, 1, b, b, b, []⟩

/-- How `GetReferenceCurve` ends. -/
inductive Ended
  /-- Error 16. -/
  | flat
  /-- `err = 41`: jumps to the end, where `errorFlag` is 0; nothing is stored in the answers (1389, 1421, 1434). -/
  | full
  deriving DecidableEq, Repr

/-- Store a high or low (1418-1426, 1431-1439). -/
def store (maxPeaks : Nat) (st : Scan) (p : Peak) : Except Ended Scan :=
  if maxPeaks ≤ st.peaks.length then .error .full else .ok { st with peaks := st.peaks ++ [p] }

/-- Step `i` of the loop (1350-1449) at the time `t`. -/
def scanStep (h : Int → ℚ) (maxPeaks : Nat) (i : Nat) (t : Int) (st : Scan) : Except Ended Scan :=
  let ht := h t
  if i = 0 then .ok { st with old := ht }
  else
    let st' :=
      if i = 1 then { st with s1 := ht - st.old, s2 := ht - st.old, t1 := t, t2 := t }
      else if i = 2 then { st with s2 := ht - st.old, t2 := t }
      else { st with s1 := st.s2, s2 := ht - st.old, t0 := st.t1, t1 := st.t2, t2 := t }
    let r :=
      if st'.s1 = 0 then
        let mid := (st'.t0 + st'.t1) / 2
        let hm := h mid
        if maxPeaks ≤ st'.peaks.length then .error .full
        else if hm > st'.old then store maxPeaks st' ⟨mid, true, hm⟩
        else .error .flat
      else if st'.s2 = 0 then .ok st'
      else if st'.s1 < 0 ∧ st'.s2 > 0 then
        let f := findHighLow h st'.t0 t false
        store maxPeaks st' ⟨f.2, false, f.1⟩
      else if st'.s1 > 0 ∧ st'.s2 < 0 then
        let f := findHighLow h st'.t0 t true
        store maxPeaks st' ⟨f.2, true, f.1⟩
      else .ok st'
    r.map fun s => { s with old := ht }

/-- The time of sample `i` (1452). -/
def sampleTime (b : Int) (i : Nat) : Int := b + 10 * i

/-- The first `n` steps. -/
def scan (h : Int → ℚ) (maxPeaks : Nat) (b : Int) : Nat → Except Ended Scan
  | 0 => .ok (scan0 b)
  | n + 1 => (scan h maxPeaks b n).bind (scanStep h maxPeaks n (sampleTime b n))

/-- What `GetReferenceCurve` returns: `errorFlag` (1469-1494); 0 means success. -/
def returnCode : Except Ended Scan → Nat
  | .ok _ => 0
  | .error .flat => 16
  | .error .full => 0

end Verif.Shio
