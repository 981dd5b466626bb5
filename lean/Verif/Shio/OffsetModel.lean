import Mathlib.Algebra.Order.Field.Rat
import Mathlib.Tactic.Linarith
import Mathlib.Tactic.NormNum
import Mathlib.Tactic.Ring
import Mathlib.Tactic.FieldSimp
import Mathlib.Tactic.Positivity
import Mathlib.Data.List.Forall2

/-!
# Time and height offsets of a subordinate tide station

Sources: `py_gnome/lib_gnome/ShioHeight.cpp` `DoOffSetCorrection` (539-848), `GetWeights` (1497-1558), `Hermite`
(`CompFunctions.cpp:31-59`).

Simplifications: times and heights are rationals.  In `GetWeights` the variables `t0`, `t1` keep the value 0 if the
search finds nothing; the weights, a division by zero there, are 0 here (the theorems show that it does not
happen).  The two extra times are shifted by the offset of the types stored behind the last high or low, which
the arrays still hold as 0, "low" (the code reads and writes two entries more than there are highs and lows, and
can leave the arrays when `maxPeaks` is reached).
-/

namespace Verif.Shio.Offset

/-- A high (`true`) or low with its time. -/
abbrev Knot := ℚ × Bool

/-- Entry `i` of the times. -/
def timeAt (P : List Knot) (i : Nat) : ℚ := (P.getD i (0, false)).1

/-- Entry `i` of the types. -/
def typeAt (P : List Knot) (i : Nat) : Bool := (P.getD i (0, false)).2

/-- The weights (1553-1554). -/
def wts (t0 t1 t : ℚ) : ℚ × ℚ := ((t1 - t) / (t1 - t0), 1 - (t1 - t) / (t1 - t0))

/-- The search from the last entry down to `start` (1540-1548), entries below `n`. -/
def findDown (P : List Knot) (t : ℚ) (start : Nat) : Nat → Option Nat
  | 0 => none
  | i + 1 => if i < start then none else if timeAt P i ≤ t then some i else findDown P t start i

/-- `GetWeights` (1497-1558): `none` for the index is -99, `none` for the weights the error.  `z` and `l` are the
extra times before the first and after the last. -/
def getWeights (P : List Knot) (z l t : ℚ) (ix : Option Nat) : Option (ℚ × ℚ) × Option Nat :=
  let mid (start : Nat) : Option (ℚ × ℚ) × Option Nat :=
    if t > timeAt P (P.length - 1) then (some (wts (timeAt P (P.length - 1)) l t), some (P.length - 1))
    else if t < timeAt P 0 then (some (wts z (timeAt P 0) t), none)
    else
      match findDown P t start P.length with
      | some i => (some (wts (timeAt P i) (if i + 1 = P.length then z else timeAt P (i + 1)) t), some i)
      | none => (some (wts 0 0 t), some start)
  match ix with
  | none =>
    if t < timeAt P 0 then
      if t < z then (none, none) else (some (wts z (timeAt P 0) t), none)
    else mid 0
  | some s => mid s

/-- The time of one sample (717-748). -/
def shiftTime (off : Bool → ℚ) (P : List Knot) (z l t : ℚ) (ix : Option Nat) : ℚ × Option Nat :=
  let (w, ix) := getWeights P z l t ix
  let highToLow : Bool :=
    match ix with
    | none => !typeAt P 0
    | some i => typeAt P i
  match w with
  | none => (t, ix)
  | some (w1, w2) =>
    (if highToLow then t + (off false * w2 + off true * w1) else t + (off false * w1 + off true * w2), ix)

/-- The loop over the samples (717-748). -/
def shiftTimes (off : Bool → ℚ) (P : List Knot) (z l : ℚ) : Option Nat → List ℚ → List ℚ
  | _, [] => []
  | ix, t :: ts =>
    let r := shiftTime off P z l t ix
    r.1 :: shiftTimes off P z l r.2 ts

/-- The highs and lows themselves (683-694) and the check of their order (699-704, error 24). -/
def shiftPeaks (off : Bool → ℚ) (P : List Knot) : Option (List Knot) :=
  let Q := P.map fun p => (p.1 + off p.2, p.2)
  if Q.IsChain (fun a b => ¬ b.1 < a.1) then some Q else none

/-- `Hermite` (`CompFunctions.cpp:31-59`) with both slopes zero: the value from `v1` at `t1` to `v2` at `t2`.  The slopes
that `DoOffSetCorrection` computes (750-777) are used at the ends only, where they are zero. -/
def hermite0 (tol v1 t1 v2 t2 t : ℚ) : ℚ :=
  let dt := if t2 - t1 < 0 then -(t2 - t1) else t2 - t1
  if dt < tol then v2
  else
    let x := (t - t1) / (t2 - t1)
    (2 * v1 - 2 * v2) * (x * x * x) + (-3 * v1 + 3 * v2) * (x * x) + v1

/-- The loop over the samples that corrects the heights (783-837); `Q` are the shifted highs and lows, `z` and `l` the
shifted extra times, `m` the factor and `a` the summand of highs and lows.  When `j` is the number of highs and
lows the loop ends. -/
def fixHeights (tol : ℚ) (m a : Bool → ℚ) (Q : List Knot) (z l : ℚ) : Nat → List (ℚ × ℚ) → List (ℚ × ℚ)
  | _, [] => []
  | j, (t, v) :: rest =>
    if j < Q.length then
      let j' := if t > timeAt Q j then j + 1 else j
      let t0 := if j' = 0 then z else timeAt Q (j' - 1)
      let t1 := if j' = Q.length then l else timeAt Q j'
      let ty := typeAt Q j'
      let M := hermite0 tol (m (!ty)) t0 (m ty) t1 t
      let A := hermite0 tol (a (!ty)) t0 (a ty) t1 t
      (t, v * M + A) :: fixHeights tol m a Q z l j' rest
    else (t, v) :: rest

end Verif.Shio.Offset
