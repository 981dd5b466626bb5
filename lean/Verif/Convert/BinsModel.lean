import Mathlib.Analysis.SpecialFunctions.Pow.Real
import Mathlib.Algebra.Order.Field.Rat

/-!
# Contours by cutoffs, and droplet sizes within bounds

Model of the selection of elements in `calculate_contours` (`gnome/utilities/hull.py` 133-149) and of `WeibullDistribution`
(`gnome/utilities/distributions.py` 184-258, `gnome/utilities/compute_fraction.py`).

Simplifications: hulls are left out, a contour is the set of its elements; real numbers instead of floats.
-/

namespace Verif.Convert

/-- Whether an element with value `x` belongs to contour `i` (`gnome/utilities/hull.py` 137-149). -/
def inContour (cs : List ℚ) (i : Nat) (x : ℚ) : Bool :=
  if i = 0 then (match cs[0]? with
    | some c => decide (x ≤ c)
    | none => false)
  else if i = cs.length - 1 then (match cs[i - 1]? with
    | some c => decide (x ≥ c)
    | none => false)
  else match cs[i - 1]?, cs[i]? with
    | some b, some c => decide (x ≤ c) && decide (x ≥ b)
    | _, _ => false

/-- The elements of each contour of a spill; elements are a spill number and a value (133-136). -/
def contours (cs : List ℚ) (spill : Nat) (elems : List (Nat × ℚ)) : List (List (Nat × ℚ)) :=
  (List.range cs.length).map fun i => (elems.filter fun e => e.1 == spill).filter fun e => inContour cs i e.2

/-! ## Weibull -/

/-- `fraction_below_d` (`gnome/utilities/compute_fraction.py` 15-18). -/
noncomputable def fractionBelow (d α l : ℝ) : ℝ := 1 - Real.exp (-(d / l) ^ α)

structure Weibull where
  α : ℝ
  l : ℝ
  lo : Option ℝ
  hi : Option ℝ

/-- `_check_weibull_args` (`gnome/utilities/distributions.py` 211-238): what is accepted, `alpha` being given. -/
def Weibull.accepted (w : Weibull) : Prop :=
  (∀ m, w.lo = some m → 0 ≤ m ∧ fractionBelow m w.α w.l ≤ 999 / 1000) ∧
    ∀ m, w.hi = some m → 0 < m ∧ 1 / 1000 ≤ fractionBelow m w.α w.l ∧ (∀ k, w.lo = some k → k ≤ m) ∧ 5 / 100000 ≤ m

open Classical in
/-- Whether a draw is kept (240-255). -/
noncomputable def Weibull.keeps (w : Weibull) (x : ℝ) : Bool := match w.lo, w.hi with
  | some a, some b => !(decide (x < a) || decide (x > b))
  | some a, none => !decide (x < a)
  | none, some b => !decide (x > b)
  | none, none => true

/-- One value of the array: the first of the draws that is kept; `none` when the draws end before. -/
noncomputable def Weibull.draw (w : Weibull) : List ℝ → Option ℝ
  | [] => none
  | x :: l => if w.keeps x then some x else w.draw l

/-- The chance of a draw to be kept. -/
noncomputable def Weibull.chance (w : Weibull) : ℝ :=
  (match w.hi with
    | some b => fractionBelow b w.α w.l
    | none => 1) - (match w.lo with
    | some a => fractionBelow a w.α w.l
    | none => 0)

end Verif.Convert
