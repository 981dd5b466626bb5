import Verif.Mover.MoveProps
import Mathlib.Analysis.Normed.Group.Constructions
import Mathlib.Analysis.Normed.Module.Basic
import Mathlib.Tactic.Ring
import Mathlib.Tactic.Linarith
import Mathlib.Tactic.NormNum
import Mathlib.Tactic.Module

/-!
# Two currents, or two winds, and their sum (C366)
-/

namespace Verif.Mover
open Verif.Integ Verif.TimeUtil

/-- A current followed with a numerical method, without uncertainty. -/
noncomputable def flow (m : Method) (z : Zone) (dt : Rat) (t : Int) (vel : V → Rat → V) : AnyMover :=
  .current true 1 (delta m z vel dt t) fun _ => none

/-- A wind followed with a numerical method, without uncertainty. -/
noncomputable def blow (m : Method) (z : Zone) (dt : Rat) (t : Int) (vel : V → Rat → V) : AnyMover :=
  .wind true 1 (delta m z vel dt t) fun _ => none

/-- C366 in full: two currents move the elements as their sum does. -/
def C366_claim : Prop := ∀ (m : Method) (z : Zone) (dt : Rat) (t : Int) (f g : V → Rat → V) (els : List LE),
  nextPositions dt [flow m z dt t f, flow m z dt t g] els = nextPositions dt [flow m z dt t fun p s => f p s + g p s] els

theorem m2l_add (a b p : V) : m2l (a + b) p = m2l a p + m2l b p := by
  refine Prod.ext ?_ (Prod.ext ?_ rfl) <;> simp only [m2l, Prod.fst_add, Prod.snd_add] <;> ring

/-- Where the fields are the same everywhere (they may change with time), or with Euler's method, the methods add up. -/
theorem delta_add (m : Method) (z : Zone) (dt : Rat) (t : Int) (f g : V → Rat → V)
    (h : m = .euler ∨ ∀ p q s, f p s = f q s ∧ g p s = g q s) (p : V) :
    delta m z (fun p s => f p s + g p s) dt t p = delta m z f dt t p + delta m z g dt t p := by
  rcases h with rfl | h
  · simp only [delta, euler]
    exact smul_add _ _ _
  · have hf : ∀ q s, f q s = f p s := fun q s => (h q p s).1
    have hg : ∀ q s, g q s = g p s := fun q s => (h q p s).2
    cases m <;> simp only [delta, euler, rk2, rk4]
    · exact smul_add _ _ _
    · simp only [hf, hg]; module
    · simp only [hf, hg]; module

theorem row_two (a b c : AnyMover) (dt : ℝ) (els : List LE) (fa fb fc : Nat → LE → V) (ha : a.move dt els = some (rowwise fa els))
    (hb : b.move dt els = some (rowwise fb els)) (hc : c.move dt els = some (rowwise fc els)) (h : ∀ i e, fc i e = fa i e + fb i e) :
    nextPositions dt [a, b] els = nextPositions dt [c] els := by
  simp only [nextPositions, List.foldl_cons, List.foldl_nil, ha, hb, hc, Option.bind_some, Option.map_some, Option.some.injEq]
  unfold rowwise
  apply List.ext_getElem?
  intro i
  simp only [List.getElem?_zipWith, List.getElem?_map, List.getElem?_mapIdx]
  cases els[i]? with
  | none => rfl
  | some e => simp only [Option.map_some, h, add_assoc]

theorem currentRow_add (scale : ℝ) (f g h : V → V) (e : LE) (hs : h e.pos = f e.pos + g e.pos) :
    currentRow true scale h none e = currentRow true scale f none e + currentRow true scale g none e := by
  unfold currentRow
  simp only [if_true]
  by_cases hi : inWater e
  · rw [if_pos hi, if_pos hi, if_pos hi, hs, smul_add, m2l_add]
  · rw [if_neg hi, if_neg hi, if_neg hi, add_zero]

theorem windRow_add (scale dt : ℝ) (f g h : V → V) (e : LE) (hs : h e.pos = f e.pos + g e.pos) :
    windRow true scale dt h none e = windRow true scale dt f none e + windRow true scale dt g none e := by
  unfold windRow
  simp only [if_true]
  by_cases hi : inWater e
  · rw [if_pos hi, if_pos hi, if_pos hi, hs, ← m2l_add]
    congr 1
    refine Prod.ext ?_ (Prod.ext ?_ rfl) <;> simp only [Prod.fst_add, Prod.snd_add] <;> ring
  · rw [if_neg hi, if_neg hi, if_neg hi, add_zero]

/-- C366 for currents with Euler's method, and for currents that are the same everywhere with every method. -/
theorem C366_currents_partial (m : Method) (z : Zone) (dt : Rat) (t : Int) (f g : V → Rat → V) (els : List LE)
    (h : m = .euler ∨ ∀ p q s, f p s = f q s ∧ g p s = g q s) :
    nextPositions dt [flow m z dt t f, flow m z dt t g] els = nextPositions dt [flow m z dt t fun p s => f p s + g p s] els :=
  row_two _ _ _ _ _ _ _ _ rfl rfl rfl fun _ e => currentRow_add 1 _ _ _ e (delta_add m z dt t f g h e.pos)

/-- The same for winds. -/
theorem C366_winds_partial (m : Method) (z : Zone) (dt : Rat) (t : Int) (f g : V → Rat → V) (els : List LE)
    (h : m = .euler ∨ ∀ p q s, f p s = f q s ∧ g p s = g q s) :
    nextPositions dt [blow m z dt t f, blow m z dt t g] els = nextPositions dt [blow m z dt t fun p s => f p s + g p s] els :=
  row_two _ _ _ _ _ _ _ _ rfl rfl rfl fun _ e => windRow_add 1 _ _ _ _ e (delta_add m z dt t f g h e.pos)

/-- The same for two `PointWindMover`s. -/
theorem C366_point_winds (dt u v u' v' : ℝ) (els : List LE) :
    nextPositions dt [.pointWind true (u, v) fun _ => none, .pointWind true (u', v') fun _ => none] els =
      nextPositions dt [.pointWind true (u + u', v + v') fun _ => none] els := by
  refine row_two _ _ _ _ _ _ _ _ rfl rfl rfl fun _ e => ?_
  unfold pointWindRow
  simp only [if_true]
  by_cases hi : inWater e
  · rw [if_pos hi, if_pos hi, if_pos hi]
    split
    · rw [add_zero]
    · refine Prod.ext ?_ (Prod.ext ?_ ?_) <;> simp only [Prod.fst_add, Prod.snd_add] <;> ring
  · rw [if_neg hi, if_neg hi, if_neg hi, add_zero]

/-- The same for two `SimpleMover`s. -/
theorem C366_simple (dt : ℝ) (a b : V) (s s' : ℝ) (r r' : Nat → V) (els : List LE) :
    nextPositions dt [.simple a s true true false r, .simple b s' true true false r'] els =
      nextPositions dt [.simple (a + b) s true true false r] els := by
  refine row_two _ _ _ _ _ _ _ _ rfl rfl rfl fun _ e => ?_
  unfold simpleRow
  simp only [and_self, if_true, Bool.false_eq_true, if_false]
  by_cases hi : inWater e
  · rw [if_pos hi, if_pos hi, if_pos hi, ← m2l_add]
    congr 1
    refine Prod.ext ?_ (Prod.ext ?_ ?_) <;> simp only [Prod.fst_add, Prod.snd_add] <;> ring
  · rw [if_neg hi, if_neg hi, if_neg hi, m2l_zero, add_zero]

/-- One current flows east, the faster the further north; the other one north. -/
noncomputable def sheared (p : V) (_ : Rat) : V := (p.2.1, 0, 0)
noncomputable def northward (_ : V) (_ : Rat) : V := (0, 1, 0)

/-- With the methods of Runge and Kutta the sum of two currents is not followed by following both: neither knows of the other. -/
theorem C366_counterexample_rk2 (z : Zone) :
    nextPositions ((1 : Rat) : ℝ) [flow .rk2 z 1 0 sheared, flow .rk2 z 1 0 northward] [⟨(0, 0, 0), 2, 0, 0⟩] ≠
      nextPositions ((1 : Rat) : ℝ) [flow .rk2 z 1 0 fun p s => sheared p s + northward p s] [⟨(0, 0, 0), 2, 0, 0⟩] := by
  intro h
  simp [nextPositions, flow, AnyMover.move, rowwise, currentRow, inWater, delta, rk2, sheared, northward, m2l] at h
  norm_num [Rat.smul_def] at h

theorem C366_counterexample : ¬ C366_claim := fun h =>
  C366_counterexample_rk2 ⟨0, fun _ => false, 0⟩ (h .rk2 ⟨0, fun _ => false, 0⟩ 1 0 sheared northward _)

/-- How far the look-ahead along one field misses the other: where each field changes by no more than `L`, `M` times the way, the moves by RK2 differ from
the move of the sum by no more than half a step of these changes over the way that the other field goes in a step. (The largest component counts.) -/
theorem C366_near_partial (z : Zone) (dt : Rat) (t : Int) (f g : V → Rat → V) (p : V) (L M : ℝ) (hf : ∀ p q s, ‖f p s - f q s‖ ≤ L * ‖p - q‖)
    (hg : ∀ p q s, ‖g p s - g q s‖ ≤ M * ‖p - q‖) :
    ‖delta .rk2 z (fun p s => f p s + g p s) dt t p - (delta .rk2 z f dt t p + delta .rk2 z g dt t p)‖ ≤
      |((dt / 2 : Rat) : ℝ)| * (L * ‖m2l (dt • g p t) p‖ + M * ‖m2l (dt • f p t) p‖) := by
  simp only [delta, rk2, smul_add, m2l_add]
  set T := secToDatetime z (dateToSec z t + dt)
  have e : (dt / 2) • f p t + (dt / 2) • g p t + ((dt / 2) • f (p + (m2l (dt • f p t) p + m2l (dt • g p t) p)) T +
      (dt / 2) • g (p + (m2l (dt • f p t) p + m2l (dt • g p t) p)) T) -
      ((dt / 2) • f p t + (dt / 2) • f (p + m2l (dt • f p t) p) T + ((dt / 2) • g p t + (dt / 2) • g (p + m2l (dt • g p t) p) T)) =
      ((dt / 2 : Rat) : ℝ) • ((f (p + (m2l (dt • f p t) p + m2l (dt • g p t) p)) T - f (p + m2l (dt • f p t) p) T) +
        (g (p + (m2l (dt • f p t) p + m2l (dt • g p t) p)) T - g (p + m2l (dt • g p t) p) T)) := by
    rw [Rat.cast_smul_eq_qsmul]
    module
  rw [e, norm_smul, Real.norm_eq_abs]
  refine mul_le_mul_of_nonneg_left ((norm_add_le _ _).trans (add_le_add ?_ ?_)) (abs_nonneg _)
  · refine (hf _ _ _).trans_eq ?_
    congr 2
    abel
  · refine (hg _ _ _).trans_eq ?_
    congr 2
    abel

/-- Euler's method follows the two currents of the counterexample as their sum. -/
example (z : Zone) (els : List LE) : nextPositions ((900 : Rat) : ℝ) [flow .euler z 900 0 sheared, flow .euler z 900 0 northward] els =
    nextPositions ((900 : Rat) : ℝ) [flow .euler z 900 0 fun p s => sheared p s + northward p s] els :=
  C366_currents_partial _ _ _ _ _ _ _ (.inl rfl)

/-- A wind that freshens with time and a steady one, followed with RK4. -/
example (z : Zone) (els : List LE) :
    nextPositions ((900 : Rat) : ℝ) [blow .rk4 z 900 0 fun _ s => ((s : ℝ), 0, 0), blow .rk4 z 900 0 northward] els =
      nextPositions ((900 : Rat) : ℝ) [blow .rk4 z 900 0 fun _ s => ((s : ℝ), 0, 0) + (0, 1, 0)] els :=
  C366_winds_partial _ _ _ _ _ _ _ (.inr fun _ _ _ => ⟨rfl, rfl⟩)

end Verif.Mover
