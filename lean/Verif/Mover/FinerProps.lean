import Verif.Mover.SteadyProps
import Mathlib.Algebra.BigOperators.Intervals
/-!
# C359: in a steady current the place reached does not depend on the time step

The same run with a time step that is a whole number of times shorter, and as many times more steps.
-/
namespace Verif.Mover
open Verif.TimeUtil Verif.Integ

/-- The claim: a run with the time step `m * d` ends where the run with the time step `d` does. -/
def C359_claim : Prop := ∀ (z : Zone) (w : List Steady) (d : Int) (m n : Nat) (t : Int) (els : List LE), 1 ≤ m → (∀ e ∈ els, inWater e) →
  steadyRun z w (m * d) n t els = steadyRun z w d (m * n) t els

/-- Sums of a function with a longer and a shorter step, for a function that only goes up or only goes down: they differ by no more than one long
step of what it changes by. -/
theorem sums_close (g : ℝ → ℝ) (h : ℝ) (m : Nat) (hm : 1 ≤ m) (n : Nat) (hg : MonotoneOn g (Set.Icc 0 (n : ℝ)) ∨ AntitoneOn g (Set.Icc 0 (n : ℝ))) :
    |∑ k ∈ Finset.range n, h * m * g k - ∑ j ∈ Finset.range (m * n), h * g (j / m)| ≤ |h * m| * |g n - g 0| := by
  have hm0 : (0 : ℝ) < m := by exact_mod_cast hm
  induction n with
  | zero => simp
  | succ n ih =>
    have hsub : Set.Icc (0 : ℝ) n ⊆ Set.Icc 0 ((n + 1 : ℕ) : ℝ) := Set.Icc_subset_Icc le_rfl (by push_cast; linarith)
    have ih := ih (hg.imp (fun h => h.mono hsub) (fun h => h.mono hsub))
    rw [Finset.sum_range_succ, Nat.mul_succ, Finset.sum_range_add]
    have e0 : ∀ j : Nat, ((m * n + j : ℕ) : ℝ) / m = n + j / m := by
      intro j; push_cast; field_simp
    -- one long step
    have hstep : |h * m * g n - ∑ j ∈ Finset.range m, h * g ((m * n + j : ℕ) / m)| ≤ |h * m| * |g ((n + 1 : ℕ) : ℝ) - g n| := by
      have e1 : h * m * g n = ∑ _j ∈ Finset.range m, h * g n := by
        rw [Finset.sum_const, Finset.card_range, nsmul_eq_mul]; ring
      rw [e1, ← Finset.sum_sub_distrib]
      refine (Finset.abs_sum_le_sum_abs _ _).trans ?_
      have e2 : |h * m| * |g ((n + 1 : ℕ) : ℝ) - g n| = ∑ _j ∈ Finset.range m, |h| * |g ((n + 1 : ℕ) : ℝ) - g n| := by
        rw [Finset.sum_const, Finset.card_range, nsmul_eq_mul, abs_mul, abs_of_pos hm0]; ring
      rw [e2]
      refine Finset.sum_le_sum fun j hj => ?_
      have hj : j < m := Finset.mem_range.1 hj
      rw [← mul_sub, abs_mul, e0]
      refine mul_le_mul_of_nonneg_left ?_ (abs_nonneg h)
      have j0 : (0 : ℝ) ≤ (j : ℝ) / m := by positivity
      have j1 : (j : ℝ) / m ≤ 1 := by
        rw [div_le_one hm0]; exact_mod_cast hj.le
      have n0 : (0 : ℝ) ≤ n := Nat.cast_nonneg n
      have m1 : (n : ℝ) ∈ Set.Icc (0 : ℝ) ((n + 1 : ℕ) : ℝ) := ⟨n0, by push_cast; linarith⟩
      have m2 : (n : ℝ) + j / m ∈ Set.Icc (0 : ℝ) ((n + 1 : ℕ) : ℝ) := ⟨by linarith, by push_cast; linarith⟩
      have m3 : ((n + 1 : ℕ) : ℝ) ∈ Set.Icc (0 : ℝ) ((n + 1 : ℕ) : ℝ) := ⟨by positivity, le_rfl⟩
      rcases hg with hg | hg
      · have a1 := hg m1 m2 (by linarith)
        have a2 := hg m2 m3 (by push_cast; linarith)
        rw [abs_of_nonpos (by linarith), abs_of_nonneg (by linarith)]
        linarith
      · have a1 := hg m1 m2 (by linarith)
        have a2 := hg m2 m3 (by push_cast; linarith)
        rw [abs_of_nonneg (by linarith), abs_of_nonpos (by linarith)]
        linarith
    have htot : |g n - g 0| + |g ((n + 1 : ℕ) : ℝ) - g n| = |g ((n + 1 : ℕ) : ℝ) - g 0| := by
      have n0 : (0 : ℝ) ≤ n := Nat.cast_nonneg n
      have m0 : (0 : ℝ) ∈ Set.Icc (0 : ℝ) ((n + 1 : ℕ) : ℝ) := ⟨le_rfl, by positivity⟩
      have m1 : (n : ℝ) ∈ Set.Icc (0 : ℝ) ((n + 1 : ℕ) : ℝ) := ⟨n0, by push_cast; linarith⟩
      have m3 : ((n + 1 : ℕ) : ℝ) ∈ Set.Icc (0 : ℝ) ((n + 1 : ℕ) : ℝ) := ⟨by positivity, le_rfl⟩
      rcases hg with hg | hg
      · have a1 := hg m0 m1 n0
        have a2 := hg m1 m3 (by push_cast; linarith)
        rw [abs_of_nonneg (by linarith), abs_of_nonneg (by linarith), abs_of_nonneg (by linarith)]; ring
      · have a1 := hg m0 m1 n0
        have a2 := hg m1 m3 (by push_cast; linarith)
        rw [abs_of_nonpos (by linarith), abs_of_nonpos (by linarith), abs_of_nonpos (by linarith)]; ring
    rw [← htot, mul_add]
    refine le_trans ?_ (add_le_add ih hstep)
    refine le_trans (le_of_eq ?_) (abs_add_le _ _)
    congr 1; ring

/-- The length of a degree of longitude: it grows towards the pole. -/
theorem shrink_mono : MonotoneOn shrink (Set.Ico 0 90) := by
  intro a ha b hb hab
  unfold shrink
  have hpi := Real.pi_pos
  have h1 : Real.cos (b * (Real.pi / 180)) ≤ Real.cos (a * (Real.pi / 180)) :=
    Real.cos_le_cos_of_nonneg_of_le_pi (by have := ha.1; positivity) (by nlinarith [hb.2]) (by nlinarith)
  have h2 : 0 < Real.cos (b * (Real.pi / 180)) := Real.cos_pos_of_mem_Ioo ⟨by nlinarith [hb.1], by nlinarith [hb.2]⟩
  exact one_div_le_one_div_of_le h2 h1

theorem shrink_neg (x : ℝ) : shrink (-x) = shrink x := by
  unfold shrink
  rw [neg_mul, Real.cos_neg]

/-- A latitude and the one reached are on the same side of the equator, and neither is a pole. -/
def OneSide (a b : ℝ) : Prop := (0 ≤ a ∧ a < 90 ∧ 0 ≤ b ∧ b < 90) ∨ (a ≤ 0 ∧ -90 < a ∧ b ≤ 0 ∧ -90 < b)

/-- On the way the lengths only grow or only shrink. -/
theorem shrink_way (a s : ℝ) (n : Nat) (h : OneSide a (a + n * s)) :
    MonotoneOn (fun x => shrink (a + x * s)) (Set.Icc 0 (n : ℝ)) ∨ AntitoneOn (fun x => shrink (a + x * s)) (Set.Icc 0 (n : ℝ)) := by
  have key : ∀ a s : ℝ, 0 ≤ a ∧ a < 90 ∧ 0 ≤ a + n * s ∧ a + n * s < 90 →
      MonotoneOn (fun x => shrink (a + x * s)) (Set.Icc 0 (n : ℝ)) ∨ AntitoneOn (fun x => shrink (a + x * s)) (Set.Icc 0 (n : ℝ)) := by
    intro a s ⟨h1, h2, h3, h4⟩
    rcases le_total 0 s with hs | hs
    · left
      intro x hx y hy hxy
      have hxs : 0 ≤ x * s := mul_nonneg hx.1 hs
      have hyn : y * s ≤ n * s := mul_le_mul_of_nonneg_right hy.2 hs
      have hxy' : x * s ≤ y * s := mul_le_mul_of_nonneg_right hxy hs
      exact shrink_mono ⟨by linarith, by linarith⟩ ⟨by linarith, by linarith⟩ (by linarith)
    · right
      intro x hx y hy hxy
      have hxs : x * s ≤ 0 := mul_nonpos_of_nonneg_of_nonpos hx.1 hs
      have hyn : n * s ≤ y * s := mul_le_mul_of_nonpos_right hy.2 hs
      have hxy' : y * s ≤ x * s := mul_le_mul_of_nonpos_right hxy hs
      exact shrink_mono ⟨by linarith, by linarith⟩ ⟨by linarith, by linarith⟩ (by linarith)
  rcases h with h | ⟨h1, h2, h3, h4⟩
  · exact key a s h
  · have := key (-a) (-s) ⟨by linarith, by linarith, by linarith, by linarith⟩
    have e : (fun x : ℝ => shrink (-a + x * -s)) = fun x => shrink (a + x * s) := by
      funext x
      rw [← shrink_neg (a + x * s)]
      congr 1; ring
    rwa [e] at this

/-- **C359** with a time step that is `m` times shorter, and `m` times more steps, every element gets to the same latitude and depth; its longitude differs by no
more than what the current goes east in one of the longer steps, times the difference of the lengths of a degree of longitude at the two ends. -/
theorem C359_close (z : Zone) (w : List Steady) (d : Int) (m n : Nat) (t : Int) (els : List LE) (hm : 1 ≤ m) (h : ∀ e ∈ els, inWater e)
    (hs : ∀ e ∈ els, OneSide e.pos.2.1 (e.pos.2.1 + (n * (m * d)) * (current w).2.1 * metre)) :
    ∃ a b, steadyRun z w (m * d) n t els = some a ∧ steadyRun z w d (m * n) t els = some b ∧ List.Forall₂ (fun x y => x.status = y.status ∧ x.pos.2 = y.pos.2) a b ∧
      ∀ (i : Nat) (e x y : LE), els[i]? = some e → a[i]? = some x → b[i]? = some y →
        |x.pos.1 - y.pos.1| ≤ |m * d * (current w).1 * metre| * |shrink x.pos.2.1 - shrink e.pos.2.1| := by
  have hm0 : (m : ℝ) ≠ 0 := by
    have : (0 : ℝ) < m := by exact_mod_cast hm
    exact this.ne'
  refine ⟨_, _, steady_run z w _ n t els h, steady_run z w d _ t els h, ?_, ?_⟩
  · rw [List.forall₂_map_left_iff, List.forall₂_map_right_iff, List.forall₂_same]
    intro e _
    refine ⟨rfl, ?_⟩
    simp only [advance_iter]
    ext
    · simp only; push_cast; ring
    · simp only; push_cast; ring
  · intro i e x y he hx hy
    rw [List.getElem?_map, he, Option.map_some, Option.some.injEq] at hx hy
    subst hx; subst hy
    have hmem := List.mem_of_getElem? he
    simp only [advance_iter]
    set s : ℝ := ((m * d : Int) : ℝ) * (current w).2.1 * metre with hsd
    set E : ℝ := (d : ℝ) * (current w).1 * metre with hE
    have hside := hs e hmem
    have e1 : e.pos.2.1 + (n * (m * d)) * (current w).2.1 * metre = e.pos.2.1 + n * s := by rw [hsd]; push_cast; ring
    rw [e1] at hside
    have hc := sums_close (fun x => shrink (e.pos.2.1 + x * s)) E m hm n (shrink_way _ _ n hside)
    have e2 : ∑ k ∈ Finset.range n, ((m * d : Int) : ℝ) * (current w).1 * metre * shrink (e.pos.2.1 + k * s) =
        ∑ k ∈ Finset.range n, E * m * shrink (e.pos.2.1 + k * s) := by
      refine Finset.sum_congr rfl fun k _ => ?_
      rw [hE]; push_cast; ring
    have e3 : ∑ k ∈ Finset.range (m * n), (d : ℝ) * (current w).1 * metre * shrink (e.pos.2.1 + k * (d * (current w).2.1 * metre)) =
        ∑ j ∈ Finset.range (m * n), E * shrink (e.pos.2.1 + j / m * s) := by
      refine Finset.sum_congr rfl fun k _ => ?_
      rw [hE, hsd]
      congr 3
      push_cast
      field_simp
    rw [e2, e3, add_sub_add_left_eq_sub]
    refine hc.trans (le_of_eq ?_)
    simp only [zero_mul, add_zero]
    congr 2
    rw [hE]; ring

/-- **C359 (partial)** in a current along a parallel or a meridian the place reached is the same (what is missing: other currents, `C359_close`). -/
theorem C359_partial (z : Zone) (w : List Steady) (d : Int) (m n : Nat) (t : Int) (els : List LE) (h : ∀ e ∈ els, inWater e)
    (hc : (current w).1 = 0 ∨ (current w).2.1 = 0) : steadyRun z w (m * d) n t els = steadyRun z w d (m * n) t els := by
  rw [steady_run z w _ n t els h, steady_run z w d _ t els h]
  congr 1
  refine List.map_congr_left fun e _ => ?_
  congr 1
  rw [advance_iter, advance_iter]
  ext
  · rcases hc with hc | hc
    · simp [hc]
    · simp only [hc, mul_zero, zero_mul, add_zero]
      rw [Finset.sum_const, Finset.sum_const, Finset.card_range, Finset.card_range, nsmul_eq_mul, nsmul_eq_mul]
      push_cast; ring
  · simp only; push_cast; ring
  · simp only; push_cast; ring

/-- **C359** fails for a current to the northeast: with two steps an element gets farther east than with one. -/
theorem C359_counterexample : ¬ C359_claim := by
  intro h
  have hw : ∀ e ∈ [atEquator], inWater e := fun e he => by rw [List.mem_singleton.1 he]; rfl
  have hm : metre ≠ 0 := by unfold metre; norm_num
  have h1 := h ⟨0, fun _ => false, 0⟩ [.simple (1 / metre, 60 / metre, 0)] 1 2 1 0 [atEquator] (by norm_num) hw
  rw [steady_run _ _ _ _ _ _ hw, steady_run _ _ _ _ _ _ hw] at h1
  simp only [List.map_cons, List.map_nil, Option.some.injEq, List.cons.injEq, and_true, LE.mk.injEq] at h1
  have h2 := congrArg Prod.fst h1
  rw [advance_iter, advance_iter] at h2
  simp only [current, List.map_cons, List.map_nil, List.sum_cons, List.sum_nil, Steady.velocity, atEquator, add_zero, zero_add, Finset.sum_range_succ,
    Finset.sum_range_zero, Nat.mul_one] at h2
  have h60 : shrink 60 = 2 := by
    unfold shrink
    rw [show (60 : ℝ) * (Real.pi / 180) = Real.pi / 3 by ring, Real.cos_pi_div_three]; norm_num
  have h0 : shrink 0 = 1 := by unfold shrink; simp
  have e1 : 1 / metre * metre = 1 := by field_simp
  have e2 : 60 / metre * metre = 60 := by field_simp
  push_cast at h2
  simp only [zero_mul, one_mul, mul_assoc, e1, e2, h0, h60] at h2
  norm_num at h2

/-- Two movers of a current along a parallel: a day in steps of an hour and of ten minutes. -/
example : steadyRun ⟨0, fun _ => false, 0⟩ [.simple (1, 0, 0), .current .rk2 2 (3, 0, 0)] ((6 : Nat) * 600) 24 0 [atEquator] =
    steadyRun ⟨0, fun _ => false, 0⟩ [.simple (1, 0, 0), .current .rk2 2 (3, 0, 0)] 600 (6 * 24) 0 [atEquator] :=
  C359_partial _ _ _ _ _ _ _ (fun e he => by rw [List.mem_singleton.1 he]; rfl) (Or.inr (by simp [current, Steady.velocity]))

/-- A day with a current of a metre per second to the northeast stays on one side of the equator. -/
example : OneSide 45 (45 + (24 * (6 * 600)) * 1 * metre) := by
  left; unfold metre; norm_num

end Verif.Mover
