import Verif.Convert.BinsModel
import Mathlib.Analysis.Complex.ExponentialBounds
import Mathlib.Tactic.Linarith
import Mathlib.Tactic.NormNum
import Mathlib.Tactic.Positivity

/-!
# C119, C120: contours and droplet sizes
-/

namespace Verif.Convert

/-! ## C119 -/

/-- The claim: every element of a spill is in exactly one of its contours. -/
def C119_claim : Prop := ∀ (cs : List ℚ) (x : ℚ), cs ≠ [] → cs.Pairwise (· < ·) → ∃! i, i < cs.length ∧ inContour cs i x = true

/-- **C119** fails for a single cutoff: what is above is in no contour. -/
theorem C119_counterexample_above : ¬ C119_claim := by
  intro h
  obtain ⟨i, ⟨h1, h2⟩, -⟩ := h [1] 2 (by simp) (by simp)
  have : i = 0 := by simp at h1; exact h1
  subst this
  norm_num [inContour] at h2

/-- **C119** fails at a cutoff: the element is in two contours. -/
theorem C119_counterexample_twice : ¬ C119_claim := by
  intro h
  obtain ⟨i, -, hu⟩ := h [1, 2, 3] 1 (by simp) (by norm_num)
  have h0 := hu 0 ⟨by simp, by norm_num [inContour]⟩
  have h1 := hu 1 ⟨by simp, by norm_num [inContour]⟩
  omega

theorem sorted_get {cs : List ℚ} (h : cs.Pairwise (· < ·)) {i j : Nat} (hij : i < j) {a b : ℚ} (ha : cs[i]? = some a) (hb : cs[j]? = some b) : a < b := by
  obtain ⟨hi, rfl⟩ := List.getElem?_eq_some_iff.mp ha
  obtain ⟨hj, rfl⟩ := List.getElem?_eq_some_iff.mp hb
  exact List.pairwise_iff_getElem.mp h i j hi hj hij

/-- What it means to be in a contour: not above its cutoff unless it is the last of several, not below that of the one before. -/
theorem inContour_iff (cs : List ℚ) (i : Nat) (x : ℚ) (hi : i < cs.length) (h2 : 2 ≤ cs.length) :
    inContour cs i x = true ↔ (∀ b, 0 < i → cs[i - 1]? = some b → b ≤ x) ∧ ∀ c, i + 1 < cs.length → cs[i]? = some c → x ≤ c := by
  unfold inContour
  by_cases h0 : i = 0
  · subst h0
    rw [if_pos rfl]
    have : cs[0]? = some cs[0] := List.getElem?_eq_getElem hi
    rw [this]
    simp only [decide_eq_true_eq]
    constructor
    · intro h
      refine ⟨fun b h _ => absurd h (by omega), fun c _ hc => ?_⟩
      rw [← Option.some.inj hc]; exact h
    · intro h
      exact h.2 _ (by omega) rfl
  · rw [if_neg h0]
    have e1 : cs[i - 1]? = some cs[i - 1] := List.getElem?_eq_getElem (by omega)
    have e2 : cs[i]? = some cs[i] := List.getElem?_eq_getElem hi
    by_cases hl : i = cs.length - 1
    · rw [if_pos hl, e1]
      simp only [decide_eq_true_eq, ge_iff_le]
      constructor
      · intro h
        refine ⟨fun b _ hb => ?_, fun c h _ => absurd h (by omega)⟩
        rw [← Option.some.inj hb]; exact h
      · intro h
        exact h.1 _ (by omega) rfl
    · rw [if_neg hl, e1, e2]
      simp only [Bool.and_eq_true, decide_eq_true_eq, ge_iff_le]
      constructor
      · rintro ⟨h1, h3⟩
        refine ⟨fun b _ hb => ?_, fun c _ hc => ?_⟩
        · rw [← Option.some.inj hb]; exact h3
        · rw [← Option.some.inj hc]; exact h1
      · intro h
        exact ⟨h.2 _ (by omega) rfl, h.1 _ (by omega) rfl⟩

/-- The first index with a property, or the last. -/
theorem first_or_last (n : Nat) (P : Nat → Prop) [DecidablePred P] (hn : 0 < n) :
    ∃ i, i < n ∧ (∀ j, j < i → ¬ P j) ∧ (i + 1 < n → P i) := by
  induction n with
  | zero => omega
  | succ n ih =>
    by_cases h0 : n = 0
    · subst h0; exact ⟨0, by omega, fun j h => absurd h (by omega), fun h => absurd h (by omega)⟩
    · obtain ⟨i, h1, h2, h3⟩ := ih (by omega)
      by_cases hi : P i
      · exact ⟨i, by omega, h2, fun _ => hi⟩
      · refine ⟨n, by omega, ?_, fun h => absurd h (by omega)⟩
        have : i = n - 1 := by
          by_contra hne
          exact hi (h3 (by omega))
        subst this
        intro j hj
        by_cases hj' : j < n - 1
        · exact h2 j hj'
        · have : j = n - 1 := by omega
          rw [this]; exact hi

/-- **C119**: with two cutoffs or more, in any order for this part, every element is in a contour. -/
theorem C119_covered_partial (cs : List ℚ) (x : ℚ) (h2 : 2 ≤ cs.length) : ∃ i, i < cs.length ∧ inContour cs i x = true := by
  obtain ⟨i, h1, h3, h4⟩ := first_or_last cs.length (fun j => ∀ c, cs[j]? = some c → x ≤ c) (by omega)
  refine ⟨i, h1, (inContour_iff cs i x h1 h2).mpr ⟨?_, ?_⟩⟩
  · intro b hi hb
    have := h3 (i - 1) (by omega)
    push Not at this
    obtain ⟨c, hc, hlt⟩ := this
    rw [hb] at hc
    rw [Option.some.inj hc]
    exact hlt.le
  · intro c hi hc
    exact h4 hi c hc

/-- **C119**: in increasing order, an element that is not at a cutoff is in exactly one contour. -/
theorem C119_once_partial (cs : List ℚ) (x : ℚ) (h2 : 2 ≤ cs.length) (hs : cs.Pairwise (· < ·)) (hx : x ∉ cs) :
    ∃! i, i < cs.length ∧ inContour cs i x = true := by
  obtain ⟨i, h1, h3⟩ := C119_covered_partial cs x h2
  refine ⟨i, ⟨h1, h3⟩, ?_⟩
  have key : ∀ i j, i < j → j < cs.length → i < cs.length → inContour cs i x = true → inContour cs j x = true → False := by
    intro i j hij hj hi a b
    have a' := ((inContour_iff cs i x hi h2).mp a).2 cs[i] (by omega) (List.getElem?_eq_getElem hi)
    have b' := ((inContour_iff cs j x hj h2).mp b).1 cs[j - 1] (by omega) (List.getElem?_eq_getElem (by omega))
    have hne : x ≠ cs[i] := fun e => hx (e ▸ List.getElem_mem hi)
    have hlt : x < cs[i] := lt_of_le_of_ne a' hne
    by_cases he : i = j - 1
    · subst he; exact absurd b' (not_le.mpr hlt)
    · have := sorted_get hs (show i < j - 1 by omega) (List.getElem?_eq_getElem hi) (List.getElem?_eq_getElem (by omega : j - 1 < cs.length))
      exact absurd b' (not_le.mpr (lt_trans hlt this))
  rintro j ⟨hj, h4⟩
  rcases Nat.lt_trichotomy i j with h | h | h
  · exact (key i j h hj h1 h3 h4).elim
  · exact h.symm
  · exact (key j i h h1 hj h4 h3).elim

/-- **C119**: contours have elements of their spill only, all of them with values between the cutoffs; the last has no upper end. -/
theorem C119_members (cs : List ℚ) (spill : Nat) (elems : List (Nat × ℚ)) (h2 : 2 ≤ cs.length) (i : Nat) (l : List (Nat × ℚ))
    (hl : (contours cs spill elems)[i]? = some l) (e : Nat × ℚ) :
    e ∈ l ↔ e ∈ elems ∧ e.1 = spill ∧ (∀ b, 0 < i → cs[i - 1]? = some b → b ≤ e.2) ∧ ∀ c, i + 1 < cs.length → cs[i]? = some c → e.2 ≤ c := by
  unfold contours at hl
  rw [List.getElem?_map] at hl
  obtain ⟨k, hk, rfl⟩ := Option.map_eq_some_iff.mp hl
  obtain ⟨hlt, rfl⟩ := List.getElem?_eq_some_iff.mp hk
  rw [List.length_range] at hlt
  rw [List.getElem_range, List.mem_filter, List.mem_filter, inContour_iff cs i e.2 hlt h2]
  simp only [beq_iff_eq]
  exact and_assoc

example : ∃! i, i < 3 ∧ inContour [1, 2, 3] i (5 / 2) = true := C119_once_partial [1, 2, 3] (5 / 2) (by simp) (by norm_num) (by norm_num)

/-! ## C120 -/

/-- **C120**: whatever the draws, a size is between the bounds. -/
theorem C120_bounds (w : Weibull) (draws : List ℝ) (x : ℝ) (h : w.draw draws = some x) :
    (∀ a, w.lo = some a → a ≤ x) ∧ (∀ b, w.hi = some b → x ≤ b) ∧ x ∈ draws := by
  induction draws with
  | nil => cases h
  | cons y l ih =>
    unfold Weibull.draw at h
    split at h
    · rename_i hk
      cases h
      unfold Weibull.keeps at hk
      refine ⟨?_, ?_, List.mem_cons_self ..⟩
      · intro a ha
        rw [ha] at hk
        split at hk <;> simp_all
      · intro b hb
        rw [hb] at hk
        split at hk <;> simp_all
    · obtain ⟨h1, h2, h3⟩ := ih h
      exact ⟨h1, h2, List.mem_cons_of_mem _ h3⟩

/-- **C120**: the first draw between the bounds is taken: a size is found as soon as there is one. -/
theorem C120_found (w : Weibull) (draws : List ℝ) (x : ℝ) (hx : x ∈ draws) (h1 : ∀ a, w.lo = some a → a ≤ x) (h2 : ∀ b, w.hi = some b → x ≤ b) :
    ∃ y, w.draw draws = some y := by
  induction draws with
  | nil => cases hx
  | cons z l ih =>
    unfold Weibull.draw
    split
    · exact ⟨z, rfl⟩
    · rename_i hk
      rcases List.mem_cons.mp hx with rfl | hx
      · exfalso
        apply hk
        unfold Weibull.keeps
        split <;> simp_all
      · exact ih hx

/-- The fraction below is a distribution: from 0, below 1, increasing. -/
theorem C120_fraction (α l : ℝ) (hα : 0 < α) (hl : 0 < l) :
    fractionBelow 0 α l = 0 ∧ (∀ d, fractionBelow d α l < 1) ∧ ∀ d e, 0 ≤ d → d < e → fractionBelow d α l < fractionBelow e α l := by
  unfold fractionBelow
  refine ⟨?_, ?_, ?_⟩
  · rw [zero_div, Real.zero_rpow hα.ne']; simp
  · intro d; have := Real.exp_pos (-(d / l) ^ α); linarith
  · intro d e hd hde
    have h1 : d / l < e / l := div_lt_div_of_pos_right hde hl
    have h2 := Real.rpow_lt_rpow (div_nonneg hd hl.le) h1 hα
    have h3 := Real.exp_lt_exp.mpr (neg_lt_neg h2)
    linarith

/-- The claim: bounds that are accepted leave a chance. -/
def C120_claim : Prop := ∀ w : Weibull, 0 < w.α → 0 < w.l → w.accepted → 0 < w.chance

/-- **C120** fails: equal bounds are accepted, and then the loop goes on for ever. -/
theorem C120_counterexample : ¬ C120_claim := by
  intro h
  have hf : fractionBelow 1 1 1 = 1 - Real.exp (-1) := by unfold fractionBelow; norm_num
  have he := Real.exp_one_gt_d9
  have he2 := Real.exp_one_lt_d9
  have hinv : Real.exp (-1) = (Real.exp 1)⁻¹ := Real.exp_neg 1
  have b1 : Real.exp (-1) ≤ 1 / 2 := by
    rw [hinv, inv_eq_one_div, div_le_div_iff₀ (by linarith) (by norm_num)]; linarith
  have b2 : (1 : ℝ) / 3 ≤ Real.exp (-1) := by
    rw [hinv, inv_eq_one_div, div_le_div_iff₀ (by norm_num) (by linarith)]; linarith
  have := h ⟨1, 1, some 1, some 1⟩ one_pos one_pos ⟨?_, ?_⟩
  · simp [Weibull.chance] at this
  · intro m hm
    cases hm
    exact ⟨by norm_num, by rw [hf]; linarith⟩
  · intro m hm
    cases hm
    refine ⟨by norm_num, by rw [hf]; linarith, ?_, by norm_num⟩
    intro k hk
    cases hk
    exact le_refl _

/-- **C120**, unless the bounds are equal; with one bound only the chance is at least a thousandth. -/
theorem C120_chance_partial (w : Weibull) (hα : 0 < w.α) (hl : 0 < w.l) (ha : w.accepted) (hne : ∀ a b, w.lo = some a → w.hi = some b → a ≠ b) :
    0 < w.chance ∧ (w.lo = none ∨ w.hi = none → 1 / 1000 ≤ w.chance) := by
  obtain ⟨f0, f1, f2⟩ := C120_fraction w.α w.l hα hl
  obtain ⟨a1, a2⟩ := ha
  unfold Weibull.chance
  cases hlo : w.lo with
  | none =>
    cases hhi : w.hi with
    | none => exact ⟨by norm_num, fun _ => by norm_num⟩
    | some b =>
      have := (a2 b hhi).2.1
      exact ⟨by simp only; linarith, fun _ => by simp only; linarith⟩
  | some a =>
    cases hhi : w.hi with
    | none =>
      have := (a1 a hlo).2
      exact ⟨by simp only; linarith, fun _ => by simp only; linarith⟩
    | some b =>
      have h1 := (a2 b hhi).2.2.1 a hlo
      have h2 := hne a b hlo hhi
      have h3 := f2 a b (a1 a hlo).1 (lt_of_le_of_ne h1 h2)
      refine ⟨by simp only; linarith, ?_⟩
      rintro (h | h) <;> cases h

example : (⟨2, 1, some 1, some 2⟩ : Weibull).draw [3, 1 / 2, 3 / 2, 7] = some (3 / 2) := by
  norm_num [Weibull.draw, Weibull.keeps]

end Verif.Convert
