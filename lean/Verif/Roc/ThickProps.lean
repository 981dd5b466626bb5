import Verif.Roc.ThickModel
import Mathlib.Algebra.BigOperators.Group.List.Lemmas
import Mathlib.Algebra.Order.BigOperators.Group.List
import Mathlib.Data.List.Perm.Basic
import Mathlib.Tactic.FieldSimp
import Mathlib.Tactic.Ring
import Mathlib.Tactic.Linarith
import Mathlib.Tactic.Positivity
import Mathlib.Tactic.NormNum

/-! # The thickness of the oil that a response works with (C365) -/

namespace Verif.Roc.Thick

/-- The thickness of a slick in metres: the volume of the emulsion over the area that it covers. -/
def slick (rho : ℚ) (els : List El) : ℚ := (els.map fun e => e.mass / rho / (1 - e.water)).sum / (els.map El.area).sum

/-- What elements may be. -/
def Sound (els : List El) : Prop := els ≠ [] ∧ (∀ e ∈ els, 0 ≤ e.mass ∧ 0 ≤ e.water ∧ e.water < 1 ∧ 0 ≤ e.area) ∧ ∃ e ∈ els, 0 < e.area

/-- C365 in full: the thickness used is that of the slick. -/
def C365_claim : Prop := ∀ (rho : ℚ) (els : List El), 0 < rho → Sound els → thickness rho els * inch = slick rho els

theorem inch_ne : inch ≠ 0 := by unfold inch; norm_num

theorem len_pos {els : List El} (h : els ≠ []) : (0 : ℚ) < (els.length : ℚ) := by
  have := List.length_pos_of_ne_nil h
  exact_mod_cast this

/-- The thickness used: all the oil over all the area, with the water of an average element. -/
theorem thickness_eq (rho : ℚ) (els : List El) (h : Sound els) :
    thickness rho els * inch = (els.map El.mass).sum / rho / (1 - mean (els.map El.water)) / (els.map El.area).sum := by
  obtain ⟨h0, _, e, he, ha⟩ := h
  have hn := (len_pos h0).ne'
  unfold thickness
  rw [if_pos (List.any_eq_true.2 ⟨e, he, by simpa using ha.ne'⟩), div_mul_cancel₀ _ inch_ne]
  unfold mean
  simp only [List.length_map]
  rw [div_div_eq_mul_div, div_div, div_div, div_div, div_div]
  generalize (els.map El.mass).sum = m
  generalize (els.map El.area).sum = a
  generalize 1 - (els.map El.water).sum / (els.length : ℚ) = w
  rw [mul_comm (els.length : ℚ) (rho * w), ← div_div m, div_mul_cancel₀ _ hn, div_div, mul_assoc]

theorem area_pos {els : List El} (h : Sound els) : 0 < (els.map El.area).sum := by
  obtain ⟨_, hs, e, he, ha⟩ := h
  have : e.area ≤ (els.map El.area).sum :=
    List.single_le_sum (fun x hx => by obtain ⟨e', he', rfl⟩ := List.mem_map.1 hx; exact (hs e' he').2.2.2) _ (List.mem_map_of_mem he)
  linarith

theorem sum_const {α : Type} (f : α → ℚ) (c : ℚ) : ∀ l : List α, (∀ e ∈ l, f e = c) → (l.map f).sum = l.length * c
  | [], _ => by simp
  | e :: l, h => by
    rw [List.map_cons, List.sum_cons, h e (List.mem_cons_self ..), sum_const f c l fun x hx => h x (List.mem_cons_of_mem _ hx)]
    push_cast [List.length_cons]
    ring

theorem sum_div {α : Type} (f : α → ℚ) (c : ℚ) (l : List α) : (l.map fun e => f e / c).sum = (l.map f).sum / c := by
  induction l with
  | nil => simp
  | cons a l ih => simp only [List.map_cons, List.sum_cons, ih]; ring

theorem sum_mul {α : Type} (f : α → ℚ) (c : ℚ) (l : List α) : (l.map fun e => c * f e).sum = c * (l.map f).sum := by
  induction l with
  | nil => simp
  | cons a l ih => simp only [List.map_cons, List.sum_cons, ih]; ring

/-- C365 holds if there is as much water in all elements. -/
theorem C365_same_partial (rho : ℚ) (els : List El) (h : Sound els) (w : ℚ) (hw : ∀ e ∈ els, e.water = w) :
    thickness rho els * inch = slick rho els := by
  have hn := (len_pos h.1).ne'
  have hm : mean (els.map El.water) = w := by
    unfold mean
    rw [sum_const El.water w els hw, List.length_map]
    field_simp
  rw [thickness_eq rho els h, hm]
  unfold slick
  congr 1
  have : (els.map fun e => e.mass / rho / (1 - e.water)) = els.map fun e => (fun e : El => e.mass / rho) e / (1 - w) :=
    List.map_congr_left fun e he => by simp only [hw e he]
  rw [this, sum_div, sum_div]

/-- The tangent of `1/x`. -/
theorem tangent {x c : ℚ} (hx : 0 < x) (hc : 0 < c) : 2 / c - x / c ^ 2 ≤ 1 / x := by
  have h : 1 / x - (2 / c - x / c ^ 2) = (x - c) ^ 2 / (x * c ^ 2) := by field_simp; ring
  have : 0 ≤ (x - c) ^ 2 / (x * c ^ 2) := by positivity
  linarith

theorem sum_tangent (c : ℚ) (hc : 0 < c) : ∀ els : List El, (∀ e ∈ els, e.water < 1) →
    els.length * (2 / c) - (els.length - (els.map El.water).sum) / c ^ 2 ≤ (els.map fun e => 1 / (1 - e.water)).sum
  | [], _ => by simp
  | e :: l, h => by
    have ih := sum_tangent c hc l fun x hx => h x (List.mem_cons_of_mem _ hx)
    have ht := tangent (x := 1 - e.water) (by have := h e (List.mem_cons_self ..); linarith) hc
    simp only [List.map_cons, List.sum_cons, List.length_cons, Nat.cast_add, Nat.cast_one]
    calc ((l.length : ℚ) + 1) * (2 / c) - (l.length + 1 - (e.water + (l.map El.water).sum)) / c ^ 2
        = (2 / c - (1 - e.water) / c ^ 2) + (l.length * (2 / c) - (l.length - (l.map El.water).sum) / c ^ 2) := by ring
      _ ≤ _ := add_le_add ht ih

theorem water_lt {els : List El} (h0 : els ≠ []) (hs : ∀ e ∈ els, e.water < 1) : (els.map El.water).sum < els.length := by
  cases els with
  | nil => exact absurd rfl h0
  | cons a r =>
    have hr : ∀ l : List El, (∀ e ∈ l, e.water < 1) → (l.map El.water).sum ≤ l.length := by
      intro l
      induction l with
      | nil => intro _; simp
      | cons b l ih =>
        intro h
        have := ih fun x hx => h x (List.mem_cons_of_mem _ hx)
        have := h b (List.mem_cons_self ..)
        simp only [List.map_cons, List.sum_cons, List.length_cons, Nat.cast_add, Nat.cast_one]
        linarith
    have h1 := hr r fun x hx => hs x (List.mem_cons_of_mem _ hx)
    have h2 := hs a (List.mem_cons_self ..)
    simp only [List.map_cons, List.sum_cons, List.length_cons, Nat.cast_add, Nat.cast_one]
    linarith

/-- Where it does not hold, elements of the same mass make the slick look thinner, never thicker. -/
theorem C365_thinner_partial (rho : ℚ) (els : List El) (hr : 0 < rho) (h : Sound els) (m : ℚ) (hm : ∀ e ∈ els, e.mass = m) :
    thickness rho els * inch ≤ slick rho els := by
  have hn := len_pos h.1
  have ha := area_pos h
  obtain ⟨h0, hs, _⟩ := h
  have hm0 : 0 ≤ m := by
    cases els with
    | nil => exact absurd rfl h0
    | cons a r => rw [← hm a (List.mem_cons_self ..)]; exact (hs a (List.mem_cons_self ..)).1
  rw [thickness_eq rho els ⟨h0, hs, ‹_›⟩]
  unfold slick
  rw [div_le_div_iff_of_pos_right ha]
  have hlt := water_lt h0 fun e he => (hs e he).2.2.1
  set n : ℚ := (els.length : ℚ) with hnd
  set W := (els.map El.water).sum with hW
  have hc : 0 < 1 - W / n := by
    have : W / n < 1 := (div_lt_one hn).2 hlt
    linarith
  have ht := sum_tangent (1 - W / n) hc els fun e he => (hs e he).2.2.1
  rw [← hnd, ← hW] at ht
  have hmean : mean (els.map El.water) = W / n := by unfold mean; rw [List.length_map]
  rw [hmean, sum_const El.mass m els hm, ← hnd]
  have e1 : (els.map fun e => e.mass / rho / (1 - e.water)) = els.map fun e => m / rho * (1 / (1 - e.water)) :=
    List.map_congr_left fun e he => by rw [hm e he]; ring
  rw [e1, sum_mul]
  have e2 : n * (2 / (1 - W / n)) - (n - W) / (1 - W / n) ^ 2 = n / (1 - W / n) := by
    have h3 : n - W = n * (1 - W / n) := by field_simp
    rw [h3]
    generalize 1 - W / n = c at *
    field_simp
    ring
  rw [e2] at ht
  calc n * m / rho / (1 - W / n) = m / rho * (n / (1 - W / n)) := by ring
    _ ≤ _ := by gcongr

/-- An element with three quarters of water and one without: the slick is two and a half times, not 1.6 times, as thick as its oil. -/
theorem C365_counterexample : ¬ C365_claim := by
  intro h
  have := h 1000 [⟨1000, 3 / 4, 1000⟩, ⟨1000, 0, 1000⟩] (by norm_num)
    ⟨by simp, by simp; norm_num, ⟨⟨1000, 3 / 4, 1000⟩, by simp, by norm_num⟩⟩
  revert this
  decide +kernel

/-- An element that has lost its oil thins out the water of the others. -/
theorem C365_counterexample_empty :
    thickness 1000 [⟨1000, 3 / 4, 1000⟩, ⟨0, 0, 0⟩] * inch < thickness 1000 [⟨1000, 3 / 4, 1000⟩] * inch := by decide +kernel

/-- The thickness does not depend on the order of the elements. -/
theorem C365_order (rho : ℚ) (els els' : List El) (h : els.Perm els') : thickness rho els = thickness rho els' := by
  have hany : els.any (fun e => e.area ≠ 0) = els'.any (fun e => e.area ≠ 0) := by
    rw [Bool.eq_iff_iff, List.any_eq_true, List.any_eq_true]
    exact ⟨fun ⟨e, a, b⟩ => ⟨e, h.mem_iff.1 a, b⟩, fun ⟨e, a, b⟩ => ⟨e, h.mem_iff.2 a, b⟩⟩
  unfold thickness mean
  simp only [hany, List.length_map, h.length_eq, (h.map El.mass).sum_eq, (h.map El.water).sum_eq, (h.map El.area).sum_eq]

/-- Every element as `k` elements that share its oil and its area. -/
def parts (k : Nat) (els : List El) : List El := els.flatMap fun e => List.replicate k ⟨e.mass / k, e.water, e.area / k⟩

theorem sum_parts (f : El → ℚ) (k : Nat) (els : List El) :
    ((parts k els).map f).sum = (els.map fun e => k * f ⟨e.mass / k, e.water, e.area / k⟩).sum := by
  induction els with
  | nil => rfl
  | cons e l ih =>
    simp only [parts, List.flatMap_cons, List.map_append, List.sum_append, List.map_replicate, List.sum_replicate, nsmul_eq_mul,
      List.map_cons, List.sum_cons] at ih ⊢
    rw [ih]

theorem len_parts (k : Nat) (els : List El) : (parts k els).length = k * els.length := by
  induction els with
  | nil => simp [parts]
  | cons e l ih =>
    simp only [parts, List.flatMap_cons, List.length_append, List.length_replicate, List.length_cons] at ih ⊢
    rw [ih]
    ring

/-- The thickness does not depend on the number of elements that the oil is in. -/
theorem C365_parts (rho : ℚ) (els : List El) (h : Sound els) (k : Nat) (hk : 0 < k) : thickness rho (parts k els) = thickness rho els := by
  have hkq : (0 : ℚ) < k := by exact_mod_cast hk
  have hk1 : (k : ℚ) ≠ 0 := hkq.ne'
  have hn := (len_pos h.1).ne'
  have hs : Sound (parts k els) := by
    obtain ⟨h0, hs, e, he, ha⟩ := h
    have hmem : ∀ e ∈ els, (⟨e.mass / k, e.water, e.area / k⟩ : El) ∈ parts k els := fun e he =>
      List.mem_flatMap.2 ⟨e, he, List.mem_replicate.2 ⟨hk.ne', rfl⟩⟩
    refine ⟨List.ne_nil_of_mem (hmem e he), ?_, _, hmem e he, by simp only; positivity⟩
    intro x hx
    obtain ⟨e', he', hx⟩ := List.mem_flatMap.1 hx
    obtain ⟨a, b, c, d⟩ := hs e' he'
    rw [(List.mem_replicate.1 hx).2]
    exact ⟨by simp only; positivity, b, c, by simp only; positivity⟩
  have e1 : ((parts k els).map El.mass).sum = (els.map El.mass).sum := by
    rw [sum_parts]; exact congrArg List.sum (List.map_congr_left fun e _ => by simp only; field_simp)
  have e2 : ((parts k els).map El.area).sum = (els.map El.area).sum := by
    rw [sum_parts]; exact congrArg List.sum (List.map_congr_left fun e _ => by simp only; field_simp)
  have e3 : mean ((parts k els).map El.water) = mean (els.map El.water) := by
    unfold mean
    rw [sum_parts, List.length_map, List.length_map, len_parts, sum_mul]
    push_cast
    field_simp
  have := thickness_eq rho (parts k els) hs
  rw [e1, e2, e3, ← thickness_eq rho els h] at this
  exact mul_right_cancel₀ inch_ne this

/-- No oil on the water: nothing to work with. -/
theorem C365_none (rho : ℚ) (els : List El) (h : ∀ e ∈ els, e.area = 0) : thickness rho els = 0 := by
  have : els.any (fun e => e.area ≠ 0) = false := by simpa using h
  unfold thickness
  rw [this]
  simp

/-- The dosage: the two figures are the same amount, and `ratio` times the dispersant is the oil and water to be treated. -/
theorem C365_dosage (rho ratio : ℚ) (els : List El) (hr : ratio ≠ 0) :
    (dosages rho ratio els).2 * galPerAcre = (dosages rho ratio els).1 ∧ (dosages rho ratio els).1 * ratio = thickness rho els * inch := by
  have hg : galPerAcre ≠ 0 := by unfold galPerAcre; norm_num
  unfold dosages
  constructor
  · simp only
    rw [mul_div_assoc (thickness rho els * inch) 1000000 1000000, div_self (by norm_num : (1000000 : ℚ) ≠ 0), mul_one]
    field_simp
  · simp only
    field_simp

example : Sound [⟨1000, 1 / 2, 1000⟩, ⟨500, 1 / 2, 700⟩] :=
  ⟨by simp, by simp; norm_num, ⟨1000, 1 / 2, 1000⟩, by simp, by norm_num⟩

example : thickness 1000 [⟨1000, 1 / 2, 1000⟩, ⟨500, 1 / 2, 500⟩] * inch = 2 / 1000 := by decide +kernel

end Verif.Roc.Thick
