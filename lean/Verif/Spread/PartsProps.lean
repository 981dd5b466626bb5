import Verif.Spread.PropsC
/-!
# C360: spreading does not depend on the number of elements that the oil is in

Every element is replaced by `k` elements that share its mass, initial mass and areas and its part of the slick, and are otherwise like it.
-/
namespace Verif.Spread

set_option linter.unusedSectionVars false

/-- One of `k` elements that share an element. -/
noncomputable def part (k : Nat) (e : El) : El :=
  { e with mass := e.mass / k, init := e.init / k, frac := e.frac / k, fay := e.fay / k, area := e.area / k, maxArea := e.maxArea / k }

/-- The same oil in `k` times as many elements. -/
noncomputable def inParts (k : Nat) (els : List El) : List El := els.flatMap (fun e => List.replicate k (part k e))

theorem inParts_cons (k : Nat) (e : El) (els : List El) : inParts k (e :: els) = List.replicate k (part k e) ++ inParts k els := rfl

theorem inParts_map {β : Type} (k : Nat) (g : El → β) (els : List El) :
    (inParts k els).map g = els.flatMap (fun e => List.replicate k (g (part k e))) := by
  simp [inParts, List.map_flatMap]

theorem inParts_el (k : Nat) (g h : El → El) (els : List El) (hg : ∀ e ∈ els, g (part k e) = part k (h e)) :
    (inParts k els).map g = inParts k (els.map h) := by
  rw [inParts_map, inParts, List.flatMap_map]
  exact List.flatMap_congr (fun e he => by rw [hg e he])

theorem inParts_filter (k : Nat) (q : El → Bool) (hq : ∀ e, q (part k e) = q e) (els : List El) : (inParts k els).filter q = inParts k (els.filter q) := by
  induction els with
  | nil => rfl
  | cons e els ih =>
    rw [inParts_cons, List.filter_append, ih]
    by_cases h : q e = true
    · rw [List.filter_cons_of_pos h, inParts_cons, List.filter_replicate_of_pos (by rw [hq]; exact h)]
    · rw [List.filter_cons_of_neg h, List.filter_replicate_of_neg (by rw [hq]; exact h), List.nil_append]

section
variable (k : Nat) (hk : 1 ≤ k)
include hk

theorem k0 : (k : ℝ) ≠ 0 := by exact_mod_cast (by omega : k ≠ 0)

theorem kpos : (0 : ℝ) < k := by exact_mod_cast (by omega : 0 < k)

theorem inParts_sum (g h : El → ℝ) (els : List El) (hg : ∀ e ∈ els, g (part k e) = h e / k) : ((inParts k els).map g).sum = (els.map h).sum := by
  have hk0 := k0 k hk
  rw [inParts_map]
  induction els with
  | nil => rfl
  | cons e els ih =>
    rw [List.flatMap_cons, List.sum_append, List.map_cons, List.sum_cons, ih (fun x hx => hg x (List.mem_cons_of_mem _ hx)), List.sum_replicate,
      hg e (List.mem_cons_self ..), nsmul_eq_mul]
    congr 1
    field_simp

theorem mem_inParts (els : List El) (x : El) : x ∈ inParts k els ↔ ∃ e ∈ els, x = part k e := by
  simp only [inParts, List.mem_flatMap, List.mem_replicate]
  refine ⟨fun ⟨e, he, h⟩ => ⟨e, he, h.2⟩, fun ⟨e, he, h⟩ => ⟨e, he, by omega, h⟩⟩

theorem find_parts (q : El → Bool) (hq : ∀ e, q (part k e) = q e) (els : List El) : (inParts k els).find? q = (els.find? q).map (part k) := by
  induction els with
  | nil => rfl
  | cons e els ih =>
    obtain ⟨n, rfl⟩ : ∃ n, k = n + 1 := ⟨k - 1, by omega⟩
    rw [inParts_cons]
    by_cases h : q e = true
    · rw [List.find?_cons_of_pos h, List.replicate_succ, List.cons_append, List.find?_cons_of_pos (by rw [hq]; exact h), Option.map_some]
    · rw [List.find?_cons_of_neg h, List.find?_append, ih, List.find?_eq_none.2]
      · rfl
      · intro x hx
        rw [(List.mem_replicate.1 hx).2, hq]
        exact h

theorem firstBulk_parts (els : List El) (s : Nat) : firstBulk (inParts k els) s = firstBulk els s := by
  unfold firstBulk
  rw [find_parts k hk _ (fun _ => rfl)]
  cases els.find? (fun e => e.surf && e.spill == s) <;> rfl

theorem vol_part (e : El) : (part k e).vol = e.vol / k := by
  simp only [El.vol, part]
  rw [div_right_comm]

theorem gain_part (rb dt : ℝ) (e : El) : gain rb dt (part k e) = gain rb dt e / k := by
  have hk0 := k0 k hk
  simp only [gain, part]
  rw [div_div_div_cancel_right₀ hk0]
  ring

theorem updateArea_part (rb V0 dt m : ℝ) (e : El) : updateArea rb V0 dt (m / k) (part k e) = updateArea rb V0 dt m e / k := by
  have hkp := kpos k hk
  have hc : (rb ≠ 0 ∧ t0 waterVisc rb V0 < (part k e).age + dt ∧ (part k e).fay < m / k ∧ 0 < (part k e).fay) ↔
      (rb ≠ 0 ∧ t0 waterVisc rb V0 < e.age + dt ∧ e.fay < m ∧ 0 < e.fay) := by
    have h1 : (part k e).fay < m / k ↔ e.fay < m := div_lt_div_iff_of_pos_right hkp
    have h2 : 0 < (part k e).fay ↔ 0 < e.fay := div_pos_iff_of_pos_right hkp
    rw [h1, h2]
    rfl
  unfold updateArea
  by_cases h : rb ≠ 0 ∧ t0 waterVisc rb V0 < e.age + dt ∧ e.fay < m ∧ 0 < e.fay
  · rw [if_pos h, if_pos (hc.2 h), gain_part k hk]
    simp only [part]
    rw [← add_div, min_div_div_right hkp.le]
  · rw [if_neg h, if_neg (fun x => h (hc.1 x))]
    rfl

theorem maxAreaOf_part (lim : ℝ) (e : El) : maxAreaOf lim (part k e) = maxAreaOf lim e / k := by
  unfold maxAreaOf
  rw [vol_part k hk, div_right_comm]

/-- **C360** spreading: the same slick, in parts. -/
theorem C360_fay (rb lim dt : ℝ) (els : List El) : fayStep rb lim dt (inParts k els) = (fayStep rb lim dt els).map (inParts k) := by
  have hany : (inParts k els).any (fun e => e.surf && decide (e.age + dt = 0)) = els.any (fun e => e.surf && decide (e.age + dt = 0)) := by
    rw [Bool.eq_iff_iff]
    simp only [List.any_eq_true]
    constructor
    · rintro ⟨x, hx, h⟩
      obtain ⟨e, he, rfl⟩ := (mem_inParts k hk els x).1 hx
      exact ⟨e, he, h⟩
    · rintro ⟨e, he, h⟩
      exact ⟨part k e, (mem_inParts k hk els _).2 ⟨e, he, rfl⟩, h⟩
  unfold fayStep
  rw [hany]
  split
  · rfl
  · rw [Option.map_some, Option.some.injEq]
    refine inParts_el k _ _ els fun e _ => ?_
    rw [show (part k e).surf = e.surf from rfl]
    split
    · unfold spreadEl
      rw [show (part k e).spill = e.spill from rfl, firstBulk_parts k hk, maxAreaOf_part k hk, updateArea_part k hk]
      rfl
    · rfl

theorem fayOf_parts (els : List El) (s : Nat) : fayOf (inParts k els) s = fayOf els s := by
  unfold fayOf
  rw [inParts_filter k _ (fun _ => rfl)]
  exact inParts_sum k hk _ _ _ fun _ _ => rfl

theorem maxWind_parts (wind : ℝ × ℝ → ℝ) (els : List El) : maxWind wind (inParts k els) = maxWind wind els := by
  unfold maxWind
  rw [inParts_filter k _ (fun _ => rfl), inParts_map]
  generalize els.filter El.surf = l
  have rep : ∀ n, ∀ a b : ℝ, (List.replicate (n + 1) a).foldr max b = max a b := by
    intro n a b
    induction n with
    | zero => rfl
    | succ n ih => rw [List.replicate_succ, List.foldr_cons, ih, ← max_assoc, max_self]
  induction l with
  | nil => rfl
  | cons e l ih =>
    obtain ⟨n, rfl⟩ : ∃ n, k = n + 1 := ⟨k - 1, by omega⟩
    rw [List.flatMap_cons, List.foldr_append, ih, rep, List.map_cons, List.foldr_cons]
    rfl

/-- **C360** windrows. -/
theorem C360_langmuir (rho : ℝ) (wind : ℝ × ℝ → ℝ) (els : List El) : langmuir rho wind (inParts k els) = inParts k (langmuir rho wind els) := by
  unfold langmuir
  refine inParts_el k _ _ els fun e _ => ?_
  rw [show (part k e).surf = e.surf from rfl, show (part k e).spill = e.spill from rfl, show (part k e).dens = e.dens from rfl, maxWind_parts k hk,
    firstBulk_parts k hk, fayOf_parts k hk]
  split
  · simp only [part, El.mk.injEq, true_and, and_true]
    ring
  · rfl

theorem releaseEl_part (nu rb lim bulk : ℝ) (e : El) : releaseEl nu rb lim bulk (part k e) =
    { part k (releaseEl nu rb lim bulk e) with maxArea := e.maxArea / k } := by
  have hv := vol_part k hk e
  unfold releaseEl
  rw [hv]
  split
  · simp only [part, El.mk.injEq, true_and, and_true]
    exact ⟨by ring, by ring, by ring⟩
  · simp [part]

/-- **C360** release: a spill that is released in more elements is the same slick, in parts. -/
theorem C360_release (cont within : Bool) (nu rb lim prev : ℝ) (new : List El) :
    release cont within nu rb lim prev (inParts k new) =
      ((release cont within nu rb lim prev new).1, inParts k (release cont within nu rb lim prev new).2) := by
  unfold release
  simp only
  rw [inParts_sum k hk El.vol El.vol new (fun e _ => vol_part k hk e)]
  ext1
  · rfl
  · refine inParts_el k _ _ new fun e _ => ?_
    rw [releaseEl_part k hk]
    rfl

end

/-- A tonne of oil in one element and in four. -/
example : inParts 4 [⟨0, (0, 0), true, 1000, 1000, 900, 0, 0, 0, 0, 0, 1, 0⟩] = List.replicate 4 ⟨0, (0, 0), true, 250, 250, 900, 0, 0, 0, 0, 0, 1, 0⟩ := by
  simp only [inParts, List.flatMap_cons, List.flatMap_nil, List.append_nil, part]
  norm_num

end Verif.Spread
