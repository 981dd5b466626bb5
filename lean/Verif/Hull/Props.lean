import Mathlib.Tactic.Linarith
import Mathlib.Tactic.Ring
import Mathlib.Tactic.Tauto
import Mathlib.Data.List.Basic
import Mathlib.Data.List.GetD
import Verif.Hull.Model

/-!
# C119: contours
# C195: surface concentration
-/
namespace Verif.Hull

/-! ## C119 -/

/-- **C119**, as one would expect: for ascending cutoffs every element of a spill is in exactly one contour. -/
def C119_claim : Prop := ∀ (cs : List ℚ) (x : ℚ), cs ≠ [] → cs.Pairwise (· < ·) →
  ∃ i < cs.length, inClass cs i x = true ∧ ∀ j < cs.length, inClass cs j x = true → j = i

/-- With a single cutoff, elements above it are in no contour. -/
theorem C119_counterexample : ¬ C119_claim := by
  intro h
  obtain ⟨i, hi, h1, _⟩ := h [1] 2 (by simp) (by simp)
  have : i = 0 := by simpa using hi
  subst this
  revert h1; decide +kernel

/-- An element exactly at a cutoff is in two contours. -/
theorem C119_twice (cs : List ℚ) (i : Nat) (hs : cs.Pairwise (· < ·)) (h : i + 1 < cs.length) :
    inClass cs i (cs.getD i 0) = true ∧ inClass cs (i + 1) (cs.getD i 0) = true := by
  have hlt : ∀ a b, a < b → b < cs.length → cs.getD a 0 < cs.getD b 0 := by
    intro a b hab hb
    have := List.pairwise_iff_getElem.mp hs a b (by omega) hb hab
    rwa [List.getD_eq_getElem _ _ (by omega), List.getD_eq_getElem _ _ hb]
  constructor
  · unfold inClass
    by_cases h0 : i = 0
    · rw [if_pos h0]; simp
    · rw [if_neg h0, if_neg (by omega)]
      have := hlt (i - 1) i (by omega) (by omega)
      simp only [decide_eq_true_eq]
      exact ⟨le_refl _, this.le⟩
  · unfold inClass
    rw [if_neg (by omega), Nat.add_sub_cancel]
    by_cases h1 : i + 1 = cs.length - 1
    · rw [if_pos h1]; simp
    · rw [if_neg h1]
      have := hlt i (i + 1) (by omega) h
      simp only [decide_eq_true_eq]
      exact ⟨this.le, le_refl _⟩

/-- The last cutoff has no effect, if there are at least two. -/
theorem C119_last (cs : List ℚ) (a b x : ℚ) (i : Nat) (hn : cs ≠ []) (hi : i < cs.length + 1) :
    inClass (cs ++ [a]) i x = inClass (cs ++ [b]) i x := by
  have hl : 0 < cs.length := List.length_pos_iff.mpr hn
  have hg : ∀ k, k < cs.length → (cs ++ [a]).getD k 0 = (cs ++ [b]).getD k 0 := by
    intro k hk
    rw [List.getD_eq_getElem _ _ (by simp; omega), List.getD_eq_getElem _ _ (by simp; omega), List.getElem_append_left hk,
      List.getElem_append_left hk]
  unfold inClass
  simp only [List.length_append, List.length_singleton, Nat.add_sub_cancel]
  by_cases h0 : i = 0
  · rw [if_pos h0, if_pos h0, hg i (by omega)]
  · rw [if_neg h0, if_neg h0]
    by_cases h1 : i = cs.length
    · rw [if_pos h1, if_pos h1, hg (i - 1) (by omega)]
    · rw [if_neg h1, if_neg h1, hg (i - 1) (by omega), hg i (by omega)]

/-- How many of the cutoffs, but the last, are below a value. -/
def rank (cs : List ℚ) (x : ℚ) : Nat := cs.dropLast.countP (· < x)

theorem countP_sorted (l : List ℚ) (x : ℚ) (hs : l.Pairwise (· < ·)) (k : Nat) (hk : k < l.length) :
    l[k] < x ↔ k < l.countP (· < x) := by
  induction l generalizing k with
  | nil => simp at hk
  | cons a l ih =>
    rw [List.pairwise_cons] at hs
    by_cases ha : a < x
    · rw [List.countP_cons_of_pos (by simpa using ha)]
      cases k with
      | zero => simp [ha]
      | succ k =>
        rw [List.getElem_cons_succ, ih hs.2 k (by simpa using hk)]
        omega
    · have hz : (a :: l).countP (· < x) = 0 := by
        rw [List.countP_eq_zero]
        intro b hb
        rcases List.mem_cons.mp hb with rfl | hb
        · simpa using ha
        · have := hs.1 b hb
          simp only [decide_eq_true_eq]
          intro hbx; exact ha (lt_trans this hbx)
      rw [hz]
      constructor
      · intro h
        cases k with
        | zero => exact absurd h ha
        | succ k =>
          rw [List.getElem_cons_succ] at h
          exact absurd (lt_trans (hs.1 _ (List.getElem_mem _)) h) ha
      · intro h; omega

/-- **C119** for two or more ascending cutoffs: every value belongs to a class; to only one, if it is not a cutoff. -/
theorem C119_partial (cs : List ℚ) (x : ℚ) (h2 : 2 ≤ cs.length) (hs : cs.Pairwise (· < ·)) :
    (∃ i < cs.length, inClass cs i x = true) ∧
    (x ∉ cs → ∀ i < cs.length, ∀ j < cs.length, inClass cs i x = true → inClass cs j x = true → i = j) := by
  have hd : cs.dropLast.Pairwise (· < ·) := hs.sublist (List.dropLast_sublist cs)
  have hdl : cs.dropLast.length = cs.length - 1 := List.length_dropLast
  have hr : ∀ k (hk : k < cs.length - 1), (cs.getD k 0 < x ↔ k < rank cs x) := by
    intro k hk
    rw [List.getD_eq_getElem _ _ (by omega)]
    have := countP_sorted cs.dropLast x hd k (by omega)
    rw [List.getElem_dropLast] at this
    exact this
  have hrl : rank cs x ≤ cs.length - 1 := by unfold rank; rw [← hdl]; exact List.countP_le_length
  constructor
  · refine ⟨rank cs x, by omega, ?_⟩
    unfold inClass
    by_cases h0 : rank cs x = 0
    · rw [if_pos h0]
      have := (hr (rank cs x) (by omega)).not.mpr (by omega)
      simpa using this
    · rw [if_neg h0]
      have hlo := (hr (rank cs x - 1) (by omega)).mpr (by omega)
      by_cases h1 : rank cs x = cs.length - 1
      · rw [if_pos h1]; simpa using hlo.le
      · rw [if_neg h1]
        have := (hr (rank cs x) (by omega)).not.mpr (by omega)
        simp only [decide_eq_true_eq]
        exact ⟨not_lt.mp this, hlo.le⟩
  · intro hx
    have hne : ∀ k, k < cs.length → cs.getD k 0 ≠ x := by
      intro k hk he
      rw [List.getD_eq_getElem _ _ hk] at he
      exact hx (he ▸ List.getElem_mem hk)
    have key : ∀ i < cs.length, inClass cs i x = true → i = rank cs x := by
      intro i hi h
      unfold inClass at h
      by_cases h0 : i = 0
      · rw [if_pos h0] at h
        have h' : x ≤ cs.getD i 0 := by simpa using h
        have := (hr i (by omega)).not.mp (not_lt.mpr h')
        omega
      · rw [if_neg h0] at h
        by_cases h1 : i = cs.length - 1
        · rw [if_pos h1] at h
          have h' : cs.getD (i - 1) 0 ≤ x := by simpa using h
          have := (hr (i - 1) (by omega)).mp (lt_of_le_of_ne h' (hne _ (by omega)))
          omega
        · rw [if_neg h1] at h
          simp only [decide_eq_true_eq] at h
          have hb := (hr i (by omega)).not.mp (not_lt.mpr h.1)
          have ha := (hr (i - 1) (by omega)).mp (lt_of_le_of_ne h.2 (hne _ (by omega)))
          omega
    intro i hi j hj h3 h4
    rw [key i hi h3, key j hj h4]

/-- A contour has exactly the elements of its spill in its class, and is drawn if there are any. -/
theorem C119_contours (cuts : List (Nat × List ℚ)) (els : List Item) (s i : Nat) (its : List Item) :
    ⟨s, i, its⟩ ∈ contours cuts els ↔ its ≠ [] ∧ ∃ cs, (s, cs) ∈ cuts ∧ i < cs.length ∧
      its = els.filter fun e => e.spill = s ∧ inClass cs i e.value = true := by
  unfold contours
  rw [List.mem_flatMap]
  constructor
  · rintro ⟨⟨s', cs⟩, hsc, h⟩
    rw [List.mem_filterMap] at h
    obtain ⟨i', hi', h⟩ := h
    simp only at h
    split at h
    · simp at h
    · rename_i hne
      simp only [Option.some.injEq, Contour.mk.injEq] at h
      obtain ⟨rfl, rfl, rfl⟩ := h
      refine ⟨hne, cs, hsc, List.mem_range.mp hi', ?_⟩
      rw [List.filter_filter]
      apply List.filter_congr
      intro e _
      simp [Bool.and_comm]
  · rintro ⟨hne, cs, hsc, hi, rfl⟩
    refine ⟨(s, cs), hsc, ?_⟩
    rw [List.mem_filterMap]
    refine ⟨i, List.mem_range.mpr hi, ?_⟩
    have he : (els.filter fun e => e.spill = s).filter (fun e => inClass cs i e.value) =
        els.filter fun e => e.spill = s ∧ inClass cs i e.value = true := by
      rw [List.filter_filter]
      apply List.filter_congr
      intro e _
      simp [Bool.and_comm]
    simp only
    rw [he, if_neg hne]

example : contours [(0, [1, 2, 3])] [⟨0, 1/2⟩, ⟨0, 5/2⟩, ⟨1, 5/2⟩, ⟨0, 9⟩] =
    [⟨0, 0, [⟨0, 1/2⟩]⟩, ⟨0, 2, [⟨0, 5/2⟩, ⟨0, 9⟩]⟩] := by decide +kernel

/-! ## C195 -/

/-- The end of the hour of an element, counted from the youngest element of its spill. -/
def hourEnd (els : List El) (e : El) : Nat := minAge els + ((e.age - minAge els) / bin + 1) * bin

/-- The estimate from all elements of its spill that are younger than the end of its hour. -/
def estimate (kde : Kde) (els : List El) (e : El) : ℚ :=
  match kde ((els.filter fun x => x.spill = e.spill).filter fun x =>
      x.age < hourEnd (els.filter fun x => x.spill = e.spill) e) with
  | none => 0
  | some k => k e

/-- **C195**, as the name says: only floating elements count. -/
def C195_claim : Prop := ∀ (kde : Kde) (els : List El),
  (∀ e ∈ els, e.floating = true → ∃ x, (e, x) ∈ els.zip (surfaceConc kde els) ∧
    x = estimate kde (els.filter fun e => e.floating) e)

theorem minAge_le (els : List El) (e : El) (h : e ∈ els) : minAge els ≤ e.age := by
  unfold minAge
  generalize ((els.head?.map El.age).getD 0) = d
  induction els with
  | nil => simp at h
  | cons a l ih =>
    rw [List.foldr_cons]
    rcases List.mem_cons.mp h with rfl | h
    · exact Nat.min_le_left _ _
    · exact le_trans (Nat.min_le_right _ _) (ih h)

theorem le_maxAge (els : List El) (e : El) (h : e ∈ els) : e.age ≤ maxAge els := by
  unfold maxAge
  induction els with
  | nil => simp at h
  | cons a l ih =>
    rw [List.foldr_cons]
    rcases List.mem_cons.mp h with rfl | h
    · exact Nat.le_max_left _ _
    · exact le_trans (ih h) (Nat.le_max_right _ _)

/-- What the loop gives to an element that it has still to treat. -/
def late (kde : Kde) (els : List El) (t : Nat) (e : El) (x : ℚ) : ℚ :=
  if t ≤ e.age then
    match kde (els.filter fun y => y.age < t + ((e.age - t) / bin + 1) * bin) with
    | none => x
    | some k => k e
  else x

theorem zipWith_snd (es : List El) (c : List ℚ) (h : es.length = c.length) (f : El → ℚ → ℚ)
    (hf : ∀ e ∈ es, ∀ x, f e x = x) : List.zipWith f es c = c := by
  induction es generalizing c with
  | nil => cases c with
    | nil => rfl
    | cons => simp at h
  | cons a l ih => cases c with
    | nil => simp at h
    | cons x c =>
      rw [List.zipWith_cons_cons, hf a List.mem_cons_self, ih c (by simpa using h) fun e he => hf e (List.mem_cons_of_mem _ he)]

theorem zipWith_congr' (es : List El) (c : List ℚ) (f g : El → ℚ → ℚ) (hf : ∀ e ∈ es, ∀ x, f e x = g e x) :
    List.zipWith f es c = List.zipWith g es c := by
  induction es generalizing c with
  | nil => rfl
  | cons a l ih => cases c with
    | nil => rfl
    | cons x c =>
      rw [List.zipWith_cons_cons, List.zipWith_cons_cons, hf a List.mem_cons_self,
        ih c fun e he => hf e (List.mem_cons_of_mem _ he)]

theorem zipWith_twice (es : List El) (c : List ℚ) (f g : El → ℚ → ℚ) :
    List.zipWith f es (List.zipWith g es c) = List.zipWith (fun e x => f e (g e x)) es c := by
  induction es generalizing c with
  | nil => rfl
  | cons a l ih => cases c with
    | nil => rfl
    | cons x c => simp [List.zipWith_cons_cons, ih]

theorem loop_eq (kde : Kde) (els : List El) (m t : Nat) (c : List ℚ) (hm : ∀ e ∈ els, e.age ≤ m)
    (hc : els.length = c.length) : loop kde els m t c = List.zipWith (late kde els t) els c := by
  induction hk : m + 1 - t using Nat.strong_induction_on generalizing t c with
  | _ k ih =>
    rw [loop]
    split
    · rename_i ht
      have hturn : turn kde els t c = List.zipWith (fun e x => if t ≤ e.age ∧ e.age < t + bin then
          (match kde (els.filter fun e => e.age < t + bin) with | none => x | some k => k e) else x) els c := by
        unfold turn
        cases hkde : kde (els.filter fun e => e.age < t + bin) with
        | none => rw [zipWith_snd els c hc]; intro e _ x; simp
        | some k => rfl
      rw [ih (m + 1 - (t + bin)) (by unfold bin; omega) (t + bin) _ (by rw [hturn]; simp [hc]) rfl, hturn, zipWith_twice]
      apply zipWith_congr'
      intro e he x
      unfold late
      by_cases h1 : t + bin ≤ e.age
      · rw [if_pos h1, if_pos (show t ≤ e.age by omega), if_neg (by omega)]
        have : t + bin + ((e.age - (t + bin)) / bin + 1) * bin = t + ((e.age - t) / bin + 1) * bin := by
          have h2 : (e.age - t) / bin = (e.age - (t + bin)) / bin + 1 := by
            have : e.age - t = (e.age - (t + bin)) + bin := by omega
            rw [this, Nat.add_div_right _ (by decide)]
          rw [h2]; ring
        rw [this]
      · rw [if_neg h1]
        by_cases h2 : t ≤ e.age
        · rw [if_pos h2, if_pos ⟨h2, by omega⟩]
          have : (e.age - t) / bin = 0 := Nat.div_eq_of_lt (by omega)
          rw [this]
          simp
        · rw [if_neg h2, if_neg (by tauto)]
    · rename_i ht
      rw [zipWith_snd els c hc]
      intro e he x
      unfold late
      rw [if_neg]
      have := hm e he
      omega

theorem spillConc_eq (kde : Kde) (els : List El) : spillConc kde els = els.map fun e =>
    match kde (els.filter fun y => y.age < hourEnd els e) with
    | none => 0
    | some k => k e := by
  unfold spillConc
  rw [loop_eq kde els _ _ _ (le_maxAge els) (by simp)]
  have hz : ∀ (l : List El) (f : El → ℚ → ℚ), List.zipWith f l (l.map fun _ => 0) = l.map fun e => f e 0 := by
    intro l f
    induction l with
    | nil => rfl
    | cons a l ih => rw [List.map_cons, List.map_cons, List.zipWith_cons_cons, ih]
  rw [hz]
  apply List.map_congr_left
  intro e he
  unfold late
  rw [if_pos (minAge_le els e he)]
  rfl

theorem scatter_eq (s : Nat) (f g : El → ℚ) (es : List El) :
    scatter s es (es.map g) ((es.filter fun e => e.spill = s).map f) = es.map fun e => if e.spill = s then f e else g e := by
  induction es with
  | nil => rfl
  | cons e es ih =>
    by_cases h : e.spill = s
    · rw [List.filter_cons_of_pos (by simpa using h), List.map_cons, List.map_cons, List.map_cons, scatter, if_pos h, List.headD_cons,
        List.tail_cons, ih, if_pos h]
    · rw [List.filter_cons_of_neg (by simpa using h), List.map_cons, List.map_cons, scatter, if_neg h, ih, if_neg h]

theorem fold_scatter (f : Nat → El → ℚ) (els : List El) (ss : List Nat) (g : El → ℚ) (hn : ss.Nodup) :
    ss.foldl (fun r s => scatter s els r ((els.filter fun e => e.spill = s).map (f s))) (els.map g) =
      els.map fun e => if e.spill ∈ ss then f e.spill e else g e := by
  induction ss generalizing g with
  | nil => simp
  | cons s ss ih =>
    rw [List.nodup_cons] at hn
    rw [List.foldl_cons, scatter_eq, ih _ hn.2]
    apply List.map_congr_left
    intro e _
    by_cases h1 : e.spill ∈ ss
    · rw [if_pos h1, if_pos (List.mem_cons_of_mem _ h1)]
    · rw [if_neg h1]
      by_cases h2 : e.spill = s
      · rw [if_pos h2, if_pos (by rw [h2]; exact List.mem_cons_self), h2]
      · rw [if_neg h2, if_neg (by rw [List.mem_cons]; tauto)]

theorem eraseDups_nodup (l : List Nat) : l.eraseDups.Nodup ∧ ∀ a, a ∈ l.eraseDups ↔ a ∈ l := by
  induction hk : l.length using Nat.strong_induction_on generalizing l with
  | _ k ih =>
    cases l with
    | nil => simp
    | cons a l =>
      rw [List.eraseDups_cons]
      have hlen : (l.filter fun b => !b == a).length < k := by
        rw [← hk, List.length_cons]
        exact Nat.lt_succ_of_le (List.length_filter_le _ _)
      obtain ⟨h1, h2⟩ := ih _ hlen _ rfl
      constructor
      · rw [List.nodup_cons]
        refine ⟨?_, h1⟩
        rw [h2, List.mem_filter]
        simp
      · intro b
        rw [List.mem_cons, h2, List.mem_filter, List.mem_cons]
        by_cases hb : b = a
        · simp [hb]
        · simp [hb]

/-- **C195** with all elements, floating or not: the concentration at each element is the estimate from the elements of its spill
that are younger than the end of its hour; no other spill has any influence. -/
theorem C195_partial (kde : Kde) (els : List El) : surfaceConc kde els = els.map (estimate kde els) := by
  unfold surfaceConc
  obtain ⟨h1, h2⟩ := eraseDups_nodup (els.map El.spill)
  have hfun : (fun (r : List ℚ) (s : Nat) => scatter s els r (spillConc kde (els.filter fun e => e.spill = s))) =
      fun r s => scatter s els r ((els.filter fun e => e.spill = s).map
        ((fun s e => match kde ((els.filter fun e => e.spill = s).filter fun y =>
            y.age < hourEnd (els.filter fun e => e.spill = s) e) with
          | none => 0
          | some k => k e) s)) := by
    funext r s
    rw [spillConc_eq]
  rw [hfun, fold_scatter _ els _ (fun _ => 0) h1]
  apply List.map_congr_left
  intro e he
  rw [if_pos ((h2 _).mpr (List.mem_map_of_mem he))]
  rfl

/-- The number of elements, as an estimator. -/
def count : Kde := fun l => some fun _ => l.length

/-- A sunken element counts. -/
theorem C195_counterexample : ¬ C195_claim := by
  intro h
  obtain ⟨x, hx, he⟩ := h count [⟨0, 0, 1, true, (0, 0)⟩, ⟨0, 0, 1, false, (0, 0)⟩] ⟨0, 0, 1, true, (0, 0)⟩ (by simp) rfl
  rw [C195_partial] at hx
  have e1 : estimate count [⟨0, 0, 1, true, (0, 0)⟩, ⟨0, 0, 1, false, (0, 0)⟩] ⟨0, 0, 1, true, (0, 0)⟩ = 2 := by decide +kernel
  have e2 : estimate count ([⟨0, 0, 1, true, (0, 0)⟩, ⟨0, 0, 1, false, (0, 0)⟩].filter fun e => e.floating)
      ⟨0, 0, 1, true, (0, 0)⟩ = 1 := by decide +kernel
  rw [e2] at he
  rw [List.map_cons, e1] at hx
  simp only [List.zip_cons_cons, List.mem_cons, Prod.mk.injEq, true_and, List.map_cons, List.map_nil, List.zip_nil_right] at hx
  rcases hx with hx | ⟨hx, _⟩ | hx
  · rw [hx] at he; norm_num at he
  · simp at hx
  · simp at hx

/-- An element that is an hour older than the youngest is estimated with all elements, the youngest only with those of its hour. -/
example : surfaceConc count [⟨0, 0, 1, true, (0, 0)⟩, ⟨0, 3600, 1, true, (0, 0)⟩, ⟨1, 5, 1, true, (0, 0)⟩] = [1, 2, 1] := by
  rw [C195_partial]; decide +kernel

end Verif.Hull
