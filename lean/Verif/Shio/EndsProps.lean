import Verif.Shio.EndsModel
import Mathlib.Tactic.Linarith
import Mathlib.Tactic.LinearCombination
import Mathlib.Tactic.FieldSimp
import Mathlib.Tactic.Ring
import Mathlib.Data.List.GetD

/-!
# C358: the curve of a tide station begins and ends where it is asked for
-/

namespace Verif.Shio.Ends

/-- A value on a curve of straight lines through points. -/
def OnCurve (pts : List Pt) (x v : ℚ) : Prop :=
  ∃ i, ∃ h : i + 1 < pts.length, pts[i].t ≤ x ∧ x ≤ pts[i + 1].t ∧
    v * (pts[i + 1].t - pts[i].t) = pts[i].v * (pts[i + 1].t - x) + pts[i + 1].v * (x - pts[i].t)

/-- The points strictly between two times. -/
def inside (pts : List Pt) (b e : ℚ) : List Pt := pts.filter fun p => decide (b < p.t) && decide (p.t < e)

/-- A curve whose points are in order and which covers the time from `b` to `e`. -/
structure Covers (pts : List Pt) (b e : ℚ) : Prop where
  order : pts.Pairwise (fun p q => p.t < q.t)
  first : ∃ p, pts.head? = some p ∧ p.t ≤ b
  last : ∃ p, pts.getLast? = some p ∧ e ≤ p.t
  less : b < e

/-- The claim: from `b` to `e` the curve is that of the points: it begins at `b` and ends at `e` with the values of the curve there, and in
between are the points of the curve. -/
def C358_claim : Prop :=
  ∀ (k : Station) (pts : List Pt) (b e : ℚ), Covers pts b e →
    ∃ vb ve, OnCurve pts b vb ∧ OnCurve pts e ve ∧ kept k pts b e = ⟨b, vb⟩ :: inside pts b e ++ [⟨e, ve⟩]

/-! ## Lists -/

theorem mapIdx_none {l : List Pt} {f : Nat → Pt → Option Pt} (h : ∀ i (hi : i < l.length), f i l[i] = none) :
    (l.mapIdx f).filterMap id = [] := by
  induction l generalizing f with
  | nil => rfl
  | cons a l ih =>
    rw [List.mapIdx_cons, List.filterMap_cons_none (show id (f 0 a) = none from h 0 (by simp))]
    exact ih fun i hi => h (i + 1) (by simpa using hi)

theorem mapIdx_some {l : List Pt} {f : Nat → Pt → Option Pt} (h : ∀ i (hi : i < l.length), f i l[i] = some l[i]) :
    (l.mapIdx f).filterMap id = l := by
  induction l generalizing f with
  | nil => rfl
  | cons a l ih =>
    rw [List.mapIdx_cons, List.filterMap_cons_some (b := a) (show id (f 0 a) = some a from h 0 (by simp))]
    rw [ih fun i hi => h (i + 1) (by simpa using hi)]

theorem onLine_eq (p q : Pt) (x : ℚ) (h : p.t < q.t) : onLine p q x * (q.t - p.t) = p.v * (q.t - x) + q.v * (x - p.t) := by
  have : q.t - p.t ≠ 0 := by linarith
  unfold onLine
  field_simp
  ring

/-- What is found for the begin. -/
theorem startCross_spec {pts : List Pt} {b e : ℚ} (h : Covers pts b e) : ∃ i, startCross pts b = i ∧
    ∃ hi : i + 1 < pts.length, pts[i].t ≤ b ∧ b < pts[i + 1].t := by
  obtain ⟨p, hp, hpb⟩ := h.first
  obtain ⟨q, hq, hqe⟩ := h.last
  cases pts with
  | nil => cases hp
  | cons a l =>
    simp only [List.head?_cons, Option.some.injEq] at hp
    subst hp
    unfold startCross
    simp only [List.tail_cons]
    cases hf : l.findIdx? fun p => decide (b < p.t) with
    | none =>
      rw [List.findIdx?_eq_none_iff] at hf
      exfalso
      have hm : q ∈ a :: l := List.mem_of_getLast? hq
      rcases List.mem_cons.1 hm with rfl | hm
      · have := h.less; linarith
      · have := hf q hm
        have := h.less
        simp at *
        linarith
    | some i =>
      rw [List.findIdx?_eq_some_iff_getElem] at hf
      obtain ⟨hi, h1, h2⟩ := hf
      refine ⟨i, rfl, by simpa using hi, ?_, by simpa using h1⟩
      cases i with
      | zero => simpa using hpb
      | succ i =>
        have := h2 i (by omega)
        simpa using this

/-- What is found for the end. -/
theorem endCross_spec {k : Station} {pts : List Pt} {b e : ℚ} (h : Covers pts b e) (hk : k = .height → ∀ p ∈ pts.dropLast, p.t ≠ e) :
    ∃ i, endCross k pts e = i ∧ ∃ hi : i + 1 < pts.length, pts[i].t < e ∧ e ≤ pts[i + 1].t := by
  obtain ⟨p, hp, hpb⟩ := h.first
  obtain ⟨q, hq, hqe⟩ := h.last
  have hl := h.less
  cases pts with
  | nil => cases hp
  | cons a l =>
    simp only [List.head?_cons, Option.some.injEq] at hp
    subst hp
    have hne : l ≠ [] := by
      rintro rfl
      simp at hq
      subst hq
      linarith
    have hlen := List.length_pos_iff.2 hne
    unfold endCross
    simp only [List.tail_cons]
    cases hf : l.findIdx? fun p => late k e p.t with
    | none =>
      rw [List.findIdx?_eq_none_iff] at hf
      cases k with
      | current =>
        exfalso
        have hm : q ∈ a :: l := List.mem_of_getLast? hq
        rcases List.mem_cons.1 hm with rfl | hm
        · linarith
        · have := hf q hm
          simp [late] at this
          linarith
      | height =>
        have e1 : (none : Option Nat).getD ((a :: l).length - 2) = l.length - 1 := by simp
        rw [e1]
        refine ⟨_, rfl, by simp; omega, ?_, ?_⟩
        · have hm : (a :: l)[l.length - 1]'(by simp; omega) ∈ (a :: l).dropLast := by
            rw [List.mem_iff_getElem]
            exact ⟨l.length - 1, by simp; omega, by rw [List.getElem_dropLast]⟩
          have hne' := hk rfl _ hm
          refine lt_of_le_of_ne ?_ hne'
          by_cases h1 : l.length - 1 = 0
          · simp only [h1, List.getElem_cons_zero]; linarith
          · obtain ⟨m, hm'⟩ : ∃ m, l.length - 1 = m + 1 := ⟨l.length - 2, by omega⟩
            simp only [hm', List.getElem_cons_succ]
            have := hf (l[m]'(by omega)) (List.getElem_mem _)
            simpa [late] using this
        · have : q = l[l.length - 1] := by
            rw [List.getLast?_eq_some_getLast (by simp), List.getLast_cons hne, List.getLast_eq_getElem] at hq
            exact (Option.some.inj hq).symm
          simp only [List.getElem_cons_succ]
          rw [← this]; exact hqe
    | some i =>
      rw [List.findIdx?_eq_some_iff_getElem] at hf
      obtain ⟨hi, h1, h2⟩ := hf
      have hle : e ≤ l[i].t := by
        cases k <;> simp [late] at h1 <;> linarith
      refine ⟨i, rfl, by simpa using hi, ?_, by simpa using hle⟩
      cases i with
      | zero => simp only [List.getElem_cons_zero]; linarith
      | succ i =>
        have h3 := h2 i (by omega)
        simp only [List.getElem_cons_succ]
        cases k with
        | current => simpa [late] using h3
        | height =>
          have h4 : l[i].t ≤ e := by simpa [late] using h3
          refine lt_of_le_of_ne h4 (hk rfl _ ?_)
          rw [List.mem_iff_getElem]
          exact ⟨i + 1, by simp; omega, by rw [List.getElem_dropLast]; simp⟩

theorem getD_eq {pts : List Pt} {i : Nat} (h : i < pts.length) : pts.getD i zeroPt = pts[i] := by
  rw [List.getD_eq_getElem?_getD, List.getElem?_eq_getElem h, Option.getD_some]

/-- A list with two marked places. -/
theorem split_two (pts : List Pt) (s c : Nat) (hsc : s ≤ c) (hc : c + 1 < pts.length) :
    ∃ A M B p q, pts = A ++ p :: (M ++ q :: B) ∧ A.length = s ∧ M.length = c - s ∧ p = pts[s]'(by omega) ∧ q = pts[c + 1] := by
  refine ⟨pts.take s, (pts.drop (s + 1)).take (c - s), pts.drop (c + 2), pts[s], pts[c + 1], ?_, by simp; omega, by simp; omega, rfl, rfl⟩
  have h1 : pts.drop (s + 1) = (pts.drop (s + 1)).take (c - s) ++ pts[c + 1] :: pts.drop (c + 2) := by
    conv_lhs => rw [← List.take_append_drop (c - s) (pts.drop (s + 1))]
    rw [List.drop_drop, show s + 1 + (c - s) = c + 1 by omega, List.drop_eq_getElem_cons hc]
  rw [← h1, ← List.drop_eq_getElem_cons (by omega), List.take_append_drop]

/-- The points that are kept, with the places of the ends. -/
theorem kept_at {k : Station} {pts : List Pt} {b e : ℚ} (h : Covers pts b e) (hk : k = .height → ∀ p ∈ pts.dropLast, p.t ≠ e) :
    ∃ s c, ∃ _ : s ≤ c, ∃ _ : c + 1 < pts.length, pts[s].t ≤ b ∧ b < pts[s + 1].t ∧ pts[c].t < e ∧ e ≤ pts[c + 1].t ∧
      kept k pts b e = ⟨b, onLine pts[s] pts[s + 1] b⟩ :: (pts.drop (s + 1)).take (c - s) ++ [⟨e, onLine pts[c] pts[c + 1] e⟩] ∧
      (pts.drop (s + 1)).take (c - s) = inside pts b e := by
  obtain ⟨s, hs, hs1, hs2, hs3⟩ := startCross_spec h
  obtain ⟨c, hc, hc1, hc2, hc3⟩ := endCross_spec h hk
  have hmono : ∀ i j (hi : i < j) (hj : j < pts.length), pts[i].t < pts[j].t := fun i j hi hj =>
    List.pairwise_iff_getElem.1 h.order i j (by omega) hj hi
  have hmono' : ∀ i j (hi : i ≤ j) (hj : j < pts.length), pts[i].t ≤ pts[j].t := by
    intro i j hi hj
    rcases hi.lt_or_eq with hi | rfl
    · exact (hmono i j hi hj).le
    · exact le_refl _
  have hsc : s ≤ c := by
    by_contra hlt
    have := hmono' (c + 1) s (by omega) (by omega)
    have := h.less
    linarith
  refine ⟨s, c, hsc, hc1, hs2, hs3, hc2, hc3, ?_⟩
  obtain ⟨A, M, B, p, q, hp, hA, hM, hps, hqs⟩ := split_two pts s c hsc hc1
  have hMm : (pts.drop (s + 1)).take (c - s) = M := by
    have : pts.drop (s + 1) = M ++ q :: B := by
      rw [hp, ← hA, show A ++ p :: (M ++ q :: B) = (A ++ [p]) ++ (M ++ q :: B) by simp, show A.length + 1 = (A ++ [p]).length by simp, List.drop_left]
    rw [this, ← hM, List.take_left]
  have atM : ∀ i (hi : i < M.length), M[i] = pts[s + 1 + i]'(by omega) := by
    intro i hi
    simp only [← hMm, List.getElem_take, List.getElem_drop]
  rw [hMm]
  constructor
  · unfold kept
    have hf : ∀ i x, fixed k pts b e i x = if i = c + 1 then some ⟨e, onLine pts[c] pts[c + 1] e⟩ else if c + 1 < i then none
        else if i = s then some ⟨b, onLine pts[s] pts[s + 1] b⟩ else if i < s then none else some x := by
      intro i x
      simp only [fixed, hs, hc, valueAt]
      rw [getD_eq hc1, getD_eq (show c < pts.length by omega), getD_eq hs1, getD_eq (show s < pts.length by omega)]
    generalize fixed k pts b e = f at hf
    generalize onLine pts[s] pts[s + 1] b = vb at hf
    generalize onLine pts[c] pts[c + 1] e = ve at hf
    rw [hp, List.mapIdx_append, List.mapIdx_cons, List.mapIdx_append, List.mapIdx_cons]
    simp only [List.filterMap_append, List.filterMap_cons]
    rw [mapIdx_none (l := A) fun i hi => by rw [hf, if_neg (by omega), if_neg (by omega), if_neg (by omega), if_pos (by omega)]]
    rw [mapIdx_some (l := M) fun i hi => by
      rw [hf, if_neg (by omega), if_neg (by omega), if_neg (by omega), if_neg (by omega)]]
    rw [mapIdx_none (l := B) fun i hi => by rw [hf, if_neg (by omega), if_pos (by omega)]]
    have g1 : f (0 + A.length) p = some ⟨b, vb⟩ := by
      rw [hf, if_neg (by omega), if_neg (by omega), if_pos (by omega)]
    have g2 : f (0 + M.length + 1 + A.length) q = some ⟨e, ve⟩ := by
      rw [hf, if_pos (by omega)]
    simp only [g1, g2, id, List.nil_append, List.cons_append]
  · unfold inside
    rw [hp, List.filter_append, List.filter_cons, List.filter_append, List.filter_cons]
    have hAe : A.filter (fun p => decide (b < p.t) && decide (p.t < e)) = [] := by
      rw [List.filter_eq_nil_iff]
      intro x hx
      obtain ⟨i, hi, rfl⟩ := List.mem_iff_getElem.1 hx
      have : A[i] = pts[i]'(by omega) := by simp only [hp]; rw [List.getElem_append_left hi]
      rw [this]
      have := hmono' i s (by omega) (by omega)
      simp only [Bool.and_eq_true, decide_eq_true_eq, not_and]
      intro; linarith
    have hBe : B.filter (fun p => decide (b < p.t) && decide (p.t < e)) = [] := by
      rw [List.filter_eq_nil_iff]
      intro x hx
      have hord := h.order
      rw [hp] at hord
      have h1 := (List.pairwise_append.1 hord).2.1
      have h2 := (List.pairwise_append.1 (List.pairwise_cons.1 h1).2).2.1
      have := (List.pairwise_cons.1 h2).1 x hx
      rw [hqs] at this
      simp only [Bool.and_eq_true, decide_eq_true_eq, not_and]
      intro; linarith
    have hMe : M.filter (fun p => decide (b < p.t) && decide (p.t < e)) = M := by
      rw [List.filter_eq_self]
      intro x hx
      obtain ⟨i, hi, rfl⟩ := List.mem_iff_getElem.1 hx
      rw [atM i hi]
      have h1 := hmono' (s + 1) (s + 1 + i) (by omega) (by omega)
      have h2 := hmono' (s + 1 + i) c (by omega) (by omega)
      simp only [Bool.and_eq_true, decide_eq_true_eq]
      exact ⟨by linarith, by linarith⟩
    rw [hAe, hBe, hMe]
    rw [if_neg (by simp only [Bool.and_eq_true, decide_eq_true_eq, not_and]; intro; rw [hps] at *; linarith),
      if_neg (by simp only [Bool.and_eq_true, decide_eq_true_eq, not_and]; intro; rw [hqs]; linarith)]
    simp

/-- **C358 (partial)** a curve of currents, and one of heights that has no point at the end or ends there: it begins at `b` and ends at `e`, with
the values of the curve there; in between are the points of the curve. -/
theorem C358_partial (k : Station) (pts : List Pt) (b e : ℚ) (h : Covers pts b e) (hk : k = .height → ∀ p ∈ pts.dropLast, p.t ≠ e) :
    ∃ vb ve, OnCurve pts b vb ∧ OnCurve pts e ve ∧ kept k pts b e = ⟨b, vb⟩ :: inside pts b e ++ [⟨e, ve⟩] := by
  obtain ⟨s, c, hsc, hc1, h1, h2, h3, h4, h5, h6⟩ := kept_at h hk
  rw [h6] at h5
  exact ⟨_, _, ⟨s, by omega, h1, h2.le, onLine_eq _ _ _ (by linarith)⟩, ⟨c, hc1, h3.le, h4, onLine_eq _ _ _ (by linarith)⟩, h5⟩

/-- A value on the line through two points of a line is on this line. -/
theorem line_line {p q p' q' : Pt} {x v : ℚ} (h' : p'.t < q'.t) (hp : p'.v * (q.t - p.t) = p.v * (q.t - p'.t) + q.v * (p'.t - p.t))
    (hq : q'.v * (q.t - p.t) = p.v * (q.t - q'.t) + q.v * (q'.t - p.t)) (hv : v * (q'.t - p'.t) = p'.v * (q'.t - x) + q'.v * (x - p'.t)) :
    v * (q.t - p.t) = p.v * (q.t - x) + q.v * (x - p.t) := by
  have hd : q'.t - p'.t ≠ 0 := by linarith
  apply mul_right_cancel₀ hd
  linear_combination (q.t - p.t) * hv + (q'.t - x) * hp + (x - p'.t) * hq

/-- **C358** every value of the curve that is kept is a value of the curve. -/
theorem C358_curve (k : Station) (pts : List Pt) (b e x v : ℚ) (h : Covers pts b e) (hk : k = .height → ∀ p ∈ pts.dropLast, p.t ≠ e)
    (hx : OnCurve (kept k pts b e) x v) : OnCurve pts x v ∧ b ≤ x ∧ x ≤ e := by
  obtain ⟨s, c, hsc, hc1, h1, h2, h3, h4, h5, h6⟩ := kept_at h hk
  have hmono : ∀ i j (hi : i < j) (hj : j < pts.length), pts[i].t < pts[j].t := fun i j hi hj =>
    List.pairwise_iff_getElem.1 h.order i j (by omega) hj hi
  obtain ⟨j, hj, x1, x2, x3⟩ := hx
  have hlen : (kept k pts b e).length = c - s + 2 := by
    rw [h5]; simp; omega
  -- the points that are kept
  have hat : ∀ j (hj : j < (kept k pts b e).length), (kept k pts b e)[j] =
      if j = 0 then ⟨b, onLine pts[s] pts[s + 1] b⟩ else if j = c - s + 1 then ⟨e, onLine pts[c] pts[c + 1] e⟩ else pts.getD (s + j) zeroPt := by
    intro j hj
    have hj' : j < c - s + 2 := by omega
    simp only [h5]
    cases j with
    | zero => simp
    | succ j =>
      rw [if_neg (by omega)]
      simp only [List.cons_append, List.getElem_cons_succ]
      by_cases hl : j + 1 = c - s + 1
      · rw [if_pos hl, List.getElem_append_right (by simp; omega)]
        simp
      · rw [if_neg hl, List.getElem_append_left (by simp; omega), List.getElem_take, List.getElem_drop, getD_eq (by omega)]
        congr 1; omega
  -- each lies on its piece of the curve
  have hseg : ∀ (i : Nat) (hi : i + 1 < pts.length) (p : Pt), p = pts[i] ∨ p = pts[i + 1] ∨
      (i = s ∧ p = ⟨b, onLine pts[s] pts[s + 1] b⟩) ∨ (i = c ∧ p = ⟨e, onLine pts[c] pts[c + 1] e⟩) →
      p.v * (pts[i + 1].t - pts[i].t) = pts[i].v * (pts[i + 1].t - p.t) + pts[i + 1].v * (p.t - pts[i].t) := by
    intro i hi p hp
    rcases hp with rfl | rfl | ⟨rfl, rfl⟩ | ⟨rfl, rfl⟩
    · ring
    · ring
    · exact onLine_eq _ _ _ (hmono _ _ (by omega) hi)
    · exact onLine_eq _ _ _ (hmono _ _ (by omega) hi)
  have hi : s + j + 1 < pts.length := by omega
  have hp := hat j (by omega)
  have hq := hat (j + 1) (by omega)
  rw [if_neg (by omega)] at hq
  have hP : (kept k pts b e)[j] = pts[s + j] ∨ (kept k pts b e)[j] = pts[s + j + 1] ∨
      (s + j = s ∧ (kept k pts b e)[j] = ⟨b, onLine pts[s] pts[s + 1] b⟩) ∨ (s + j = c ∧ (kept k pts b e)[j] = ⟨e, onLine pts[c] pts[c + 1] e⟩) := by
    by_cases h0 : j = 0
    · rw [if_pos h0] at hp; exact .inr (.inr (.inl ⟨by omega, hp⟩))
    · rw [if_neg h0, if_neg (by omega), getD_eq (by omega)] at hp
      exact .inl hp
  have hQ : (kept k pts b e)[j + 1] = pts[s + j] ∨ (kept k pts b e)[j + 1] = pts[s + j + 1] ∨
      (s + j = s ∧ (kept k pts b e)[j + 1] = ⟨b, onLine pts[s] pts[s + 1] b⟩) ∨ (s + j = c ∧ (kept k pts b e)[j + 1] = ⟨e, onLine pts[c] pts[c + 1] e⟩) := by
    by_cases h0 : j + 1 = c - s + 1
    · rw [if_pos h0] at hq; exact .inr (.inr (.inr ⟨by omega, hq⟩))
    · rw [if_neg h0, getD_eq (by omega)] at hq
      exact .inr (.inl hq)
  have tP : pts[s + j].t ≤ (kept k pts b e)[j].t ∧ b ≤ (kept k pts b e)[j].t ∧ (kept k pts b e)[j].t < e ∧ (j ≠ 0 → b < (kept k pts b e)[j].t) := by
    by_cases h0 : j = 0
    · subst h0
      rw [if_pos rfl] at hp
      rw [hp]
      exact ⟨h1, le_refl _, h.less, by omega⟩
    · rw [if_neg h0, if_neg (by omega), getD_eq (by omega)] at hp
      rw [hp]
      have a1 : b < pts[s + j].t := by
        rcases Nat.lt_or_ge 1 j with hlt | hge
        · have := hmono (s + 1) (s + j) (by omega) (by omega); linarith
        · have : j = 1 := by omega
          subst this; exact h2
      have a2 : pts[s + j].t < e := by
        rcases Nat.lt_or_ge (s + j) c with hlt | hge
        · have := hmono (s + j) c hlt (by omega); linarith
        · have : s + j = c := by omega
          simp only [this]; exact h3
      exact ⟨le_refl _, a1.le, a2, fun _ => a1⟩
  have tQ : (kept k pts b e)[j + 1].t ≤ pts[s + j + 1].t ∧ (kept k pts b e)[j + 1].t ≤ e ∧ (kept k pts b e)[j].t < (kept k pts b e)[j + 1].t := by
    by_cases h0 : j + 1 = c - s + 1
    · rw [if_pos h0] at hq
      rw [hq]
      have : s + j = c := by omega
      simp only [this]
      exact ⟨h4, le_refl _, tP.2.2.1⟩
    · rw [if_neg h0, getD_eq (by omega)] at hq
      rw [hq]
      have e1 : pts[s + (j + 1)].t < e := by
        rcases Nat.lt_or_ge (s + (j + 1)) c with hlt | hge
        · have := hmono (s + (j + 1)) c hlt (by omega); linarith
        · have : s + (j + 1) = c := by omega
          simp only [this]; exact h3
      refine ⟨le_refl _, e1.le, ?_⟩
      by_cases hj0 : j = 0
      · subst hj0
        rw [if_pos rfl] at hp
        rw [hp]; exact h2
      · rw [if_neg hj0, if_neg (by omega), getD_eq (by omega)] at hp
        rw [hp]; exact hmono _ _ (by omega) _
  refine ⟨⟨s + j, hi, by linarith [tP.1], by linarith [tQ.1], ?_⟩, by linarith [tP.2.1], by linarith [tQ.2.1]⟩
  exact line_line tQ.2.2 (hseg _ hi _ hP) (hseg _ hi _ hQ) x3

/-- **C358** the events that are kept are those from `b` to `e`, both included, in their order. -/
theorem C358_events (evs : List Pt) (b e : ℚ) (p : Pt) : p ∈ keptEvents evs b e ↔ p ∈ evs ∧ b ≤ p.t ∧ p.t ≤ e := by
  simp [keptEvents]

/-- **C358** the times of the curve count from the begin: the first is 0, the last the length of the time asked for. -/
theorem C358_reset (k : Station) (pts : List Pt) (b e : ℚ) (h : Covers pts b e) (hk : k = .height → ∀ p ∈ pts.dropLast, p.t ≠ e) :
    ((curve k pts b e).head?.map (·.t)) = some 0 ∧ ((curve k pts b e).getLast?.map (·.t)) = some (e - b) := by
  obtain ⟨vb, ve, _, _, h3⟩ := C358_partial k pts b e h hk
  unfold curve reset
  rw [h3]
  constructor
  · simp
  · rw [List.map_append, List.getLast?_append]; simp

/-- A case: three pieces of a curve, cut in the first and in the last. -/
example : kept .current [⟨0, 0⟩, ⟨1, 4⟩, ⟨2, 2⟩, ⟨3, 3⟩] (1 / 2) (5 / 2) = [⟨1 / 2, 2⟩, ⟨1, 4⟩, ⟨2, 2⟩, ⟨5 / 2, 5 / 2⟩] := by decide +kernel

example : kept .current [⟨0, 0⟩, ⟨1, 4⟩, ⟨2, 2⟩, ⟨3, 3⟩] 1 2 = [⟨1, 4⟩, ⟨2, 2⟩] := by decide +kernel

example : Covers [⟨0, 0⟩, ⟨1, 4⟩, ⟨2, 2⟩, ⟨3, 3⟩] (1 / 2) (5 / 2) :=
  ⟨by decide +kernel, ⟨_, rfl, by norm_num⟩, ⟨_, rfl, by norm_num⟩, by norm_num⟩

/-- **C358** heights with a point at the end that is not the last: this point is there twice. -/
theorem C358_counterexample : ¬ C358_claim := by
  intro h
  have hc : Covers [⟨0, 0⟩, ⟨1, 4⟩, ⟨2, 2⟩, ⟨3, 3⟩] 1 2 := ⟨by decide +kernel, ⟨_, rfl, by norm_num⟩, ⟨_, rfl, by norm_num⟩, by norm_num⟩
  obtain ⟨vb, ve, _, _, h3⟩ := h .height _ _ _ hc
  have e1 : kept .height [⟨0, 0⟩, ⟨1, 4⟩, ⟨2, 2⟩, ⟨3, 3⟩] 1 2 = [⟨1, 4⟩, ⟨2, 2⟩, ⟨2, 2⟩] := by decide +kernel
  have e2 : inside [⟨0, 0⟩, ⟨1, 4⟩, ⟨2, 2⟩, ⟨3, 3⟩] 1 2 = [] := by decide +kernel
  rw [e1, e2] at h3
  have := congrArg List.length h3
  simp at this

end Verif.Shio.Ends
