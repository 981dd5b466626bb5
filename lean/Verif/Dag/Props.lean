import Verif.Dag.Lemmas

/-!
# C104: a point is located in the triangle that contains it
-/

namespace Verif.Dag

/-! ## What is found is true -/

/-- The nodes of a tree satisfy a predicate. -/
def Tree.All (P : Side → Prop) : Tree → Prop
  | .leaf => True
  | .node s l r => P s ∧ l.All P ∧ r.All P

theorem Built.all {m : Mesh} {P : Side → Prop} {l : List Side} {t : Tree} (h : Built m l t) (hl : ∀ s ∈ l, P s) : t.All P := by
  induction h with
  | nil => trivial
  | node pre post s a b hp _ _ iha ihb =>
    refine ⟨hl s (by simp), iha ?_, ihb ?_⟩
    · intro x hx
      have := (List.mem_filter.mp hx).1
      exact hl x (by simp only [List.mem_append, List.mem_cons] at this ⊢; tauto)
    · intro x hx
      have := (List.mem_filter.mp hx).1
      exact hl x (by simp only [List.mem_append, List.mem_cons] at this ⊢; tauto)

theorem mem_sides {m : Mesh} {s : Side} : s ∈ m.sides ↔ s.1 < m.n ∧ m.listed s = true := by
  obtain ⟨i, k⟩ := s
  unfold Mesh.sides
  rw [List.mem_filter, List.mem_flatMap]
  constructor
  · rintro ⟨⟨a, ha, hs⟩, h⟩
    rw [List.mem_range] at ha
    refine ⟨?_, h⟩
    simp only [List.mem_cons, Prod.mk.injEq, List.not_mem_nil, or_false] at hs
    have : i = a := by tauto
    rw [this]; exact ha
  · rintro ⟨h1, h2⟩
    refine ⟨⟨i, List.mem_range.mpr h1, ?_⟩, h2⟩
    fin_cases k <;> simp

theorem inside_iff {m : Mesh} {i : Nat} {pt : Pt} : m.inside i pt = true ↔ StrictIn m i pt := by
  simp only [Mesh.inside, Mesh.left, Bool.and_eq_true, decide_eq_true_eq]
  constructor
  · rintro ⟨⟨a, b⟩, c⟩
    exact strictIn_rot 0 a b c
  · intro h
    obtain ⟨a, b, c⟩ := h.sides
    exact ⟨⟨a, b⟩, c⟩

theorem lost_true {m : Mesh} {pt : Pt} {s : Side} {third i : Nat} (hp : ∀ v, m.pts v ≠ pt) (h : m.lost pt s third = some i) :
    i < m.n ∧ StrictIn m i pt := by
  unfold Mesh.lost at h
  rw [if_neg] at h
  · have h1 := List.find?_some h
    have h2 := List.mem_of_find?_eq_some h
    rw [Bool.and_eq_true] at h1
    exact ⟨List.mem_range.mp h2, inside_iff.mp h1.2⟩
  · rintro (h | h | h) <;> exact hp _ h.symm

theorem go_true {m : Mesh} (hv : Valid m) {pt : Pt} (hp : ∀ v, m.pts v ≠ pt) (t : Tree) (ht : t.All fun s => s.1 < m.n) (s0 : Side)
    (third i : Nat) (h : m.go pt t s0 third = some i) : i < m.n ∧ ClosedIn m i pt := by
  induction t generalizing s0 third with
  | leaf => obtain ⟨a, b⟩ := lost_true hp h; exact ⟨a, b.closed⟩
  | node s l r ihl ihr =>
    obtain ⟨hs, hl, hr⟩ := ht
    unfold Mesh.go at h
    by_cases h1 : m.left (m.first s) (m.second s) pt = true
    · rw [if_pos h1] at h
      by_cases h2 : (m.left (m.second s) (m.third s) pt && m.left (m.third s) (m.first s) pt) = true
      · rw [if_pos h2] at h
        cases h
        simp only [Bool.and_eq_true, Mesh.left, decide_eq_true_eq] at h1 h2
        exact ⟨hs, (strictIn_rot s.2 h1 h2.1 h2.2).closed⟩
      · rw [if_neg h2] at h
        exact ihl hl _ _ h
    · rw [if_neg h1] at h
      cases hr' : m.right s with
      | none =>
        rw [hr'] at h
        obtain ⟨a, b⟩ := lost_true hp h; exact ⟨a, b.closed⟩
      | some j =>
        rw [hr'] at h
        dsimp only at h
        obtain ⟨hj, -, k, e1, e2, -⟩ := hv.adj s.1 hs s.2 j hr'
        have hf : m.findThird (m.second s) (m.first s) j = (m.tri j).v (k + 2) := findThird_eq hv hj k e1 e2
        rw [hf] at h
        by_cases h2 : (m.left ((m.tri j).v (k + 2)) (m.second s) pt && m.left (m.first s) ((m.tri j).v (k + 2)) pt) = true
        · rw [if_pos h2] at h
          cases h
          simp only [Bool.and_eq_true, Mesh.left, decide_eq_true_eq, not_lt] at h1 h2
          refine ⟨hj, closedIn_rot k ?_ ?_ ?_⟩
          · rw [e1, e2]
            change cp (m.pts (m.second s)) (m.pts (m.first s)) pt ≤ 0
            rw [cp_swap]; omega
          · rw [e2]; exact h2.2.le
          · rw [e1]; exact h2.1.le
        · rw [if_neg h2] at h
          exact ihr hr _ _ h

/-- **C104** for points that are no points of the grid: whatever tree was built, the triangle found contains the point. -/
theorem C104_true_partial (m : Mesh) (t : Tree) (junk : Nat) (pt : Pt) (i : Nat) (hv : Valid m) (hb : Built m m.sides t)
    (hp : ∀ v, m.pts v ≠ pt) (h : m.locate t junk pt = some i) : i < m.n ∧ ClosedIn m i pt :=
  go_true hv hp t (hb.all fun _ hs => (mem_sides.mp hs).1) _ _ _ h

/-- **C104** for points inside a triangle: the answer is that triangle or none, never another. -/
theorem C104_right_or_lost (m : Mesh) (t : Tree) (junk : Nat) (pt : Pt) (i : Nat) (hv : Valid m) (hb : Built m m.sides t)
    (hp : ∀ v, m.pts v ≠ pt) (hi : i < m.n)
    (h : StrictIn m i pt) : m.locate t junk pt = some i ∨ m.locate t junk pt = none := by
  cases hq : m.locate t junk pt with
  | none => exact Or.inr rfl
  | some j =>
    obtain ⟨hj, hc⟩ := C104_true_partial m t junk pt j hv hb hp hq
    by_cases hne : i = j
    · rw [hne]; exact Or.inl rfl
    · exact absurd hc (hv.apart i hi j hj hne pt h)

/-- **C104** outside the grid: a point in no triangle is found in none. -/
theorem C104_outside (m : Mesh) (t : Tree) (junk : Nat) (pt : Pt) (hv : Valid m) (hb : Built m m.sides t)
    (hp : ∀ v, m.pts v ≠ pt) (h : ∀ i < m.n, ¬ ClosedIn m i pt) : m.locate t junk pt = none := by
  cases hq : m.locate t junk pt with
  | none => rfl
  | some j =>
    obtain ⟨hj, hc⟩ := C104_true_partial m t junk pt j hv hb hp hq
    exact absurd hc (h j hj)

/-! ## What is there is found -/

/-- How two numbers classify a side. -/
def cls (c1 c2 : ℤ) : Int :=
  if 0 < c1 then (if 0 ≤ c2 then 1 else 0)
  else if c1 = 0 then (if 0 < c2 then 1 else if c2 = 0 then 0 else -1)
  else (if 0 < c2 then 0 else -1)

theorem sideOf_eq (m : Mesh) (s x : Side) : m.sideOf s x =
    cls (cp (m.pts (m.first s)) (m.pts (m.second s)) (m.pts (m.first x)))
      (cp (m.pts (m.first s)) (m.pts (m.second s)) (m.pts (m.second x))) := by
  have e1 : (if m.second s = m.first x then 0 else if m.first s = m.first x then 0 else
      cp (m.pts (m.first s)) (m.pts (m.second s)) (m.pts (m.first x))) =
      cp (m.pts (m.first s)) (m.pts (m.second s)) (m.pts (m.first x)) := by
    split
    · rename_i h; rw [← h, cp_right]
    · split
      · rename_i h; rw [← h, cp_left]
      · rfl
  have e2 : (if m.second s ≠ m.first x ∧ m.second s = m.second x then 0 else
      if m.first s ≠ m.first x ∧ m.first s = m.second x then 0 else
      cp (m.pts (m.first s)) (m.pts (m.second s)) (m.pts (m.second x))) =
      cp (m.pts (m.first s)) (m.pts (m.second s)) (m.pts (m.second x)) := by
    split
    · rename_i h; rw [← h.2, cp_right]
    · split
      · rename_i h; rw [← h.2, cp_left]
      · rfl
  unfold Mesh.sideOf
  dsimp only
  rw [e1, e2]
  rfl

theorem cls_ne_one {a b : ℤ} (ha : a ≤ 0) (hb : b ≤ 0) : cls a b ≠ 1 := by
  unfold cls
  split
  · omega
  · split
    · rw [if_neg (by omega)]; split <;> decide
    · rw [if_neg (by omega)]; decide

theorem cls_ne_neg {a b : ℤ} (ha : 0 ≤ a) (hb : 0 ≤ b) : cls a b ≠ -1 := by
  unfold cls
  split
  · decide
  · rw [if_pos (by omega)]
    split
    · decide
    · rw [if_pos (by omega)]; decide

/-- The side `s` is the side of triangle `i` that begins at its vertex `k`, or the same seen from the neighbour. -/
def IsSide (m : Mesh) (i : Nat) (k : Fin 3) (s : Side) : Prop :=
  s = (i, k) ∨ (m.right s = some i ∧ m.first s = (m.tri i).v (k + 1) ∧ m.second s = (m.tri i).v k)

theorem isSide_exists {m : Mesh} (hv : Valid m) {i : Nat} (hi : i < m.n) (k : Fin 3) : ∃ s ∈ m.sides, IsSide m i k s := by
  by_cases h : m.listed (i, k) = true
  · exact ⟨(i, k), mem_sides.mpr ⟨hi, h⟩, Or.inl rfl⟩
  · cases hr : m.right (i, k) with
    | none => unfold Mesh.listed at h; rw [hr] at h; exact absurd rfl h
    | some j =>
      unfold Mesh.listed at h
      rw [hr] at h
      obtain ⟨hj, hne, k', e1, e2, e3⟩ := hv.adj i hi k j hr
      simp only [decide_eq_true_eq, not_lt] at h
      refine ⟨(j, k'), mem_sides.mpr ⟨hj, ?_⟩, Or.inr ⟨e3, e1, e2⟩⟩
      unfold Mesh.listed
      rw [show m.right (j, k') = some i from e3]
      simp only [decide_eq_true_eq]
      omega

/-- The ends of a side of the triangle are vertices of the triangle. -/
theorem IsSide.ends {m : Mesh} {i : Nat} {k : Fin 3} {s : Side} (h : IsSide m i k s) :
    (∃ a, m.first s = (m.tri i).v a) ∧ ∃ b, m.second s = (m.tri i).v b := by
  rcases h with h | ⟨-, h1, h2⟩
  · subst h; exact ⟨⟨k, rfl⟩, ⟨k + 1, rfl⟩⟩
  · exact ⟨⟨_, h1⟩, ⟨_, h2⟩⟩

theorem go_found {m : Mesh} (hv : Valid m) {i : Nat} (hi : i < m.n) {pt : Pt} (h : StrictIn m i pt) {l : List Side} {t : Tree}
    (hb : Built m l t) (hl : ∀ s ∈ l, s.1 < m.n ∧ Uncut m s i) (hs : ∃ k, ∃ s ∈ l, IsSide m i k s) (s0 : Side) (third : Nat) :
    m.go pt t s0 third = some i := by
  induction hb generalizing s0 third with
  | nil => obtain ⟨_, s, hs, -⟩ := hs; cases hs
  | node pre post s a b hp _ _ iha ihb =>
    obtain ⟨hsn, hcut⟩ := hl s (by simp)
    obtain ⟨p0, p1, p2⟩ := h.sides
    have hne : m.pts (m.first s) ≠ m.pts (m.second s) := hv.ne hsn s.2
    -- what is left of the list keeps what is known of it
    have hkeep : ∀ x ∈ pre ++ post, x.1 < m.n ∧ Uncut m x i := fun x hx =>
      hl x (by simp only [List.mem_append, List.mem_cons] at hx ⊢; tauto)
    unfold Mesh.go
    by_cases hL : m.left (m.first s) (m.second s) pt = true
    · rw [if_pos hL]
      simp only [Mesh.left, decide_eq_true_eq] at hL
      -- the triangle is left of the line
      have hall : ∀ k : Fin 3, cp (m.pts (m.first s)) (m.pts (m.second s)) (m.pts ((m.tri i).v k)) ≤ 0 := by
        rcases hcut with hc | ⟨-, hc⟩
        · exact hc
        · have := inside_right hne p0 p1 p2 (hc 0) (hc 1) (hc 2)
          omega
      by_cases h2 : (m.left (m.second s) (m.third s) pt && m.left (m.third s) (m.first s) pt) = true
      · rw [if_pos h2]
        simp only [Bool.and_eq_true, Mesh.left, decide_eq_true_eq] at h2
        have := strictIn_rot s.2 hL h2.1 h2.2
        congr 1
        by_contra hne'
        exact hv.apart s.1 hsn i hi hne' pt this h.closed
      · rw [if_neg h2]
        refine iha (fun x hx => hkeep x (List.mem_filter.mp hx).1) ?_ _ _
        obtain ⟨k, x, hx, hk⟩ := hs
        refine ⟨k, x, List.mem_filter.mpr ⟨?_, ?_⟩, hk⟩
        · simp only [List.mem_append, List.mem_cons] at hx ⊢
          rcases hx with hx | hx | hx
          · exact Or.inl hx
          · exfalso
            subst hx
            rcases hk with hk | ⟨hk1, hk2, hk3⟩
            · subst hk
              apply h2
              obtain ⟨-, q1, q2⟩ := h.at k
              simp only [Bool.and_eq_true, Mesh.left, decide_eq_true_eq]
              exact ⟨q1, q2⟩
            · obtain ⟨q0, -, -⟩ := h.at k
              rw [hk2, hk3, cp_swap] at hL
              omega
          · exact Or.inr hx
        · obtain ⟨⟨u, hu⟩, ⟨w, hw⟩⟩ := hk.ends
          rw [decide_eq_true_eq, sideOf_eq, hu, hw]
          exact cls_ne_one (hall u) (hall w)
    · rw [if_neg hL]
      simp only [Mesh.left, decide_eq_true_eq, not_lt] at hL
      rcases hcut with hc | ⟨hnb, hc⟩
      · have := inside_left hne p0 p1 p2 (hc 0) (hc 1) (hc 2)
        omega
      cases hr : m.right s with
      | none => exact absurd hr hnb
      | some j =>
        dsimp only
        obtain ⟨hj, -, k', e1, e2, -⟩ := hv.adj s.1 hsn s.2 j hr
        have hf : m.findThird (m.second s) (m.first s) j = (m.tri j).v (k' + 2) := findThird_eq hv hj k' e1 e2
        rw [hf]
        have hR : 0 < cp (m.pts (m.first s)) (m.pts (m.second s)) pt := inside_right hne p0 p1 p2 (hc 0) (hc 1) (hc 2)
        by_cases h2 : (m.left ((m.tri j).v (k' + 2)) (m.second s) pt && m.left (m.first s) ((m.tri j).v (k' + 2)) pt) = true
        · rw [if_pos h2]
          simp only [Bool.and_eq_true, Mesh.left, decide_eq_true_eq] at h2
          have : StrictIn m j pt := by
            refine strictIn_rot k' ?_ ?_ ?_
            · rw [e1, e2]
              change cp (m.pts (m.second s)) (m.pts (m.first s)) pt < 0
              rw [cp_swap]; omega
            · rw [e2]; exact h2.2
            · rw [e1]; exact h2.1
          congr 1
          by_contra hne'
          exact hv.apart j hj i hi hne' pt this h.closed
        · rw [if_neg h2]
          refine ihb (fun x hx => hkeep x (List.mem_filter.mp hx).1) ?_ _ _
          obtain ⟨k, x, hx, hk⟩ := hs
          refine ⟨k, x, List.mem_filter.mpr ⟨?_, ?_⟩, hk⟩
          · simp only [List.mem_append, List.mem_cons] at hx ⊢
            rcases hx with hx | hx | hx
            · exact Or.inl hx
            · exfalso
              subst hx
              rcases hk with hk | ⟨hk1, hk2, hk3⟩
              · subst hk
                have := h k
                change cp (m.pts (m.first (i, k))) (m.pts (m.second (i, k))) pt < 0 at this
                omega
              · rw [hr] at hk1
                cases hk1
                have hf2 : m.findThird (m.second x) (m.first x) i = (m.tri i).v (k + 2) := findThird_eq hv hi k hk3.symm hk2.symm
                rw [hf] at hf2
                obtain ⟨-, q1, q2⟩ := h.at k
                apply h2
                simp only [Bool.and_eq_true, Mesh.left, decide_eq_true_eq]
                rw [hf2, hk2, hk3]
                exact ⟨q2, q1⟩
            · exact Or.inr hx
          · obtain ⟨⟨u, hu⟩, ⟨w, hw⟩⟩ := hk.ends
            rw [decide_eq_true_eq, sideOf_eq, hu, hw]
            exact cls_ne_neg (hc u) (hc w)

/-- **C104** for a triangle that no line through a side of the grid cuts and that has no boundary side's line between it and the grid:
whatever tree was built, every point inside it is found in it. -/
theorem C104_found_partial (m : Mesh) (t : Tree) (junk : Nat) (pt : Pt) (i : Nat) (hv : Valid m) (hb : Built m m.sides t)
    (hi : i < m.n) (hcut : ∀ s ∈ m.sides, Uncut m s i) (h : StrictIn m i pt) : m.locate t junk pt = some i := by
  refine go_found hv hi h hb (fun s hs => ⟨(mem_sides.mp hs).1, hcut s hs⟩) ?_ _ _
  obtain ⟨s, hs, hk⟩ := isSide_exists hv hi 0
  exact ⟨0, s, hs, hk⟩

end Verif.Dag
