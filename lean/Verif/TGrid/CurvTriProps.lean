import Mathlib.Tactic.NormNum
import Mathlib.Tactic.Ring
import Mathlib.Tactic.Linarith
import Mathlib.Algebra.Order.Field.Rat
import Mathlib.Data.List.Nodup
import Verif.TGrid.CurvTriModel

/-!
# Two triangles for every water cell, with the right neighbours
-/
namespace Verif.TGrid.CurvTri

/-- The corners of a triangle. -/
def Tri.verts (t : Tri) : List Int := [t.vertex1, t.vertex2, t.vertex3]

/-- The ends of the side opposite to a corner, and the neighbour told across it. -/
inductive Side : Tri → Int → Int → Int → Prop
  | one (t) : Side t t.vertex2 t.vertex3 t.adjTri1
  | two (t) : Side t t.vertex3 t.vertex1 t.adjTri2
  | three (t) : Side t t.vertex1 t.vertex2 t.adjTri3

/-! ## Counting -/

/-- The `m`-th of the numbers that pass, when `m` have passed before `c`, is `c`. -/
theorem nth_filter (p : Nat → Bool) (n c : Nat) (hc : c < n) (hp : p c = true) : ((List.range n).filter p)[((List.range c).filter p).length]? = some c := by
  induction n with
  | zero => omega
  | succ n ih =>
    rw [List.range_succ, List.filter_append]
    by_cases h : c = n
    · subst h
      rw [List.getElem?_append_right (Nat.le_refl _)]
      simp [hp]
    · have h1 := ih (by omega)
      rw [List.getElem?_append_left]
      · exact h1
      · exact (List.getElem?_eq_some_iff.1 h1).1

theorem rank_inj (p : Nat → Bool) (c c' : Nat) (hp : p c = true) (hp' : p c' = true)
    (h : ((List.range c).filter p).length = ((List.range c').filter p).length) : c = c' := by
  have h1 := nth_filter p (max c c' + 1) c (by omega) hp
  have h2 := nth_filter p (max c c' + 1) c' (by omega) hp'
  rw [h, h2] at h1
  exact (Option.some.inj h1).symm

theorem ranked (p : Nat → Bool) (n m : Nat) (h : m < ((List.range n).filter p).length) :
    ∃ c, c < n ∧ p c = true ∧ m = ((List.range c).filter p).length := by
  have hm : ((List.range n).filter p)[m]? = some (((List.range n).filter p)[m]) := List.getElem?_eq_getElem h
  have hmem : ((List.range n).filter p)[m] ∈ (List.range n).filter p := List.getElem_mem h
  rw [List.mem_filter, List.mem_range] at hmem
  refine ⟨_, hmem.1, hmem.2, ?_⟩
  have h2 := nth_filter p n _ hmem.1 hmem.2
  have hlt := (List.getElem?_eq_some_iff.1 h2).1
  have hnd : ((List.range n).filter p).Nodup := List.Nodup.filter _ List.nodup_range
  exact (List.Nodup.getElem_inj_iff hnd (hi := h) (hj := hlt)).1 (List.getElem?_eq_some_iff.1 h2).2.symm

theorem pairs {α : Type} (f f' : Nat → α) (l : List Nat) (m : Nat) (k : Nat) (h : l[m]? = some k) :
    (l.flatMap fun k => [f k, f' k])[2 * m]? = some (f k) ∧ (l.flatMap fun k => [f k, f' k])[2 * m + 1]? = some (f' k) := by
  induction l generalizing m with
  | nil => simp at h
  | cons a l ih =>
    rw [List.flatMap_cons]
    cases m with
    | zero => simp only [List.getElem?_cons_zero, Option.some.injEq] at h; subst h; simp
    | succ m =>
      rw [List.getElem?_cons_succ] at h
      obtain ⟨h1, h2⟩ := ih m h
      refine ⟨?_, ?_⟩
      · rw [show 2 * (m + 1) = 2 * m + 1 + 1 by omega]; simpa using h1
      · rw [show 2 * (m + 1) + 1 = 2 * m + 1 + 1 + 1 by omega]; simpa using h2

theorem pairs_length {α : Type} (f f' : Nat → α) (l : List Nat) : (l.flatMap fun k => [f k, f' k]).length = 2 * l.length := by
  induction l with
  | nil => rfl
  | cons a l ih => rw [List.flatMap_cons, List.length_append, ih]; simp; omega

/-! ## Cells and nodes by row and column -/

/-- A water cell. -/
def Wet (g : Cells) (i j : Nat) : Prop := i < g.rows ∧ j < g.cols ∧ g.water i j = true

theorem index_eq {e a b a' b' : Nat} (hb : b < e) (hb' : b' < e) (h : a * e + b = a' * e + b') : a = a' ∧ b = b' := by
  have h1 : (a * e + b) / e = a := by rw [Nat.mul_comm, Nat.mul_add_div (by omega), Nat.div_eq_of_lt hb]; rfl
  have h2 : (a' * e + b') / e = a' := by rw [Nat.mul_comm, Nat.mul_add_div (by omega), Nat.div_eq_of_lt hb']; rfl
  have ha : a = a' := by rw [← h1, h, h2]
  subst ha
  exact ⟨rfl, by omega⟩

theorem div_index {e a b : Nat} (hb : b < e) : (a * e + b) / e = a ∧ (a * e + b) % e = b := by
  constructor
  · rw [Nat.mul_comm, Nat.mul_add_div (by omega), Nat.div_eq_of_lt hb]; rfl
  · rw [Nat.mul_comm, Nat.mul_add_mod, Nat.mod_eq_of_lt hb]

theorem wet_index {g : Cells} {i j : Nat} (h : Wet g i j) : g.wet (i * g.cols + j) = true ∧ i * g.cols + j < g.rows * g.cols := by
  obtain ⟨h1, h2, h3⟩ := h
  refine ⟨?_, ?_⟩
  · unfold Cells.wet; rw [(div_index h2).1, (div_index h2).2]; exact h3
  · have : (i + 1) * g.cols ≤ g.rows * g.cols := Nat.mul_le_mul_right _ h1
    rw [Nat.add_mul] at this
    omega

theorem wet_cell {g : Cells} {k : Nat} (hk : k < g.rows * g.cols) (hw : g.wet k = true) : ∃ i j, Wet g i j ∧ k = i * g.cols + j := by
  have hc : 0 < g.cols := by
    rcases Nat.eq_zero_or_pos g.cols with h | h
    · rw [h] at hk; omega
    · exact h
  refine ⟨k / g.cols, k % g.cols, ⟨?_, Nat.mod_lt _ hc, hw⟩, ?_⟩
  · rw [Nat.div_lt_iff_lt_mul hc]; exact hk
  · have := Nat.div_add_mod k g.cols
    rw [Nat.mul_comm]; omega

/-- How many water cells are before. -/
def rank (g : Cells) (i j : Nat) : Nat := ((List.range (i * g.cols + j)).filter g.wet).length

theorem cellNum_wet {g : Cells} {i j : Nat} (h : Wet g i j) : cellNum g (i * g.cols + j) = rank g i j := by
  unfold cellNum rank; rw [if_pos (wet_index h).1]

theorem cellNum_dry {g : Cells} {i j : Nat} (hi : i < g.rows) (hj : j < g.cols) (h : ¬ Wet g i j) : cellNum g (i * g.cols + j) = -1 := by
  unfold cellNum
  rw [if_neg]
  intro hw
  apply h
  refine ⟨hi, hj, ?_⟩
  unfold Cells.wet at hw
  rwa [(div_index hj).1, (div_index hj).2] at hw

theorem rank_eq {g : Cells} {i j i' j' : Nat} (h : Wet g i j) (h' : Wet g i' j') (e : rank g i j = rank g i' j') : i = i' ∧ j = j' :=
  index_eq h.2.1 h'.2.1 (rank_inj g.wet _ _ (wet_index h).1 (wet_index h').1 e)

/-- A node that is a corner of a water cell. -/
def Used (g : Cells) (a b : Nat) : Prop := a * (g.cols + 1) + b ∈ marks g

theorem used {g : Cells} {i j : Nat} (h : Wet g i j) : Used g i j ∧ Used g i (j + 1) ∧ Used g (i + 1) j ∧ Used g (i + 1) (j + 1) := by
  have hk : i * g.cols + j ∈ waterCells g := by
    unfold waterCells; rw [List.mem_filter, List.mem_range]; exact ⟨(wet_index h).2, (wet_index h).1⟩
  have hc : corners g (i * g.cols + j) =
      [i * (g.cols + 1) + j, i * (g.cols + 1) + j + 1, (i + 1) * (g.cols + 1) + j, (i + 1) * (g.cols + 1) + j + 1] := by
    unfold corners; rw [(div_index h.2.1).1, (div_index h.2.1).2]
  unfold Used marks
  simp only [List.mem_flatMap]
  refine ⟨⟨_, hk, ?_⟩, ⟨_, hk, ?_⟩, ⟨_, hk, ?_⟩, ⟨_, hk, ?_⟩⟩ <;> rw [hc] <;> simp [Nat.add_assoc]

/-- The number of a node. -/
def num (g : Cells) (a b : Nat) : Int := ptIndex g (a * (g.cols + 1) + b)

theorem num_eq {g : Cells} {a b a' b' : Nat} (hb : b ≤ g.cols) (hb' : b' ≤ g.cols) (h : Used g a b) (h' : Used g a' b') :
    num g a b = num g a' b' ↔ a = a' ∧ b = b' := by
  constructor
  · intro e
    unfold num ptIndex at e
    unfold Used at h h'
    rw [if_pos h, if_pos h'] at e
    have := rank_inj (fun n => decide (n ∈ marks g)) _ _ (decide_eq_true h) (decide_eq_true h') (by exact_mod_cast e)
    exact index_eq (by omega) (by omega) this
  · rintro ⟨rfl, rfl⟩; rfl

theorem verdat_num {g : Cells} {a b : Nat} (ha : a ≤ g.rows) (hb : b ≤ g.cols) (h : Used g a b) :
    (verdat g).getD (num g a b).toNat 0 = a * (g.cols + 1) + b := by
  have hn := nth_filter (fun n => decide (n ∈ marks g)) ((g.rows + 1) * (g.cols + 1)) (a * (g.cols + 1) + b)
    (by have : (a + 1) * (g.cols + 1) ≤ (g.rows + 1) * (g.cols + 1) := Nat.mul_le_mul_right _ (by omega)
        rw [Nat.add_mul a] at this; omega) (decide_eq_true h)
  unfold num ptIndex
  unfold Used at h
  rw [if_pos h, Int.toNat_natCast]
  unfold verdat
  rw [List.getD_eq_getElem?_getD, hn]; rfl

/-! ## The triangles -/

/-- A triangle of a cell: `false` at the top and left, `true` at the bottom and right. -/
def tri (g : Cells) (i j : Nat) (h : Bool) : Tri := if h then bottomRight g (i * g.cols + j) else topLeft g (i * g.cols + j)

/-- Its place in the list. -/
def at' (g : Cells) (i j : Nat) (h : Bool) : Nat := 2 * rank g i j + h.toNat

theorem topo_at {g : Cells} {i j : Nat} (hw : Wet g i j) (h : Bool) : (topo g)[at' g i j h]? = some (tri g i j h) := by
  have hn := nth_filter g.wet (g.rows * g.cols) (i * g.cols + j) (wet_index hw).2 (wet_index hw).1
  have := pairs (topLeft g) (bottomRight g) (waterCells g) (rank g i j) (i * g.cols + j) hn
  unfold topo at' tri
  cases h
  · simpa using this.1
  · simpa using this.2

theorem topo_ex {g : Cells} {t : Nat} {T : Tri} (h : (topo g)[t]? = some T) : ∃ i j b, Wet g i j ∧ t = at' g i j b ∧ T = tri g i j b := by
  have hl := (List.getElem?_eq_some_iff.1 h).1
  unfold topo at hl
  rw [pairs_length] at hl
  obtain ⟨k, h1, h2, h3⟩ := ranked g.wet (g.rows * g.cols) (t / 2) (by unfold waterCells at hl; omega)
  obtain ⟨i, j, hw, rfl⟩ := wet_cell h1 h2
  have ht : t = at' g i j (decide (t % 2 = 1)) := by
    unfold at' rank
    rw [← h3]
    by_cases hp : t % 2 = 1
    · simp [hp]; omega
    · simp [hp]; omega
  refine ⟨i, j, _, hw, ht, ?_⟩
  rw [ht, topo_at hw] at h
  exact (Option.some.inj h).symm

theorem tri_top {g : Cells} {i j : Nat} (hw : Wet g i j) :
    tri g i j false = ⟨num g i (j + 1), num g i j, num g (i + 1) j,
      if j = 0 ∨ cellNum g (i * g.cols + j - 1) = -1 then -1 else cellNum g (i * g.cols + j - 1) * 2 + 1, 2 * (rank g i j : Int) + 1,
      if i = 0 ∨ cellNum g ((i - 1) * g.cols + j) = -1 then -1 else cellNum g ((i - 1) * g.cols + j) * 2 + 1⟩ := by
  simp only [tri, topLeft, (div_index hw.2.1).1, (div_index hw.2.1).2, cellNum_wet hw, num, Nat.add_assoc, Bool.false_eq_true, if_false]

theorem tri_bottom {g : Cells} {i j : Nat} (hw : Wet g i j) :
    tri g i j true = ⟨num g (i + 1) j, num g (i + 1) (j + 1), num g i (j + 1),
      if j = g.cols - 1 ∨ cellNum g (i * g.cols + j + 1) = -1 then -1 else cellNum g (i * g.cols + j + 1) * 2, 2 * (rank g i j : Int),
      if i = g.rows - 1 ∨ cellNum g ((i + 1) * g.cols + j) = -1 then -1 else cellNum g ((i + 1) * g.cols + j) * 2⟩ := by
  simp only [tri, bottomRight, (div_index hw.2.1).1, (div_index hw.2.1).2, cellNum_wet hw, num, Nat.add_assoc, if_true]

theorem at_eq {g : Cells} {i j i' j' : Nat} (hw : Wet g i j) (hw' : Wet g i' j') (h h' : Bool) :
    at' g i j h = at' g i' j' h' ↔ i = i' ∧ j = j' ∧ h = h' := by
  constructor
  · intro e
    unfold at' at e
    have hb : h = h' := by cases h <;> cases h' <;> simp at e ⊢ <;> omega
    subst hb
    obtain ⟨rfl, rfl⟩ := rank_eq hw hw' (by omega)
    exact ⟨rfl, rfl, rfl⟩
  · rintro ⟨rfl, rfl, rfl⟩; rfl

/-- The number told of the cell at (a, b), or -1. -/
theorem adj_cell {g : Cells} {i' j' a b : Nat} {h h' : Bool} (hw' : Wet g i' j') (ha : a < g.rows) (hb : b < g.cols) :
    (if cellNum g (a * g.cols + b) = -1 then -1 else cellNum g (a * g.cols + b) * 2 + (h.toNat : Int)) = (at' g i' j' h' : Int) ↔ a = i' ∧ b = j' ∧ h = h' := by
  by_cases hw : Wet g a b
  · rw [cellNum_wet hw, if_neg (by omega), ← at_eq hw hw' h h']
    unfold at'
    push_cast
    omega
  · rw [cellNum_dry ha hb hw, if_pos rfl]
    constructor
    · intro e; omega
    · rintro ⟨rfl, rfl, -⟩; exact absurd hw' hw

theorem left_iff {g : Cells} {i j i' j' : Nat} {h' : Bool} (hw : Wet g i j) (hw' : Wet g i' j') :
    (if j = 0 ∨ cellNum g (i * g.cols + j - 1) = -1 then -1 else cellNum g (i * g.cols + j - 1) * 2 + 1) = (at' g i' j' h' : Int) ↔ i' = i ∧ j' + 1 = j ∧ h' = true := by
  by_cases hj : j = 0
  · simp only [hj, true_or, if_true]
    constructor
    · intro e; omega
    · rintro ⟨_, h, _⟩; omega
  · have e := adj_cell (h := true) (h' := h') hw' hw.1 (show j - 1 < g.cols by have := hw.2.1; omega)
    rw [show i * g.cols + (j - 1) = i * g.cols + j - 1 by omega] at e
    simp only [hj, false_or]
    rw [show ((true.toNat : Nat) : Int) = 1 from rfl] at e
    rw [e]
    constructor
    · rintro ⟨rfl, h2, rfl⟩; exact ⟨rfl, by omega, rfl⟩
    · rintro ⟨rfl, h2, rfl⟩; exact ⟨rfl, by omega, rfl⟩

theorem top_iff {g : Cells} {i j i' j' : Nat} {h' : Bool} (hw : Wet g i j) (hw' : Wet g i' j') :
    (if i = 0 ∨ cellNum g ((i - 1) * g.cols + j) = -1 then -1 else cellNum g ((i - 1) * g.cols + j) * 2 + 1) = (at' g i' j' h' : Int) ↔ i' + 1 = i ∧ j' = j ∧ h' = true := by
  by_cases hi : i = 0
  · simp only [hi, true_or, if_true]
    constructor
    · intro e; omega
    · rintro ⟨h, _⟩; omega
  · have e := adj_cell (h := true) (h' := h') hw' (show i - 1 < g.rows by have := hw.1; omega) hw.2.1
    simp only [hi, false_or]
    rw [show ((true.toNat : Nat) : Int) = 1 from rfl] at e
    rw [e]
    constructor
    · rintro ⟨h1, rfl, rfl⟩; exact ⟨by omega, rfl, rfl⟩
    · rintro ⟨h1, rfl, rfl⟩; exact ⟨by omega, rfl, rfl⟩

theorem right_iff {g : Cells} {i j i' j' : Nat} {h' : Bool} (hw : Wet g i j) (hw' : Wet g i' j') :
    (if j = g.cols - 1 ∨ cellNum g (i * g.cols + j + 1) = -1 then -1 else cellNum g (i * g.cols + j + 1) * 2) = (at' g i' j' h' : Int) ↔ i' = i ∧ j' = j + 1 ∧ h' = false := by
  by_cases hj : j = g.cols - 1
  · simp only [hj, true_or, if_true]
    constructor
    · intro e; omega
    · rintro ⟨_, h, _⟩; have := hw'.2.1; omega
  · have e := adj_cell (h := false) (h' := h') hw' hw.1 (show j + 1 < g.cols by have := hw.2.1; omega)
    simp only [hj, false_or]
    rw [show ((false.toNat : Nat) : Int) = 0 from rfl, Int.add_zero, ← Nat.add_assoc] at e
    rw [e]
    constructor
    · rintro ⟨rfl, h2, rfl⟩; exact ⟨rfl, by omega, rfl⟩
    · rintro ⟨rfl, h2, rfl⟩; exact ⟨rfl, by omega, rfl⟩

theorem bottom_iff {g : Cells} {i j i' j' : Nat} {h' : Bool} (hw : Wet g i j) (hw' : Wet g i' j') :
    (if i = g.rows - 1 ∨ cellNum g ((i + 1) * g.cols + j) = -1 then -1 else cellNum g ((i + 1) * g.cols + j) * 2) = (at' g i' j' h' : Int) ↔ i' = i + 1 ∧ j' = j ∧ h' = false := by
  by_cases hi : i = g.rows - 1
  · simp only [hi, true_or, if_true]
    constructor
    · intro e; omega
    · rintro ⟨h, _⟩; have := hw'.1; omega
  · have e := adj_cell (h := false) (h' := h') hw' (show i + 1 < g.rows by have := hw.1; omega) hw.2.1
    simp only [hi, false_or]
    rw [show ((false.toNat : Nat) : Int) = 0 from rfl, Int.add_zero] at e
    rw [e]
    constructor
    · rintro ⟨h1, rfl, rfl⟩; exact ⟨by omega, rfl, rfl⟩
    · rintro ⟨h1, rfl, rfl⟩; exact ⟨by omega, rfl, rfl⟩

theorem mem_top {g : Cells} {i j a b : Nat} (hw : Wet g i j) (hu : Used g a b) (hb : b ≤ g.cols) :
    num g a b ∈ (tri g i j false).verts ↔ (a = i ∧ b = j + 1) ∨ (a = i ∧ b = j) ∨ (a = i + 1 ∧ b = j) := by
  obtain ⟨u1, u2, u3, u4⟩ := used hw
  have := hw.2.1
  simp only [tri_top hw, Tri.verts, List.mem_cons, List.not_mem_nil, or_false]
  rw [num_eq hb (by omega) hu u2, num_eq hb (by omega) hu u1, num_eq hb (by omega) hu u3]

theorem mem_bottom {g : Cells} {i j a b : Nat} (hw : Wet g i j) (hu : Used g a b) (hb : b ≤ g.cols) :
    num g a b ∈ (tri g i j true).verts ↔ (a = i + 1 ∧ b = j) ∨ (a = i + 1 ∧ b = j + 1) ∨ (a = i ∧ b = j + 1) := by
  obtain ⟨u1, u2, u3, u4⟩ := used hw
  have := hw.2.1
  simp only [tri_bottom hw, Tri.verts, List.mem_cons, List.not_mem_nil, or_false]
  rw [num_eq hb (by omega) hu u3, num_eq hb (by omega) hu u4, num_eq hb (by omega) hu u2]

/-- **C328**: of two triangles, the second is told as the neighbour across a side of the first exactly if both ends of that side are corners of it. -/
theorem C328_neighbours (g : Cells) (t u : Nat) (T U : Tri) (hne : t ≠ u) (ht : (topo g)[t]? = some T) (hu : (topo g)[u]? = some U) (x y n : Int)
    (hs : Side T x y n) : n = u ↔ x ∈ U.verts ∧ y ∈ U.verts := by
  obtain ⟨i, j, h, hw, rfl, rfl⟩ := topo_ex ht
  obtain ⟨i', j', h', hw', rfl, rfl⟩ := topo_ex hu
  have hne' : ¬ (i = i' ∧ j = j' ∧ h = h') := fun e => hne ((at_eq hw hw' h h').2 e)
  obtain ⟨u1, u2, u3, u4⟩ := used hw
  have hj := hw.2.1
  have hd : ∀ b : Bool, (2 * (rank g i j : Int) + (b.toNat : Int)) = (at' g i' j' h' : Int) ↔ i = i' ∧ j = j' ∧ b = h' := by
    intro b
    rw [← at_eq hw hw' b h']
    unfold at'; push_cast; omega
  have hd1 := hd true
  have hd0 := hd false
  rw [show ((true.toNat : Nat) : Int) = 1 from rfl] at hd1
  rw [show ((false.toNat : Nat) : Int) = 0 from rfl, Int.add_zero] at hd0
  cases h
  · rw [tri_top hw] at hs
    cases hs
    · cases h'
      · rw [mem_top hw' u1 (by omega), mem_top hw' u3 (by omega)]; simp only [left_iff hw hw', and_true, Bool.false_eq_true, and_false, false_iff] at hne' ⊢; omega
      · rw [mem_bottom hw' u1 (by omega), mem_bottom hw' u3 (by omega)]; simp only [left_iff hw hw', and_true]; omega
    · cases h'
      · rw [mem_top hw' u3 (by omega), mem_top hw' u2 (by omega)]; simp only [hd1, and_true, Bool.true_eq_false, and_false, false_iff] at hne' ⊢; omega
      · rw [mem_bottom hw' u3 (by omega), mem_bottom hw' u2 (by omega)]; simp only [hd1, and_true]; omega
    · cases h'
      · rw [mem_top hw' u2 (by omega), mem_top hw' u1 (by omega)]; simp only [top_iff hw hw', and_true, Bool.false_eq_true, and_false, false_iff] at hne' ⊢; omega
      · rw [mem_bottom hw' u2 (by omega), mem_bottom hw' u1 (by omega)]; simp only [top_iff hw hw', and_true]; omega
  · rw [tri_bottom hw] at hs
    cases hs
    · cases h'
      · rw [mem_top hw' u4 (by omega), mem_top hw' u2 (by omega)]; simp only [right_iff hw hw', and_true]; omega
      · rw [mem_bottom hw' u4 (by omega), mem_bottom hw' u2 (by omega)]; simp only [right_iff hw hw', and_true, Bool.true_eq_false, and_false, false_iff] at hne' ⊢; omega
    · cases h'
      · rw [mem_top hw' u2 (by omega), mem_top hw' u3 (by omega)]; simp only [hd0, and_true]; omega
      · rw [mem_bottom hw' u2 (by omega), mem_bottom hw' u3 (by omega)]; simp only [hd0, and_true, Bool.false_eq_true, and_false, false_iff] at hne' ⊢; omega
    · cases h'
      · rw [mem_top hw' u3 (by omega), mem_top hw' u4 (by omega)]; simp only [bottom_iff hw hw', and_true]; omega
      · rw [mem_bottom hw' u3 (by omega), mem_bottom hw' u4 (by omega)]; simp only [bottom_iff hw hw', and_true, Bool.true_eq_false, and_false, false_iff] at hne' ⊢; omega

/-- What is told across a side is -1 or another triangle. -/
theorem C328_valid (g : Cells) (t : Nat) (T : Tri) (ht : (topo g)[t]? = some T) (x y n : Int) (hs : Side T x y n) :
    n = -1 ∨ ∃ u : Nat, n = u ∧ u ≠ t ∧ u < (topo g).length := by
  obtain ⟨i, j, h, hw, rfl, rfl⟩ := topo_ex ht
  have hlt : ∀ {a b : Nat} (c : Bool), Wet g a b → at' g a b c < (topo g).length := fun c hab => (List.getElem?_eq_some_iff.1 (topo_at hab c)).1
  have key : ∀ (a b : Nat) (c : Bool), a < g.rows → b < g.cols → ¬ (a = i ∧ b = j ∧ c = h) →
      cellNum g (a * g.cols + b) ≠ -1 → ∃ u : Nat, cellNum g (a * g.cols + b) * 2 + (c.toNat : Int) = u ∧ u ≠ at' g i j h ∧ u < (topo g).length := by
    intro a b c ha hb hn hc
    have hab : Wet g a b := by
      by_contra hab; exact hc (cellNum_dry ha hb hab)
    refine ⟨at' g a b c, ?_, ?_, hlt c hab⟩
    · rw [cellNum_wet hab]; unfold at'; push_cast; ring
    · rw [Ne, at_eq hab hw]; exact hn
  have hi := hw.1
  have hj := hw.2.1
  cases h
  · rw [tri_top hw] at hs
    cases hs
    · simp only
      split
      · exact .inl rfl
      · next hc =>
        rw [not_or] at hc
        refine .inr ?_
        have := key i (j - 1) true hi (by omega) (by simp) (by rw [show i * g.cols + (j - 1) = i * g.cols + j - 1 by omega]; exact hc.2)
        rw [show i * g.cols + (j - 1) = i * g.cols + j - 1 by omega] at this
        exact this
    · refine .inr ⟨at' g i j true, ?_, ?_, hlt _ hw⟩
      · unfold at'; simp
      · rw [Ne, at_eq hw hw]; simp
    · simp only
      split
      · exact .inl rfl
      · next hc =>
        rw [not_or] at hc
        exact .inr (key (i - 1) j true (by omega) hj (by simp) hc.2)
  · rw [tri_bottom hw] at hs
    cases hs
    · simp only
      split
      · exact .inl rfl
      · next hc =>
        rw [not_or] at hc
        refine .inr ?_
        have := key i (j + 1) false hi (by omega) (by simp) (by rw [← Nat.add_assoc]; exact hc.2)
        rw [← Nat.add_assoc] at this
        simpa using this
    · refine .inr ⟨at' g i j false, ?_, ?_, hlt _ hw⟩
      · unfold at'; simp
      · rw [Ne, at_eq hw hw]; simp
    · simp only
      split
      · exact .inl rfl
      · next hc =>
        rw [not_or] at hc
        have := key (i + 1) j false (by omega) hj (by simp) hc.2
        exact .inr (by simpa using this)

/-- Two triangles for every water cell, no others. -/
theorem C328_count (g : Cells) : (topo g).length = 2 * ((List.range (g.rows * g.cols)).filter fun k => g.water (k / g.cols) (k % g.cols)).length := by
  unfold topo; rw [pairs_length]; rfl

/-- The nodes of a triangle, as rows and columns. -/
def nodesOf (g : Cells) (t : Tri) : List (Nat × Nat) := t.verts.map fun v => ((verdat g).getD v.toNat 0 / (g.cols + 1), (verdat g).getD v.toNat 0 % (g.cols + 1))

theorem node_num {g : Cells} {a b : Nat} (ha : a ≤ g.rows) (hb : b ≤ g.cols) (h : Used g a b) :
    (verdat g).getD (num g a b).toNat 0 / (g.cols + 1) = a ∧ (verdat g).getD (num g a b).toNat 0 % (g.cols + 1) = b := by
  rw [verdat_num ha hb h]; exact div_index (by omega)

theorem nodes_tri {g : Cells} {i j : Nat} (hw : Wet g i j) :
    nodesOf g (tri g i j false) = [(i, j + 1), (i, j), (i + 1, j)] ∧ nodesOf g (tri g i j true) = [(i + 1, j), (i + 1, j + 1), (i, j + 1)] := by
  obtain ⟨u1, u2, u3, u4⟩ := used hw
  have hi := hw.1
  have hj := hw.2.1
  have n1 := node_num (by omega) (by omega) u1
  have n2 := node_num (by omega) (by omega) u2
  have n3 := node_num (by omega) (by omega) u3
  have n4 := node_num (by omega) (by omega) u4
  constructor
  · simp only [nodesOf, tri_top hw, Tri.verts, List.map_cons, List.map_nil, n1, n2, n3]
  · simp only [nodesOf, tri_bottom hw, Tri.verts, List.map_cons, List.map_nil, n2, n3, n4]

/-- A water cell has two triangles in the list, with a diagonal in common and the four corners of the cell. -/
theorem C328_cell (g : Cells) (i j : Nat) (hw : Wet g i j) :
    ∃ (t : Nat) (T U : Tri), (topo g)[2 * t]? = some T ∧ (topo g)[2 * t + 1]? = some U ∧
      nodesOf g T = [(i, j + 1), (i, j), (i + 1, j)] ∧ nodesOf g U = [(i + 1, j), (i + 1, j + 1), (i, j + 1)] :=
  ⟨rank g i j, _, _, topo_at hw false, topo_at hw true, (nodes_tri hw).1, (nodes_tri hw).2⟩

/-- Non-trivial case: two rows and three columns, with land in the middle of the first row. -/
def small : Cells := ⟨2, 3, fun i j => !(decide (i = 0) && decide (j = 1))⟩

example : (topo small).length = 10 ∧ (topo small)[0]? = some ⟨1, 0, 4, -1, 1, -1⟩ ∧ (topo small)[1]? = some ⟨4, 5, 1, -1, 0, 4⟩ ∧
    (topo small)[4]? = some ⟨5, 4, 8, -1, 5, 1⟩ := by decide

example : Wet small 1 1 := ⟨by decide, by decide, rfl⟩

/-! ## Back from a triangle to the data -/

theorem corner_tri {g : Cells} {i j : Nat} (hw : Wet g i j) (h : Bool) : corner g (tri g i j h) = (i + 1, j) := by
  have hn := nodes_tri hw
  simp only [nodesOf, Tri.verts, List.map_cons, List.map_nil, List.cons.injEq, Prod.mk.injEq, and_true] at hn
  obtain ⟨⟨⟨a1, a2⟩, ⟨a3, a4⟩, a5, a6⟩, ⟨b1, b2⟩, ⟨b3, b4⟩, b5, b6⟩ := hn
  cases h
  · simp only [corner, a1, a2, a3, a4, a5, a6, Prod.mk.injEq]; omega
  · simp only [corner, b1, b2, b3, b4, b5, b6, Prod.mk.injEq]; omega

/-- A triangle is one of a cell: its nodes are corners of the cell. -/
def Of (g : Cells) (i j : Nat) (T : Tri) : Prop :=
  Wet g i j ∧ ∀ p ∈ nodesOf g T, (p.1 = i ∨ p.1 = i + 1) ∧ (p.2 = j ∨ p.2 = j + 1)

theorem of_tri {g : Cells} {i j i' j' : Nat} {h : Bool} (hw : Wet g i' j') (ho : Of g i j (tri g i' j' h)) : i = i' ∧ j = j' := by
  obtain ⟨-, h1⟩ := ho
  cases h
  · rw [(nodes_tri hw).1] at h1
    have a := h1 (i', j' + 1) (by simp)
    have b := h1 (i', j') (by simp)
    have c := h1 (i' + 1, j') (by simp)
    simp only at a b c
    omega
  · rw [(nodes_tri hw).2] at h1
    have a := h1 (i' + 1, j') (by simp)
    have b := h1 (i' + 1, j' + 1) (by simp)
    have c := h1 (i', j' + 1) (by simp)
    simp only at a b c
    omega

/-- **C329**: the data for a triangle are those of its cell. -/
theorem C329_index (g : Cells) (t : Nat) (T : Tri) (i j : Nat) (ht : (topo g)[t]? = some T) (ho : Of g i j T) : rectIndex g T = i * g.cols + j := by
  obtain ⟨i', j', h, hw, rfl, rfl⟩ := topo_ex ht
  obtain ⟨rfl, rfl⟩ := of_tri hw ho
  unfold rectIndex
  rw [corner_tri hw]
  push_cast; ring

/-- Every triangle is one of a cell. -/
theorem C329_cell (g : Cells) (t : Nat) (T : Tri) (ht : (topo g)[t]? = some T) : ∃ i j, Of g i j T := by
  obtain ⟨i, j, h, hw, rfl, rfl⟩ := topo_ex ht
  refine ⟨i, j, hw, ?_⟩
  cases h
  · rw [(nodes_tri hw).1]; simp
  · rw [(nodes_tri hw).2]; simp

/-- The four points of the file at the corners of a cell, where node (a, b) is the point of row `a` - 1 and column `b`: -1 where there is none. -/
def pointAt (cols a b : Nat) : Int := if a = 0 ∨ b = cols then -1 else ((a : Int) - 1) * cols + b

/-- The corners of the cell of a triangle are the points of the file there, or -1 for the row and the column that are made up. -/
theorem C329_corners (g : Cells) (t : Nat) (T : Tri) (i j : Nat) (ht : (topo g)[t]? = some T) (ho : Of g i j T) :
    rectCorners g T = (pointAt g.cols i j, pointAt g.cols (i + 1) j, pointAt g.cols i (j + 1), pointAt g.cols (i + 1) (j + 1)) := by
  obtain ⟨i', j', h, hw, rfl, rfl⟩ := topo_ex ht
  obtain ⟨rfl, rfl⟩ := of_tri hw ho
  have hj := hw.2.1
  unfold rectCorners
  rw [corner_tri hw]
  have e1 : ((((i + 1 : Nat) : Int) = 1) ↔ i = 0) := by omega
  have e2 : ((j : Int) = (g.cols : Int) - 1 ↔ j + 1 = g.cols) := by omega
  have e3 : j ≠ g.cols := by omega
  have e4 : i + 1 ≠ 0 := by omega
  simp only [e1, e2, pointAt, e3, e4, or_false, false_or]
  by_cases h1 : i = 0 <;> by_cases h2 : j + 1 = g.cols <;> simp [h1, h2] <;> ring_nf <;> simp

/-- Where nodes are: on a grid of straight lines with even spaces, the node of row `a` and column `b` is one row before the point (a, b) of the file, on the grid. -/
theorem C329_place (cols : Nat) (lat : Bool) (o u v : ℚ) (a b : Nat) (hc : 2 ≤ cols) (hb : b ≤ cols) :
    place cols lat (fun i j => o + i * u + j * v) a b = o + ((a : ℚ) - 1) * u + b * v := by
  unfold place
  by_cases ha : a = 0
  · subst ha
    by_cases hbc : b < cols
    · simp only [if_true, hbc]; push_cast; ring
    · have : b = cols := by omega
      subst this
      have c1 : ((b - 1 : Nat) : ℚ) = (b : ℚ) - 1 := by push_cast [Nat.cast_sub (show 1 ≤ b by omega)]; ring
      have c2 : ((b - 2 : Nat) : ℚ) = (b : ℚ) - 2 := by push_cast [Nat.cast_sub hc]; ring
      cases lat <;> simp [c1, c2] <;> ring
  · have c0 : ((a - 1 : Nat) : ℚ) = (a : ℚ) - 1 := by push_cast [Nat.cast_sub (show 1 ≤ a by omega)]; ring
    by_cases hbc : b < cols
    · simp only [ha, if_false, hbc, if_true, c0]
    · have : b = cols := by omega
      subst this
      have c1 : ((b - 1 : Nat) : ℚ) = (b : ℚ) - 1 := by push_cast [Nat.cast_sub (show 1 ≤ b by omega)]; ring
      have c2 : ((b - 2 : Nat) : ℚ) = (b : ℚ) - 2 := by push_cast [Nat.cast_sub hc]; ring
      simp [ha, c0, c1, c2]; ring

/-- On any grid, the nodes that are not made up are the points of the file. -/
theorem C329_point (cols : Nat) (lat : Bool) (p : Nat → Nat → ℚ) (a b : Nat) (ha : 0 < a) (hb : b < cols) : place cols lat p a b = p (a - 1) b := by
  unfold place; rw [if_neg (by omega), if_pos hb]

/-! ## Without a mask -/

/-- Without a mask, a cell in which the water moves at some time of the file is in the grid. -/
def C330_claim : Prop :=
  ∀ (rows cols : Nat) (u v : Nat → Nat → Nat → ℚ) (times i j r : Nat), i < rows → j < cols → r < times → (u r i j ≠ 0 ∨ v r i j ≠ 0) →
    ∃ (t : Nat) (T : Tri), (topo (unmasked rows cols u v))[t]? = some T ∧ Of (unmasked rows cols u v) i j T

/-- **C330 (partial)**: if it moves in the first record; and only these. -/
theorem C330_partial (rows cols : Nat) (u v : Nat → Nat → Nat → ℚ) (i j : Nat) (hi : i < rows) (hj : j < cols) :
    (u 0 i j ≠ 0 ∨ v 0 i j ≠ 0) ↔ ∃ (t : Nat) (T : Tri), (topo (unmasked rows cols u v))[t]? = some T ∧ Of (unmasked rows cols u v) i j T := by
  constructor
  · intro h
    have hw : Wet (unmasked rows cols u v) i j := by
      refine ⟨hi, hj, ?_⟩
      simp only [unmasked, Bool.not_eq_true', Bool.and_eq_false_iff, decide_eq_false_iff_not]
      exact h
    refine ⟨_, _, topo_at hw false, hw, ?_⟩
    rw [(nodes_tri hw).1]; simp
  · rintro ⟨t, T, -, ⟨-, -, hw⟩, -⟩
    simpa only [unmasked, Bool.not_eq_true', Bool.and_eq_false_iff, decide_eq_false_iff_not] using hw

/-- Non-trivial case: a cell that moves in the first record, among others that do not. -/
example : ∃ (t : Nat) (T : Tri), (topo (unmasked 3 3 (fun _ i j => if i = 1 ∧ j = 1 then 1 else 0) fun _ _ _ => 0))[t]? = some T ∧
    Of (unmasked 3 3 (fun _ i j => if i = 1 ∧ j = 1 then 1 else 0) fun _ _ _ => 0) 1 1 T :=
  (C330_partial 3 3 _ _ 1 1 (by decide) (by decide)).1 (.inl (by norm_num))

/-- **C330 fails**: a file that begins at slack water. -/
theorem C330_counterexample : ¬ C330_claim := by
  intro h
  have h1 := h 2 2 (fun r _ _ => r) (fun _ _ _ => 0) 2 0 0 1 (by decide) (by decide) (by decide) (.inl (by norm_num))
  rw [← C330_partial 2 2 _ _ 0 0 (by decide) (by decide)] at h1
  simp at h1

end Verif.TGrid.CurvTri
