import Verif.Place.GridModel
import Mathlib.Tactic.Linarith
import Mathlib.Tactic.LinearCombination
import Mathlib.Tactic.FieldSimp
import Mathlib.Tactic.Ring
import Mathlib.Tactic.NormNum
import Mathlib.Algebra.BigOperators.Group.List.Basic
import Mathlib.Data.List.Count

/-!
# C115, C116: releases at given positions and on a grid
-/

namespace Verif.Place

/-! ## C115: given positions -/

theorem filterMap_length {α : Type} (pos : List α) (draws : List Nat) (h : ∀ i ∈ draws, i < pos.length) :
    (draws.filterMap fun i => pos[i]?).length = draws.length := by
  induction draws with
  | nil => rfl
  | cons i l ih =>
    have hi := h i (List.mem_cons_self ..)
    rw [List.filterMap_cons, List.getElem?_eq_getElem hi]
    simp [ih fun x hx => h x (List.mem_cons_of_mem _ hx)]

/-- **C115**: all the elements get a position, and every position is one of those given. -/
theorem C115_all {α : Type} (pos : List α) (n : Nat) (draws : List Nat) (hp : pos ≠ []) (hd : Draws pos n draws) :
    ∃ l, customPositions pos n draws = some l ∧ l.length = n ∧ ∀ x ∈ l, x ∈ pos := by
  unfold customPositions
  rw [if_neg hp]
  refine ⟨_, rfl, ?_, ?_⟩
  · rw [List.length_append, filterMap_length _ _ hd.2, hd.1]
    simp only [List.length_flatten, List.map_replicate, List.sum_replicate, smul_eq_mul]
    exact Nat.div_add_mod' n pos.length
  · intro x hx
    rcases List.mem_append.mp hx with h | h
    · obtain ⟨l, hl, hx⟩ := List.mem_flatten.mp h
      rw [(List.mem_replicate.mp hl).2] at hx
      exact hx
    · obtain ⟨i, -, hi⟩ := List.mem_filterMap.mp h
      exact List.mem_of_getElem? hi

/-- **C115**: every position gets its share, the number of elements over the number of positions rounded down, and at most the rest more. -/
theorem C115_share {α : Type} [DecidableEq α] (pos : List α) (n : Nat) (draws : List Nat) (hp : pos ≠ []) (hd : Draws pos n draws) (x : α) :
    ∃ l, customPositions pos n draws = some l ∧ n / pos.length * pos.count x ≤ l.count x ∧
      l.count x ≤ n / pos.length * pos.count x + n % pos.length := by
  unfold customPositions
  rw [if_neg hp]
  refine ⟨_, rfl, ?_, ?_⟩ <;> rw [List.count_append, List.count_flatten, List.map_replicate, List.sum_replicate, smul_eq_mul]
  · omega
  · have h1 := List.count_le_length (a := x) (l := draws.filterMap fun i => pos[i]?)
    rw [filterMap_length _ _ hd.2, hd.1] at h1
    omega

/-- **C115**: when the number of elements is a multiple of the number of different positions, all get the same. -/
theorem C115_even {α : Type} [DecidableEq α] (pos : List α) (k : Nat) (draws : List Nat) (hp : pos ≠ []) (hn : pos.Nodup)
    (hd : Draws pos (k * pos.length) draws) (x : α) (hx : x ∈ pos) :
    ∃ l, customPositions pos (k * pos.length) draws = some l ∧ l.count x = k := by
  obtain ⟨l, h1, h2, h3⟩ := C115_share pos (k * pos.length) draws hp hd x
  have hl : 0 < pos.length := List.length_pos_of_ne_nil hp
  rw [List.count_eq_one_of_mem hn hx, Nat.mul_div_cancel _ hl] at h2 h3
  rw [Nat.mul_mod_left] at h3
  exact ⟨l, h1, by omega⟩

/-- **C115**: without positions nothing is released. -/
theorem C115_none {α : Type} (n : Nat) (draws : List Nat) : customPositions ([] : List α) n draws = none := rfl

example : ∃ l, customPositions ["a", "b", "c"] 8 [2, 0] = some l ∧ l.length = 8 ∧ ∀ x ∈ l, x ∈ ["a", "b", "c"] :=
  C115_all _ _ _ (by simp) ⟨rfl, by decide⟩

/-! ## C116: grids -/

/-- The point in column `i` and row `j` of the grid: evenly spaced from one bound to the other. -/
def nodeAt (a b : ℚ) (n i : Nat) : ℚ := if n = 1 then a else a + (b - a) / ((n : ℚ) - 1) * (i : ℚ)

theorem linspace_length (a b : ℚ) (n : Nat) : (linspace a b n).length = n := by simp [linspace]

theorem linspace_get (a b : ℚ) (n i : Nat) (h : i < n) : (linspace a b n)[i]? = some (nodeAt a b n i) := by
  simp [linspace, nodeAt, h]

theorem flatMap_get {α β : Type} (l : List α) (f : α → List β) (k : Nat) (hk : ∀ x, (f x).length = k) (i j : Nat) (hi : i < k) (x : α)
    (hx : l[j]? = some x) : (l.flatMap f)[j * k + i]? = (f x)[i]? := by
  induction l generalizing j with
  | nil => simp at hx
  | cons a l ih =>
    cases j with
    | zero =>
      simp at hx
      subst hx
      rw [List.flatMap_cons, Nat.zero_mul, Nat.zero_add, List.getElem?_append_left (by rw [hk]; exact hi)]
    | succ j =>
      simp at hx
      rw [List.flatMap_cons, List.getElem?_append_right (by rw [hk, Nat.succ_mul]; omega), hk]
      have : (j + 1) * k + i - k = j * k + i := by rw [Nat.succ_mul]; omega
      rw [this]
      exact ih j hx

/-- **C116**: there are as many points as the resolution says, and they are in rows from south to north, from west to east in each, evenly spaced. -/
theorem C116_points (b : Box) (rx ry : Nat) :
    (gridPoints b rx ry).length = gridCount rx ry ∧
      ∀ i j, i < rx → j < ry → (gridPoints b rx ry)[j * rx + i]? = some (nodeAt b.x0 b.x1 rx i, nodeAt b.y0 b.y1 ry j, 0) := by
  constructor
  · unfold gridPoints gridCount
    simp [List.length_flatMap, linspace_length]
    exact Nat.mul_comm _ _
  · intro i j hi hj
    unfold gridPoints
    rw [flatMap_get _ _ rx (by simp [linspace_length]) i j hi _ (linspace_get _ _ _ _ hj)]
    rw [List.getElem?_map, linspace_get _ _ _ _ hi]
    rfl

theorem node_range (a b : ℚ) (n i : Nat) (hab : a ≤ b) (h : i < n) : a ≤ nodeAt a b n i ∧ nodeAt a b n i ≤ b := by
  unfold nodeAt
  split
  · exact ⟨le_refl a, hab⟩
  · rename_i hn
    have h2 : (1 : ℚ) ≤ (n : ℚ) - 1 := by
      have : 2 ≤ n := by omega
      have : (2 : ℚ) ≤ n := by exact_mod_cast this
      linarith
    have h3 : (i : ℚ) ≤ (n : ℚ) - 1 := by
      have : i + 1 ≤ n := h
      have : (i : ℚ) + 1 ≤ n := by exact_mod_cast this
      linarith
    have h4 : (0 : ℚ) ≤ i := Nat.cast_nonneg i
    have h5 : 0 ≤ (b - a) / ((n : ℚ) - 1) := div_nonneg (by linarith) (by linarith)
    constructor
    · have := mul_nonneg h5 h4
      linarith
    · have := mul_le_mul_of_nonneg_left h3 h5
      rw [div_mul_cancel₀ _ (by linarith)] at this
      linarith

/-- **C116**: the points are within the bounds, at the surface. -/
theorem C116_within (b : Box) (rx ry : Nat) (hx : b.x0 ≤ b.x1) (hy : b.y0 ≤ b.y1) (p : ℚ × ℚ × ℚ) (h : p ∈ gridPoints b rx ry) :
    b.x0 ≤ p.1 ∧ p.1 ≤ b.x1 ∧ b.y0 ≤ p.2.1 ∧ p.2.1 ≤ b.y1 ∧ p.2.2 = 0 := by
  unfold gridPoints at h
  obtain ⟨y, hy', h⟩ := List.mem_flatMap.mp h
  obtain ⟨x, hx', rfl⟩ := List.mem_map.mp h
  unfold linspace at hx' hy'
  obtain ⟨i, hi, rfl⟩ := List.mem_map.mp hx'
  obtain ⟨j, hj, rfl⟩ := List.mem_map.mp hy'
  have h1 := node_range b.x0 b.x1 rx i hx (List.mem_range.mp hi)
  have h2 := node_range b.y0 b.y1 ry j hy (List.mem_range.mp hj)
  exact ⟨h1.1, h1.2, h2.1, h2.2, rfl⟩

theorem node_first (a b : ℚ) (n : Nat) : nodeAt a b n 0 = a := by simp [nodeAt]

theorem node_last (a b : ℚ) (n : Nat) (h : 2 ≤ n) : nodeAt a b n (n - 1) = b := by
  unfold nodeAt
  rw [if_neg (by omega), Nat.cast_sub (by omega)]
  have h2 : (2 : ℚ) ≤ n := by exact_mod_cast h
  have : (n : ℚ) - 1 ≠ 0 := by linarith
  push_cast
  field_simp
  ring

/-- **C116**: with at least two points each way the grid spans the bounds: all four corners are points of it. -/
theorem C116_corners (b : Box) (rx ry : Nat) (hx : 2 ≤ rx) (hy : 2 ≤ ry) :
    (b.x0, b.y0, (0 : ℚ)) ∈ gridPoints b rx ry ∧ (b.x1, b.y0, (0 : ℚ)) ∈ gridPoints b rx ry ∧ (b.x0, b.y1, (0 : ℚ)) ∈ gridPoints b rx ry ∧
      (b.x1, b.y1, (0 : ℚ)) ∈ gridPoints b rx ry := by
  have h := (C116_points b rx ry).2
  refine ⟨?_, ?_, ?_, ?_⟩
  · have := h 0 0 (by omega) (by omega)
    rw [node_first, node_first] at this
    exact List.mem_of_getElem? this
  · have := h (rx - 1) 0 (by omega) (by omega)
    rw [node_last _ _ _ hx, node_first] at this
    exact List.mem_of_getElem? this
  · have := h 0 (ry - 1) (by omega) (by omega)
    rw [node_last _ _ _ hy, node_first] at this
    exact List.mem_of_getElem? this
  · have := h (rx - 1) (ry - 1) (by omega) (by omega)
    rw [node_last _ _ _ hx, node_last _ _ _ hy] at this
    exact List.mem_of_getElem? this

/-- **C116**: no two elements are at the same place. -/
theorem C116_distinct (b : Box) (rx ry : Nat) (hx : b.x0 < b.x1) (hy : b.y0 < b.y1) (i j i' j' : Nat) (hi : i < rx) (hj : j < ry) (hi' : i' < rx)
    (hj' : j' < ry) (h : (gridPoints b rx ry)[j * rx + i]? = (gridPoints b rx ry)[j' * rx + i']?) : i = i' ∧ j = j' := by
  have inj : ∀ (a c : ℚ) (n k k' : Nat), a < c → k < n → k' < n → nodeAt a c n k = nodeAt a c n k' → k = k' := by
    intro a c n k k' hac hk hk' e
    unfold nodeAt at e
    split at e
    · omega
    · rename_i hn
      have h2 : (1 : ℚ) ≤ (n : ℚ) - 1 := by
        have : 2 ≤ n := by omega
        have : (2 : ℚ) ≤ n := by exact_mod_cast this
        linarith
      have h5 : 0 < (c - a) / ((n : ℚ) - 1) := div_pos (by linarith) (by linarith)
      have e2 : (c - a) / ((n : ℚ) - 1) * (k : ℚ) = (c - a) / ((n : ℚ) - 1) * (k' : ℚ) := by linarith
      exact_mod_cast mul_left_cancel₀ h5.ne' e2
  rw [(C116_points b rx ry).2 i j hi hj, (C116_points b rx ry).2 i' j' hi' hj'] at h
  have e := Option.some.inj h
  exact ⟨inj _ _ _ _ _ hx hi hi' (congrArg Prod.fst e), inj _ _ _ _ _ hy hj hj' (congrArg (fun p => p.2.1) e)⟩

/-- **C116**: the elements of the release are the points of the grid, one at each, when all of them are released, as they are. -/
theorem C116_init (b : Box) (rx ry : Nat) : gridInit b rx ry (gridCount rx ry) = some (gridPoints b rx ry) := by
  unfold gridInit
  exact if_pos (C116_points b rx ry).1

theorem sum_range_cast (n : Nat) : ((List.range n).map fun i : Nat => (i : ℚ)).sum = (n : ℚ) * ((n : ℚ) - 1) / 2 := by
  induction n with
  | zero => simp
  | succ n ih =>
    rw [List.range_succ, List.map_append, List.sum_append, ih]
    simp
    ring

theorem linspace_sum (a b : ℚ) (n : Nat) (h : 2 ≤ n) : (linspace a b n).sum = (n : ℚ) * ((a + b) / 2) := by
  unfold linspace
  have hn : n ≠ 1 := by omega
  simp only [if_neg hn]
  have h2 : (2 : ℚ) ≤ n := by exact_mod_cast h
  have h3 : (n : ℚ) - 1 ≠ 0 := by linarith
  have : ∀ m : Nat, ((List.range m).map fun i : Nat => a + (b - a) / ((n : ℚ) - 1) * (i : ℚ)).sum =
      m * a + (b - a) / ((n : ℚ) - 1) * ((List.range m).map fun i : Nat => (i : ℚ)).sum := by
    intro m
    induction m with
    | zero => simp
    | succ m ih =>
      rw [List.range_succ, List.map_append, List.sum_append, ih, List.map_append, List.sum_append]
      simp
      ring
  rw [this n, sum_range_cast]
  field_simp
  ring

theorem flatMap_sum (l m : List ℚ) (f : ℚ → ℚ → ℚ) : ((l.flatMap fun y => m.map fun x => f x y)).sum = (l.map fun y => (m.map fun x => f x y).sum).sum := by
  induction l with
  | nil => simp
  | cons a l ih => simp [ih]

/-- **C116**: with at least two points each way the mean of the positions is the centroid shown. -/
theorem C116_mean_partial (b : Box) (rx ry : Nat) (hx : 2 ≤ rx) (hy : 2 ≤ ry) :
    ((gridPoints b rx ry).map fun p => p.1).sum = (gridCount rx ry : ℚ) * b.centroid.1 ∧
      ((gridPoints b rx ry).map fun p => p.2.1).sum = (gridCount rx ry : ℚ) * b.centroid.2.1 := by
  unfold gridPoints gridCount Box.centroid
  simp only [List.map_flatMap, List.map_map]
  constructor
  · have := flatMap_sum (linspace b.y0 b.y1 ry) (linspace b.x0 b.x1 rx) fun x _ => x
    rw [show (fun a => List.map ((fun p : ℚ × ℚ × ℚ => p.1) ∘ fun x => (x, a, 0)) (linspace b.x0 b.x1 rx)) =
      fun y : ℚ => (linspace b.x0 b.x1 rx).map fun x => x from rfl, this]
    simp only [List.map_id', linspace_sum _ _ _ hx, List.map_const', List.sum_replicate, linspace_length, nsmul_eq_mul]
    push_cast
    ring
  · have := flatMap_sum (linspace b.y0 b.y1 ry) (linspace b.x0 b.x1 rx) fun _ y => y
    rw [show (fun a => List.map ((fun p : ℚ × ℚ × ℚ => p.2.1) ∘ fun x => (x, a, 0)) (linspace b.x0 b.x1 rx)) =
      fun y : ℚ => (linspace b.x0 b.x1 rx).map fun _ => y from rfl, this]
    simp only [List.map_const', List.sum_replicate, linspace_length, nsmul_eq_mul]
    have e : ∀ l : List ℚ, (l.map fun y => (rx : ℚ) * y).sum = rx * l.sum := by
      intro l; induction l with
      | nil => simp
      | cons a l ih => simp [ih, mul_add]
    rw [e, linspace_sum _ _ _ hy]
    push_cast
    ring

/-- The claim for all resolutions. -/
def C116_claim_mean : Prop := ∀ (b : Box) (rx ry : Nat), 1 ≤ rx → 1 ≤ ry →
  ((gridPoints b rx ry).map fun p => p.1).sum = (gridCount rx ry : ℚ) * b.centroid.1

/-- **C116** fails for a grid of one point: it is in the corner, not in the middle. -/
theorem C116_counterexample_mean : ¬ C116_claim_mean := by
  intro h
  have := h ⟨0, 0, 1, 1⟩ 1 1 (le_refl _) (le_refl _)
  norm_num [gridPoints, linspace, gridCount, Box.centroid, List.range_succ] at this

/-! ### A single number as resolution -/

/-- What `round` is known to do. -/
def Rounds (rnd : ℝ → ℤ) : Prop := ∀ x, |(rnd x : ℝ) - x| ≤ 1 / 2

/-- The claim: a resolution is found, with points, for every box. -/
def C116_claim_resolution : Prop := ∀ (rnd : ℝ → ℤ) (w h : ℝ) (avg : ℕ), Rounds rnd → 0 < w → 0 < h → 1 ≤ avg →
  ∃ rx ry, resolution rnd w h avg = some (rx, ry) ∧ 1 ≤ rx ∧ 1 ≤ ry

/-- Rounding half up. -/
noncomputable def round' (x : ℝ) : ℤ := ⌊x + 1 / 2⌋

theorem rounds_round : Rounds round' := by
  intro x
  unfold round'
  have h1 := Int.floor_le (x + 1 / 2)
  have h2 := Int.lt_floor_add_one (x + 1 / 2)
  rw [abs_le]
  constructor <;> linarith

theorem first_round (w h : ℝ) (avg : ℕ) (hw : 0 < w) (hh : 0 < h) (ha : 1 ≤ avg) :
    (avg : ℝ) ^ 2 / (Real.sqrt (h / w) * avg) = avg * Real.sqrt (w / h) := by
  have h1 : 0 < Real.sqrt (h / w) := Real.sqrt_pos.mpr (div_pos hh hw)
  have h2 : Real.sqrt (h / w) * Real.sqrt (w / h) = 1 := by
    rw [← Real.sqrt_mul (div_pos hh hw).le]
    have : h / w * (w / h) = 1 := by field_simp
    rw [this, Real.sqrt_one]
  have h3 : (avg : ℝ) ≠ 0 := by positivity
  rw [div_eq_iff (by positivity)]
  linear_combination -(avg : ℝ) ^ 2 * h2

/-- **C116** fails for a box much taller than wide: a resolution of 2 in a box a hundred times as tall is a division by zero. -/
theorem C116_counterexample_resolution : ¬ C116_claim_resolution := by
  intro h
  obtain ⟨rx, ry, e, -, -⟩ := h round' 1 100 2 rounds_round (by norm_num) (by norm_num) (by norm_num)
  unfold resolution at e
  have : round' ((2 : ℕ) ^ 2 / (Real.sqrt (100 / 1) * (2 : ℕ))) = 0 := by
    rw [first_round 1 100 2 (by norm_num) (by norm_num) (by norm_num)]
    have : Real.sqrt (1 / 100) = 1 / 10 := by
      rw [show (1 : ℝ) / 100 = (1 / 10) ^ 2 by norm_num, Real.sqrt_sq (by norm_num)]
    rw [this]
    unfold round'
    norm_num
  simp only [this, if_true] at e
  cases e

/-- **C116** for boxes that are not too far from square: width over height between 1 / n and n, for an average resolution n. There are points,
about n squared of them, and the columns are to the width as the rows are to the height. -/
theorem C116_resolution_partial (rnd : ℝ → ℤ) (w h : ℝ) (avg : ℕ) (hr : Rounds rnd) (hw : 0 < w) (hh : 0 < h) (ha : 1 ≤ avg)
    (h1 : h ≤ w * avg) (h2 : w ≤ h * avg) :
    ∃ rx ry, resolution rnd w h avg = some (rx, ry) ∧ 1 ≤ rx ∧ 1 ≤ ry ∧ |(rx : ℝ) - avg * Real.sqrt (w / h)| ≤ 1 / 2 ∧
      |(rx : ℝ) * ry - (avg : ℝ) ^ 2| ≤ rx / 2 := by
  have ha' : (1 : ℝ) ≤ avg := by exact_mod_cast ha
  have hs1 : 1 ≤ avg * Real.sqrt (w / h) := by
    have : (1 : ℝ) / avg ≤ w / h := by
      rw [div_le_div_iff₀ (by linarith) hh]; linarith
    have h3 : (1 : ℝ) / avg ≤ Real.sqrt (w / h) := by
      apply Real.le_sqrt_of_sq_le
      have : ((1 : ℝ) / avg) ^ 2 ≤ 1 / avg := by
        rw [div_pow, one_pow, div_le_div_iff₀ (by positivity) (by linarith)]
        nlinarith
      linarith
    rw [div_le_iff₀ (by linarith)] at h3
    linarith
  have hs2 : Real.sqrt (w / h) ≤ avg := by
    apply Real.sqrt_le_iff.mpr
    refine ⟨by linarith, ?_⟩
    have : w / h ≤ avg := by rw [div_le_iff₀ hh]; linarith
    nlinarith
  set x := avg * Real.sqrt (w / h) with hx
  have hrx := hr x
  have hpos : 1 ≤ rnd x := by
    have h3 := (abs_le.mp hrx).1
    have : (0 : ℝ) < rnd x := by linarith
    have : 0 < rnd x := by exact_mod_cast this
    omega
  have hposR : (1 : ℝ) ≤ rnd x := by exact_mod_cast hpos
  refine ⟨rnd x, rnd ((avg : ℝ) ^ 2 / rnd x), ?_, hpos, ?_, hrx, ?_⟩
  · unfold resolution
    dsimp only
    rw [first_round w h avg hw hh ha, ← hx]
    exact if_neg (by omega)
  · have h4 := (abs_le.mp (hr ((avg : ℝ) ^ 2 / rnd x))).1
    have h5 : (1 / 2 : ℝ) < (avg : ℝ) ^ 2 / rnd x := by
      rw [lt_div_iff₀ (by linarith)]
      have h6 := (abs_le.mp hrx).2
      have h7 : x ≤ (avg : ℝ) ^ 2 := by rw [hx, sq]; exact mul_le_mul_of_nonneg_left hs2 (by linarith)
      nlinarith
    have : (0 : ℝ) < rnd ((avg : ℝ) ^ 2 / rnd x) := by linarith
    have : 0 < rnd ((avg : ℝ) ^ 2 / rnd x) := by exact_mod_cast this
    omega
  · have h4 := hr ((avg : ℝ) ^ 2 / rnd x)
    have : (rnd x : ℝ) * rnd ((avg : ℝ) ^ 2 / rnd x) - (avg : ℝ) ^ 2 = rnd x * (rnd ((avg : ℝ) ^ 2 / rnd x) - (avg : ℝ) ^ 2 / rnd x) := by
      field_simp
    rw [this, abs_mul, abs_of_pos (by linarith)]
    calc (rnd x : ℝ) * |_| ≤ rnd x * (1 / 2) := mul_le_mul_of_nonneg_left h4 (by linarith)
      _ = _ := by ring

example : ∃ rx ry, resolution round' 2 3 50 = some (rx, ry) ∧ 1 ≤ rx ∧ 1 ≤ ry := by
  obtain ⟨rx, ry, h1, h2, h3, -⟩ := C116_resolution_partial round' 2 3 50 rounds_round (by norm_num) (by norm_num) (by norm_num) (by norm_num) (by norm_num)
  exact ⟨rx, ry, h1, h2, h3⟩

example : gridPoints ⟨0, 10, 1, 12⟩ 2 3 = [(0, 10, 0), (1, 10, 0), (0, 11, 0), (1, 11, 0), (0, 12, 0), (1, 12, 0)] := by decide +kernel

end Verif.Place
