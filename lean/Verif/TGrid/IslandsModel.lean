import Mathlib.Algebra.Order.BigOperators.Group.List
import Mathlib.Algebra.Order.Ring.Nat
/-!
# Model of the numbering of islands of a curvilinear grid

Source: `/repo/py_gnome/lib_gnome/GridMapUtils.cpp`: `CheckSurroundingPoints` 20-55, `ThereIsALowerLandNeighbor` 137-184, `ResetMaskValues` 186-200,
`NumberIslands` 203-331. Used when a grid of triangles is made from a curvilinear grid of currents (`TimeGridVel_c.cpp` 4334, 5186, 5722).

A mask is a function from cells (row, column) to numbers; only cells of the grid are read. The kinds of water 0, 1 and 2 are all 0 here: nothing reads them
apart from tests for at least 3. Memory errors are left out.
-/
namespace Verif.TGrid.Islands

/-- row and column -/
abbrev Cell := Nat × Nat

abbrev Mask := Cell → Nat

/-- the cells of a grid with `r` rows and `c` columns in the order of the loops -/
def cells (r c : Nat) : List Cell := (List.range r).flatMap (fun i => (List.range c).map (fun j => (i, j)))

def Mask.set (m : Mask) (p : Cell) (v : Nat) : Mask := fun q => if q = p then v else m q

/-- the cells beside `p` that `CheckSurroundingPoints` and `ThereIsALowerLandNeighbor` look at, in their order: above and below, left and right -/
def nbs (r c : Nat) (p : Cell) : List Cell :=
  (if 0 < p.1 then [(p.1 - 1, p.2)] else []) ++ (if p.1 < r - 1 then [(p.1 + 1, p.2)] else []) ++
  (if 0 < p.2 then [(p.1, p.2 - 1)] else []) ++ (if p.2 < c - 1 then [(p.1, p.2 + 1)] else [])

/-- `CheckSurroundingPoints` 20-55: `lowestLandIndex` begins with 0 -/
def surround (m : Mask) (r c : Nat) (p : Cell) : Nat :=
  (nbs r c p).foldl (fun low q => if 3 ≤ m q ∧ m q < low then m q else low) 0

/-- `i==0 || i==numRows-1 || j==0 || j==numCols-1` -/
def edge (r c : Nat) (p : Cell) : Bool := p.1 == 0 || p.1 == r - 1 || p.2 == 0 || p.2 == c - 1

/-- one cell of the first pass 218-253: the mask and `landPolyNum` -/
def mark (land : Cell → Bool) (r c : Nat) (s : Mask × Nat) (p : Cell) : Mask × Nat :=
  if land p then
    if edge r c p then (s.1.set p 3, s.2)
    else if s.2 = 1 then (s.1.set p (s.2 + 3), s.2 + 3)
    else if 3 ≤ surround s.1 r c p then (s.1.set p (surround s.1 r c p), s.2)
    else (s.1.set p s.2, s.2 + 1)
  else (s.1.set p 0, s.2)

/-- the first pass 216-254 -/
def first (land : Cell → Bool) (r c : Nat) : Mask := ((cells r c).foldl (mark land r c) (fun _ => 0, 1)).1

/-- the cell of the grid that a cell of the extended grid is filled from, 256-275 -/
def proj (c : Nat) (p : Cell) : Cell := (p.1 - 1, min p.2 (c - 1))

/-- the extended grid, one row and one column more -/
def extend (c : Nat) (m : Mask) : Mask := fun p => m (proj c p)

/-- `ThereIsALowerLandNeighbor` 137-184 -/
def lower (m : Mask) (r c : Nat) (p : Cell) : Option Nat := ((nbs r c p).find? (fun q => decide (3 ≤ m q ∧ m q < m p))).map m

/-- `ResetMaskValues` 186-200 -/
def reset (m : Mask) (a b : Nat) : Mask := fun p => if m p = a then b else if a < m p then m p - 1 else m p

/-- what the loop from 288 on does at a cell: the block to merge and the block to join; 295-303 -/
def todo (m : Mask) (r c : Nat) (p : Cell) : Option (Nat × Nat) :=
  if m p < 3 then none
  else match lower m r c p with
    | some b => some (m p, b)
    | none => if edge r c p = true ∧ 3 < m p then some (m p, 3) else none

/-- the first change that the loop finds -/
def scan (m : Mask) (r c : Nat) : Option (Nat × Nat) := (cells r c).findSome? (todo m r c)

def total (m : Mask) (r c : Nat) : Nat := ((cells r c).map m).sum

theorem todo_spec {m : Mask} {r c : Nat} {p : Cell} {a b : Nat} (h : todo m r c p = some (a, b)) : m p = a ∧ b < a ∧ 3 ≤ b := by
  unfold todo at h
  split at h
  · cases h
  · split at h
    · rename_i b' hb
      cases h
      unfold lower at hb
      obtain ⟨q, hq, rfl⟩ := Option.map_eq_some_iff.1 hb
      have := List.find?_some hq
      simp only [decide_eq_true_eq] at this
      exact ⟨rfl, this.2, this.1⟩
    · split at h
      · rename_i he
        cases h
        exact ⟨rfl, he.2, le_refl _⟩
      · cases h

theorem total_reset {m : Mask} {r c a b : Nat} (h : scan m r c = some (a, b)) : total (reset m a b) r c < total m r c := by
  obtain ⟨p, hp, ht⟩ := List.exists_of_findSome?_eq_some h
  obtain ⟨h1, h2, h3⟩ := todo_spec ht
  unfold total
  refine List.sum_lt_sum _ _ (fun q _ => ?_) ⟨p, hp, ?_⟩
  · unfold reset
    split
    · omega
    · split <;> omega
  · unfold reset
    rw [if_pos h1]
    omega

/-- the loop 287-306, which starts again after each change -/
def merge (m : Mask) (r c : Nat) : Mask :=
  match _h : scan m r c with
  | none => m
  | some (a, b) => merge (reset m a b) r c
termination_by total m r c
decreasing_by exact total_reset _h

/-- `NumberIslands`: the mask of the extended grid -/
def number (land : Cell → Bool) (r c : Nat) : Mask := merge (extend c (first land r c)) (r + 1) (c + 1)

/-- `*numIslands` 307-318 -/
def count (land : Cell → Bool) (r c : Nat) : Nat :=
  (cells (r + 1) (c + 1)).foldl (fun k p => if number land r c p < 3 then k else if k < number land r c p then number land r c p else k) 3

end Verif.TGrid.Islands
