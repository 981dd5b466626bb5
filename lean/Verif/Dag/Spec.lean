import Verif.Dag.Model

/-!
# What a grid is, and where a point is in it
-/

namespace Verif.Dag

/-- The point is in the triangle, not on its boundary. -/
def StrictIn (m : Mesh) (i : Nat) (pt : Pt) : Prop := ∀ k : Fin 3, cp (m.pts ((m.tri i).v k)) (m.pts ((m.tri i).v (k + 1))) pt < 0

/-- The point is in the triangle or on its boundary. -/
def ClosedIn (m : Mesh) (i : Nat) (pt : Pt) : Prop := ∀ k : Fin 3, cp (m.pts ((m.tri i).v k)) (m.pts ((m.tri i).v (k + 1))) pt ≤ 0

instance (m : Mesh) (i : Nat) (pt : Pt) : Decidable (StrictIn m i pt) := by unfold StrictIn; infer_instance

instance (m : Mesh) (i : Nat) (pt : Pt) : Decidable (ClosedIn m i pt) := by unfold ClosedIn; infer_instance

/-- A grid of triangles: vertices in anticlockwise order, neighbours share a side and know each other, and no point inside a triangle is in
another. -/
structure Valid (m : Mesh) : Prop where
  ccw : ∀ i < m.n, cp (m.pts ((m.tri i).v 0)) (m.pts ((m.tri i).v 1)) (m.pts ((m.tri i).v 2)) < 0
  adj : ∀ i < m.n, ∀ k : Fin 3, ∀ j, (m.tri i).adj (k + 2) = some j → j < m.n ∧ j ≠ i ∧ ∃ k' : Fin 3,
    (m.tri j).v k' = (m.tri i).v (k + 1) ∧ (m.tri j).v (k' + 1) = (m.tri i).v k ∧ (m.tri j).adj (k' + 2) = some i
  apart : ∀ i < m.n, ∀ j < m.n, i ≠ j → ∀ pt, StrictIn m i pt → ¬ ClosedIn m j pt

/-- The line through a side does not cut the triangle: its vertices are all on one side of the line, or on it. -/
def Uncut (m : Mesh) (s : Side) (i : Nat) : Prop :=
  (∀ k : Fin 3, cp (m.pts (m.first s)) (m.pts (m.second s)) (m.pts ((m.tri i).v k)) ≤ 0) ∨
    (m.right s ≠ none ∧ ∀ k : Fin 3, 0 ≤ cp (m.pts (m.first s)) (m.pts (m.second s)) (m.pts ((m.tri i).v k)))

/-- The claim: the triangle found contains the point. -/
def C104_claim_true : Prop := ∀ (m : Mesh) (t : Tree) (junk : Nat) (pt : Pt) (i : Nat), Valid m → Built m m.sides t →
  m.locate t junk pt = some i → ClosedIn m i pt

/-- The claim: a point in a triangle of the grid is found. -/
def C104_claim_found : Prop := ∀ (m : Mesh) (t : Tree) (junk : Nat) (pt : Pt) (i : Nat), Valid m → Built m m.sides t → i < m.n →
  StrictIn m i pt → m.locate t junk pt = some i

end Verif.Dag
