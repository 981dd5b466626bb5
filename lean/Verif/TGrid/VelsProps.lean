import Mathlib.Tactic.Ring
import Verif.TGrid.CurvTriProps
import Verif.TGrid.VelsModel

/-!
# One velocity for each point reported, the one of that place
-/
namespace Verif.TGrid.Vels

open CurvTri

/-- `get_scaled_velocities` returns one velocity for each point of `get_center_points`. -/
def C331_claim : Prop := ∀ (m : Mover) (g : Grid), m.reads g.kind = true → velocities m g = some (centers g)

/-- **C331 (partial)**: for triangles and regular grids. -/
theorem C331_partial (m : Mover) (g : Grid) (hm : m.reads g.kind = true) (hk : g.kind ≠ .curved) : velocities m g = some (centers g) := by
  obtain ⟨k, t, p⟩ := g
  cases m <;> cases k <;> first | exact absurd rfl hk | (simp [Mover.reads] at hm; done) | simp [velocities, numCells, centers, zeros]

/-- Non-trivial case: currents on the nodes of triangles. -/
example : Mover.reads .current (Grid.mk .triNodes 8 9).kind = true ∧ (Grid.mk .triNodes 8 9).kind ≠ .curved ∧ velocities .current ⟨.triNodes, 8, 9⟩ = some 9 := by decide

/-- **C331 fails**: on a curved grid every mover raises a TypeError, whatever the grid. -/
theorem C331_curved (m : Mover) (t p : Nat) : velocities m ⟨.curved, t, p⟩ = none := by cases m <;> rfl

/-- So the claim is false: a curved grid of two triangles. -/
theorem C331_counterexample : ¬ C331_claim := by
  intro h
  have := h .current ⟨.curved, 2, 4⟩ rfl
  rw [C331_curved] at this
  cases this

/-- What is computed for a curved grid: the n-th point is the middle of the n-th water cell, and the n-th velocity is that of the data of this cell. -/
theorem C331_cells (g : Cells) (pos : Nat → ℚ) (data : Int → ℚ) (scale : ℚ) (i j : Nat) (hw : Wet g i j) :
    cellCenter g pos (rank g i j) = (pos (i * (g.cols + 1) + j) + pos (i * (g.cols + 1) + (j + 1)) + pos ((i + 1) * (g.cols + 1) + j) +
      pos ((i + 1) * (g.cols + 1) + (j + 1))) / 4 ∧
    cellVelocity g false data scale (rank g i j) = data (i * g.cols + j) * scale := by
  have h0 := topo_at hw false
  have h1 := topo_at hw true
  simp only [at', Bool.toNat_false, Bool.toNat_true, Nat.add_zero] at h0 h1
  obtain ⟨u1, u2, u3, u4⟩ := used hw
  have hi := hw.1
  have hj := hw.2.1
  constructor
  · simp only [cellCenter, List.getD_eq_getElem?_getD, h0, h1, Option.getD_some, tri_top hw, tri_bottom hw]
    simp only [← List.getD_eq_getElem?_getD]
    rw [verdat_num (by omega) (by omega) u2, verdat_num (by omega) (by omega) u1, verdat_num (by omega) (by omega) u3, verdat_num (by omega) (by omega) u4]
    ring
  · simp only [cellVelocity, List.getD_eq_getElem?_getD, h0, Option.getD_some, Bool.false_eq_true, if_false]
    rw [C329_index g _ _ i j (topo_at hw false)]
    refine ⟨hw, ?_⟩
    rw [(nodes_tri hw).1]; simp

/-- Every point and velocity there is comes from a cell. -/
theorem C331_all (g : Cells) (n : Nat) (hn : n < (topo g).length / 2) : ∃ i j, Wet g i j ∧ n = rank g i j := by
  obtain ⟨i, j, h, hw, e, -⟩ := topo_ex (g := g) (t := 2 * n) (T := (topo g)[2 * n]'(by omega)) (List.getElem?_eq_getElem _)
  refine ⟨i, j, hw, ?_⟩
  unfold at' at e
  cases h <;> simp at e <;> omega

/-- With velocities on nodes, the velocity shown in the middle of a cell is that of its corner in the first row and last column. -/
theorem C331_nodes (g : Cells) (data : Int → ℚ) (scale : ℚ) (i j : Nat) (hw : Wet g i j) :
    cellVelocity g true data scale (rank g i j) = data (i * (g.cols + 1) + (j + 1)) * scale := by
  have h0 := topo_at hw false
  simp only [at', Bool.toNat_false, Nat.add_zero] at h0
  obtain ⟨u1, u2, u3, u4⟩ := used hw
  have hi := hw.1
  have hj := hw.2.1
  simp only [cellVelocity, List.getD_eq_getElem?_getD, h0, Option.getD_some, if_true, tri_top hw]
  simp only [← List.getD_eq_getElem?_getD]
  rw [verdat_num (by omega) (by omega) u2]
  push_cast
  rfl

end Verif.TGrid.Vels
