import Verif.Dag.Props

/-!
# C104: cases
-/

namespace Verif.Dag

/-- A grid from lists. -/
def ofLists (pts : List Pt) (tris : List Tri) : Mesh :=
  ⟨fun (i : Nat) => pts.getD i (0, 0), tris.length, fun (i : Nat) => tris.getD i ⟨fun _ => 0, fun _ => none⟩⟩

def tri3 (a b c : Nat) (x y z : Option Nat) : Tri := ⟨fun k => [a, b, c].getD k.1 0, fun k => ([x, y, z].getD k.1 none)⟩

/-- Whether a tree may come of a list, by computation. -/
def Mesh.check (m : Mesh) : List Side → Tree → Bool
  | l, .leaf => l.isEmpty
  | l, .node s a b => decide (m.Pickable l s) && m.check ((l.erase s).filter fun x => m.sideOf s x ≠ 1) a &&
      m.check ((l.erase s).filter fun x => m.sideOf s x ≠ -1) b

theorem check_built {m : Mesh} {l : List Side} {t : Tree} (h : m.check l t = true) : Built m l t := by
  induction t generalizing l with
  | leaf =>
    unfold Mesh.check at h
    rw [List.isEmpty_iff] at h
    subst h; exact .nil
  | node s a b iha ihb =>
    unfold Mesh.check at h
    simp only [Bool.and_eq_true, decide_eq_true_eq] at h
    obtain ⟨⟨hp, ha⟩, hb⟩ := h
    obtain ⟨pre, post, -, e1, e2⟩ := List.exists_erase_eq hp.1
    rw [e2] at ha hb
    rw [e1] at hp ⊢
    exact .node pre post s a b hp (iha (by simpa using ha)) (ihb (by simpa using hb))

/-- Four triangles: one in the middle of the other three. -/
def star : Mesh := ofLists [(0, 0), (12, 0), (0, 12), (6, 0), (6, 6), (0, 6)]
  [tri3 3 4 5 (some 3) (some 1) (some 2), tri3 0 3 5 (some 0) none none, tri3 3 1 4 none (some 0) none, tri3 5 4 2 none none (some 0)]

def starTree : Tree := .node (3, 0) (.node (3, 2) (.node (3, 1) .leaf .leaf) .leaf)
  (.node (1, 1) (.node (1, 2) (.node (1, 0) .leaf .leaf) .leaf) (.node (2, 2) (.node (2, 0) (.node (2, 1) .leaf .leaf) .leaf) .leaf))

instance (m : Mesh) : Decidable m.Checked := by unfold Mesh.Checked; infer_instance

instance (m : Mesh) (s : Side) (i : Nat) : Decidable (Uncut m s i) := by unfold Uncut; infer_instance

theorem star_valid : Valid star := Mesh.Checked.valid (by decide +kernel)

theorem star_built : Built star star.sides starTree := check_built (by decide +kernel)

/-- The hypotheses of `C104_found_partial` are met: whatever tree is built, points inside the middle triangle are found. -/
example (t : Tree) (hb : Built star star.sides t) : star.locate t 77 (5, 5) = some 0 :=
  C104_found_partial star t 77 (5, 5) 0 star_valid hb (by decide +kernel) (by decide +kernel) (by decide +kernel)

/-- So are those of `C104_true_partial`. -/
example : ClosedIn star 0 (4, 2) :=
  (C104_true_partial star starTree 77 (4, 2) 0 star_valid star_built (by
    intro v
    rcases v with _ | _ | _ | _ | _ | _ | v <;> simp [star, ofLists]) (by decide +kernel)).2

/-- **C104** fails at points of the grid: the point (0, 6) is a vertex of three triangles and reported to be in the fourth. -/
theorem C104_counterexample_vertex : ¬ C104_claim_true := by
  intro h
  have := h star starTree 0 (0, 6) 2 star_valid star_built (by decide +kernel)
  exact absurd this (by decide +kernel)

/-- Four triangles in a row around a bay. -/
def bay : Mesh := ofLists [(0, 7), (0, 3), (1, 3), (8, 2), (6, 3), (1, 7)]
  [tri3 0 1 2 (some 1) none none, tri3 2 1 3 none (some 2) (some 0), tri3 2 3 4 (some 3) none (some 1), tri3 4 3 5 none none (some 2)]

def bayTree : Tree := .node (1, 0) (.node (3, 0) (.node (3, 1) .leaf .leaf) (.node (2, 0) (.node (2, 2) .leaf .leaf) (.node (1, 1) .leaf .leaf)))
  (.node (0, 2) (.node (0, 0) .leaf .leaf)
    (.node (2, 2) (.node (3, 1) .leaf .leaf) (.node (3, 1) (.node (3, 2) .leaf .leaf) .leaf)))

theorem bay_valid : Valid bay := Mesh.Checked.valid (by decide +kernel)

theorem bay_built : Built bay bay.sides bayTree := check_built (by decide +kernel)

/-- **C104** fails inside triangles: the line through the side between the first two triangles cuts off a part of the last triangle; of the
sides that are looked at there, the first is a side of the boundary with the point on its outer side, and the search ends. -/
theorem C104_counterexample_lost : ¬ C104_claim_found := by
  intro h
  have := h bay bayTree 0 (5, 4) 3 bay_valid bay_built (by decide +kernel) (by decide +kernel)
  exact absurd this (by decide +kernel)

end Verif.Dag
