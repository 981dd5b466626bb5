import Verif.Dag.Spec
import Mathlib.Tactic.Linarith
import Mathlib.Tactic.FinCases
import Mathlib.Data.Fintype.Basic
import Mathlib.Tactic.LinearCombination
import Mathlib.Algebra.Order.Ring.Int

/-!
# Geometry of cross products
-/

namespace Verif.Dag

theorem cp_area (A B C t : Pt) : cp A B C = cp B C t + cp C A t + cp A B t := by unfold cp; ring

theorem cp_bary (A B C p q t : Pt) :
    cp A B C * cp p q t = cp B C t * cp p q A + cp C A t * cp p q B + cp A B t * cp p q C := by unfold cp; ring

theorem cp_swap (p q t : Pt) : cp q p t = -cp p q t := by unfold cp; ring

theorem cp_rot (p q t : Pt) : cp q t p = cp p q t := by unfold cp; ring

/-- The coordinates of `LatLongTransform` (`lib_gnome/MakeDagTree.cpp` 172-209), `tx * (h - xmin)` and `ty * (v - ymin)`, give the same
signs. -/
theorem cp_rescaled (tx ty x0 y0 : ℤ) (p q t : Pt) :
    cp (tx * (p.1 - x0), ty * (p.2 - y0)) (tx * (q.1 - x0), ty * (q.2 - y0)) (tx * (t.1 - x0), ty * (t.2 - y0)) =
      tx * ty * cp p q t := by
  unfold cp; ring

@[simp] theorem cp_left (p q : Pt) : cp p q p = 0 := by unfold cp; ring

@[simp] theorem cp_right (p q : Pt) : cp p q q = 0 := by unfold cp; ring

/-- Three points on a line through two different points are on a line. -/
theorem collinear {A B C p q : Pt} (h : p ≠ q) (hA : cp p q A = 0) (hB : cp p q B = 0) (hC : cp p q C = 0) : cp A B C = 0 := by
  have h1 : (q.1 - p.1) * cp A B C = 0 := by
    have : (q.1 - p.1) * cp A B C = -(C.1 - A.1) * (cp p q B - cp p q A) + (B.1 - A.1) * (cp p q C - cp p q A) := by unfold cp; ring
    rw [this, hA, hB, hC]; ring
  have h2 : (q.2 - p.2) * cp A B C = 0 := by
    have : (q.2 - p.2) * cp A B C = -(C.2 - A.2) * (cp p q B - cp p q A) + (B.2 - A.2) * (cp p q C - cp p q A) := by unfold cp; ring
    rw [this, hA, hB, hC]; ring
  by_contra hne
  rcases mul_eq_zero.mp h1 with h1 | h1
  · rcases mul_eq_zero.mp h2 with h2 | h2
    · exact h (Prod.ext (by omega) (by omega))
    · exact hne h2
  · exact hne h1

/-- A point strictly inside a triangle that is left of a line or on it is strictly left of the line. -/
theorem inside_left {A B C p q t : Pt} (h : p ≠ q) (h1 : cp A B t < 0) (h2 : cp B C t < 0) (h3 : cp C A t < 0)
    (hA : cp p q A ≤ 0) (hB : cp p q B ≤ 0) (hC : cp p q C ≤ 0) : cp p q t < 0 := by
  have hD : cp A B C < 0 := by rw [cp_area A B C t]; omega
  have hb := cp_bary A B C p q t
  have e1 : 0 ≤ cp B C t * cp p q A := mul_nonneg_of_nonpos_of_nonpos h2.le hA
  have e2 : 0 ≤ cp C A t * cp p q B := mul_nonneg_of_nonpos_of_nonpos h3.le hB
  have e3 : 0 ≤ cp A B t * cp p q C := mul_nonneg_of_nonpos_of_nonpos h1.le hC
  by_contra hge
  rw [not_lt] at hge
  have e4 : cp A B C * cp p q t ≤ 0 := mul_nonpos_of_nonpos_of_nonneg hD.le hge
  have z1 : cp B C t * cp p q A = 0 := by omega
  have z2 : cp C A t * cp p q B = 0 := by omega
  have z3 : cp A B t * cp p q C = 0 := by omega
  have y1 : cp p q A = 0 := by rcases mul_eq_zero.mp z1 with h | h; omega; exact h
  have y2 : cp p q B = 0 := by rcases mul_eq_zero.mp z2 with h | h; omega; exact h
  have y3 : cp p q C = 0 := by rcases mul_eq_zero.mp z3 with h | h; omega; exact h
  have := collinear h y1 y2 y3
  omega

theorem inside_right {A B C p q t : Pt} (h : p ≠ q) (h1 : cp A B t < 0) (h2 : cp B C t < 0) (h3 : cp C A t < 0)
    (hA : 0 ≤ cp p q A) (hB : 0 ≤ cp p q B) (hC : 0 ≤ cp p q C) : 0 < cp p q t := by
  have := inside_left (p := q) (q := p) (Ne.symm h) h1 h2 h3 (by rw [cp_swap]; omega) (by rw [cp_swap]; omega) (by rw [cp_swap]; omega)
  rw [cp_swap] at this
  omega

theorem StrictIn.sides {m : Mesh} {i : Nat} {pt : Pt} (h : StrictIn m i pt) :
    cp (m.pts ((m.tri i).v 0)) (m.pts ((m.tri i).v 1)) pt < 0 ∧ cp (m.pts ((m.tri i).v 1)) (m.pts ((m.tri i).v 2)) pt < 0 ∧
      cp (m.pts ((m.tri i).v 2)) (m.pts ((m.tri i).v 0)) pt < 0 := ⟨h 0, h 1, h 2⟩

theorem strictIn_rot {m : Mesh} {i : Nat} {pt : Pt} (k : Fin 3)
    (h1 : cp (m.pts ((m.tri i).v k)) (m.pts ((m.tri i).v (k + 1))) pt < 0)
    (h2 : cp (m.pts ((m.tri i).v (k + 1))) (m.pts ((m.tri i).v (k + 2))) pt < 0)
    (h3 : cp (m.pts ((m.tri i).v (k + 2))) (m.pts ((m.tri i).v k)) pt < 0) : StrictIn m i pt := by
  intro k'
  fin_cases k <;> fin_cases k' <;> assumption

theorem closedIn_rot {m : Mesh} {i : Nat} {pt : Pt} (k : Fin 3)
    (h1 : cp (m.pts ((m.tri i).v k)) (m.pts ((m.tri i).v (k + 1))) pt ≤ 0)
    (h2 : cp (m.pts ((m.tri i).v (k + 1))) (m.pts ((m.tri i).v (k + 2))) pt ≤ 0)
    (h3 : cp (m.pts ((m.tri i).v (k + 2))) (m.pts ((m.tri i).v k)) pt ≤ 0) : ClosedIn m i pt := by
  intro k'
  fin_cases k <;> fin_cases k' <;> assumption

theorem StrictIn.closed {m : Mesh} {i : Nat} {pt : Pt} (h : StrictIn m i pt) : ClosedIn m i pt := fun k => (h k).le

theorem StrictIn.at {m : Mesh} {i : Nat} {pt : Pt} (h : StrictIn m i pt) (k : Fin 3) :
    cp (m.pts ((m.tri i).v k)) (m.pts ((m.tri i).v (k + 1))) pt < 0 ∧
    cp (m.pts ((m.tri i).v (k + 1))) (m.pts ((m.tri i).v (k + 2))) pt < 0 ∧
    cp (m.pts ((m.tri i).v (k + 2))) (m.pts ((m.tri i).v k)) pt < 0 := by
  obtain ⟨a, b, c⟩ := h.sides
  fin_cases k <;> exact ⟨by assumption, by assumption, by assumption⟩

/-- The vertices of a triangle are different points. -/
theorem ne_of_ccw {m : Mesh} {i : Nat}
    (h : cp (m.pts ((m.tri i).v 0)) (m.pts ((m.tri i).v 1)) (m.pts ((m.tri i).v 2)) < 0) (k : Fin 3) :
    m.pts ((m.tri i).v k) ≠ m.pts ((m.tri i).v (k + 1)) := by
  intro he
  fin_cases k
  · have e : m.pts ((m.tri i).v 0) = m.pts ((m.tri i).v 1) := he
    rw [e] at h
    unfold cp at h; simp at h
  · have e : m.pts ((m.tri i).v 1) = m.pts ((m.tri i).v 2) := he
    rw [e] at h
    rw [cp_right] at h; omega
  · have e : m.pts ((m.tri i).v 2) = m.pts ((m.tri i).v 0) := he
    rw [e, cp_left] at h; omega

theorem Valid.ne {m : Mesh} (hv : Valid m) {i : Nat} (hi : i < m.n) (k : Fin 3) :
    m.pts ((m.tri i).v k) ≠ m.pts ((m.tri i).v (k + 1)) := ne_of_ccw (hv.ccw i hi) k

theorem Valid.vne {m : Mesh} (hv : Valid m) {i : Nat} (hi : i < m.n) (k : Fin 3) : (m.tri i).v k ≠ (m.tri i).v (k + 1) :=
  fun h => hv.ne hi k (by rw [h])

/-- The third point found in the neighbour is its third point. -/
theorem findThird_eq {m : Mesh} (hv : Valid m) {j : Nat} (hj : j < m.n) {p1 p2 : Nat} (k : Fin 3) (h1 : (m.tri j).v k = p1)
    (h2 : (m.tri j).v (k + 1) = p2) : m.findThird p1 p2 j = (m.tri j).v (k + 2) := by
  have a := hv.vne hj 0
  have b := hv.vne hj 1
  have c := hv.vne hj 2
  have a' : (m.tri j).v 0 ≠ (m.tri j).v 1 := a
  have b' : (m.tri j).v 1 ≠ (m.tri j).v 2 := b
  have c' : (m.tri j).v 2 ≠ (m.tri j).v 0 := c
  subst h1 h2
  have k0 : m.findThird ((m.tri j).v 0) ((m.tri j).v 1) j = (m.tri j).v 2 := by
    unfold Mesh.findThird
    rw [if_pos (Or.inl rfl)]
  have k1 : m.findThird ((m.tri j).v 1) ((m.tri j).v 2) j = (m.tri j).v 0 := by
    unfold Mesh.findThird
    rw [if_neg, if_pos (Or.inl rfl)]
    rintro (h | h)
    · exact a' h.symm
    · exact b' h.symm
  have k2 : m.findThird ((m.tri j).v 2) ((m.tri j).v 0) j = (m.tri j).v 1 := by
    unfold Mesh.findThird
    rw [if_neg, if_neg, if_pos (Or.inl rfl)]
    · rintro (h | h)
      · exact b' h.symm
      · exact c' h.symm
    · rintro (h | h)
      · exact c' h
      · exact a' h
  fin_cases k
  · exact k0
  · exact k1
  · exact k2

/-- Two triangles are apart when a side of the first has the second on its right or on its line. -/
theorem apart_of_first {m : Mesh} {i j : Nat} (k : Fin 3)
    (hccw : cp (m.pts ((m.tri j).v 0)) (m.pts ((m.tri j).v 1)) (m.pts ((m.tri j).v 2)) < 0)
    (h : ∀ k' : Fin 3, 0 ≤ cp (m.pts ((m.tri i).v k)) (m.pts ((m.tri i).v (k + 1))) (m.pts ((m.tri j).v k'))) (pt : Pt)
    (h1 : StrictIn m i pt) : ¬ ClosedIn m j pt := by
  intro h2
  have a := h2 0
  have b := h2 1
  have c := h2 2
  have hb := cp_bary (m.pts ((m.tri j).v 0)) (m.pts ((m.tri j).v 1)) (m.pts ((m.tri j).v 2)) (m.pts ((m.tri i).v k))
    (m.pts ((m.tri i).v (k + 1))) pt
  have e1 := mul_nonpos_of_nonpos_of_nonneg b (h 0)
  have e2 := mul_nonpos_of_nonpos_of_nonneg c (h 1)
  have e3 := mul_nonpos_of_nonpos_of_nonneg a (h 2)
  have e4 := mul_pos_of_neg_of_neg hccw (h1 k)
  simp only [show (0 : Fin 3) + 1 = 1 from rfl, show (1 : Fin 3) + 1 = 2 from rfl, show (2 : Fin 3) + 1 = 0 from rfl] at e1 e2 e3
  omega

/-- Two triangles are apart when a side of the second has the first on its right or on its line. -/
theorem apart_of_second {m : Mesh} {i j : Nat} (k : Fin 3) (hne : m.pts ((m.tri j).v k) ≠ m.pts ((m.tri j).v (k + 1)))
    (h : ∀ k' : Fin 3, 0 ≤ cp (m.pts ((m.tri j).v k)) (m.pts ((m.tri j).v (k + 1))) (m.pts ((m.tri i).v k'))) (pt : Pt)
    (h1 : StrictIn m i pt) : ¬ ClosedIn m j pt := by
  intro h2
  obtain ⟨a, b, c⟩ := h1.sides
  have := inside_right hne a b c (h 0) (h 1) (h 2)
  have := h2 k
  omega

/-- What can be checked of a grid, and is enough: the second triangle is on the right of a side of the first, or the other way round. -/
def Mesh.Checked (m : Mesh) : Prop :=
  (∀ i : Fin m.n, cp (m.pts ((m.tri i).v 0)) (m.pts ((m.tri i).v 1)) (m.pts ((m.tri i).v 2)) < 0) ∧
  (∀ i : Fin m.n, ∀ k : Fin 3, ∀ j ∈ (m.tri i).adj (k + 2), j < m.n ∧ j ≠ i ∧ ∃ k' : Fin 3,
    (m.tri j).v k' = (m.tri i).v (k + 1) ∧ (m.tri j).v (k' + 1) = (m.tri i).v k ∧ (m.tri j).adj (k' + 2) = some i.1) ∧
  ∀ i : Fin m.n, ∀ j : Fin m.n, i ≠ j →
    (∃ k : Fin 3, ∀ k' : Fin 3, 0 ≤ cp (m.pts ((m.tri i).v k)) (m.pts ((m.tri i).v (k + 1))) (m.pts ((m.tri j).v k'))) ∨
    ∃ k : Fin 3, ∀ k' : Fin 3, 0 ≤ cp (m.pts ((m.tri j).v k)) (m.pts ((m.tri j).v (k + 1))) (m.pts ((m.tri i).v k'))

theorem Mesh.Checked.valid {m : Mesh} (h : m.Checked) : Valid m where
  ccw i hi := h.1 ⟨i, hi⟩
  adj i hi k j hj := h.2.1 ⟨i, hi⟩ k j hj
  apart i hi j hj hne pt hp := by
    rcases h.2.2 ⟨i, hi⟩ ⟨j, hj⟩ (fun he => hne (congrArg Fin.val he)) with ⟨k, hk⟩ | ⟨k, hk⟩
    · exact apart_of_first k (h.1 ⟨j, hj⟩) hk pt hp
    · exact apart_of_second k (ne_of_ccw (h.1 ⟨j, hj⟩) k) hk pt hp

end Verif.Dag
