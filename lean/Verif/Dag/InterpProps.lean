import Verif.Dag.InterpModel
import Verif.Dag.Cases
import Mathlib.Tactic.FieldSimp
import Mathlib.Tactic.Linarith
import Mathlib.Tactic.Positivity
import Mathlib.Tactic.Ring
import Mathlib.Tactic.NormNum

/-!
# C106, C107, C108: values between the points of a grid
-/

namespace Verif.Dag

/-- The cross product in degrees. -/
def cpq (p q t : Pt) : ℚ := (deg t.1 - deg p.1) * (deg q.2 - deg p.2) - (deg t.2 - deg p.2) * (deg q.1 - deg p.1)

theorem cpq_eq (p q t : Pt) : cpq p q t = (cp p q t : ℚ) / 1000000 ^ 2 := by
  unfold cpq cp deg
  push_cast
  field_simp

theorem cpq_ne {p q t : Pt} (h : cp p q t ≠ 0) : cpq p q t ≠ 0 := by
  rw [cpq_eq]
  exact div_ne_zero (by exact_mod_cast h) (by norm_num)

/-- The three vertices of a triangle. -/
def Mesh.A (m : Mesh) (i : Nat) : Pt := m.pts ((m.tri i).v 0)
def Mesh.B (m : Mesh) (i : Nat) : Pt := m.pts ((m.tri i).v 1)
def Mesh.C (m : Mesh) (i : Nat) : Pt := m.pts ((m.tri i).v 2)

/-- The weights are quotients of areas. -/
theorem weights_eq (m : Mesh) (i : Nat) (pt : Pt) :
    m.weights i pt = (cpq (m.B i) (m.C i) pt / cpq (m.A i) (m.B i) (m.C i), cpq (m.C i) (m.A i) pt / cpq (m.A i) (m.B i) (m.C i),
      cpq (m.A i) (m.B i) pt / cpq (m.A i) (m.B i) (m.C i)) := by
  have key : ∀ a b c d : ℚ, a = -c → b = -d → a / b = c / d := by
    intro a b c d h1 h2
    rw [h1, h2, neg_div_neg_eq]
  unfold Mesh.weights
  refine Prod.ext ?_ (Prod.ext ?_ ?_)
  · refine key _ _ _ _ ?_ ?_ <;> · simp only [cpq, Mesh.A, Mesh.B, Mesh.C]; ring
  · refine key _ _ _ _ ?_ ?_ <;> · simp only [cpq, Mesh.A, Mesh.B, Mesh.C]; ring
  · refine key _ _ _ _ ?_ ?_ <;> · simp only [cpq, Mesh.A, Mesh.B, Mesh.C]; ring

/-! ## C106 -/

/-- A triangle with an area. -/
def Mesh.Proper (m : Mesh) (i : Nat) : Prop := cp (m.pts ((m.tri i).v 0)) (m.pts ((m.tri i).v 1)) (m.pts ((m.tri i).v 2)) ≠ 0

theorem Valid.proper {m : Mesh} (hv : Valid m) {i : Nat} (hi : i < m.n) : m.Proper i := (hv.ccw i hi).ne

theorem interp_eq {m : Mesh} {i : Nat} (hp : m.Proper i) (f : Nat → ℚ) (pt : Pt) :
    m.interp i f pt * cpq (m.A i) (m.B i) (m.C i) =
      cpq (m.B i) (m.C i) pt * f ((m.tri i).v 0) + cpq (m.C i) (m.A i) pt * f ((m.tri i).v 1) + cpq (m.A i) (m.B i) pt * f ((m.tri i).v 2) := by
  have hD : cpq (m.A i) (m.B i) (m.C i) ≠ 0 := cpq_ne hp
  unfold Mesh.interp
  rw [weights_eq]
  simp only
  field_simp

/-- **C106**: data that change in proportion to the coordinates are reproduced. -/
theorem C106_linear (m : Mesh) (i : Nat) (hp : m.Proper i) (a b c : ℚ) (pt : Pt) :
    m.interp i (fun k => a + b * deg (m.pts k).1 + c * deg (m.pts k).2) pt = a + b * deg pt.1 + c * deg pt.2 := by
  have hD : cpq (m.A i) (m.B i) (m.C i) ≠ 0 := cpq_ne hp
  refine mul_right_cancel₀ hD ?_
  rw [interp_eq hp]
  unfold cpq Mesh.A Mesh.B Mesh.C
  ring

/-- **C106**: the weights are the only ones that do that. -/
theorem C106_unique (m : Mesh) (i : Nat) (hp : m.Proper i) (pt : Pt) (w : ℚ × ℚ × ℚ)
    (h : ∀ a b c : ℚ, w.1 * (a + b * deg (m.A i).1 + c * deg (m.A i).2) + w.2.1 * (a + b * deg (m.B i).1 + c * deg (m.B i).2) +
      w.2.2 * (a + b * deg (m.C i).1 + c * deg (m.C i).2) = a + b * deg pt.1 + c * deg pt.2) : w = m.weights i pt := by
  have hD : cpq (m.A i) (m.B i) (m.C i) ≠ 0 := cpq_ne hp
  obtain ⟨w1, w2, w3⟩ := w
  have h0 := h 1 0 0
  have hx := h 0 1 0
  have hy := h 0 0 1
  simp only at h0 hx hy
  have e1 : w1 = 1 - w2 - w3 := by linarith
  have ex : deg pt.1 = w1 * deg (m.A i).1 + w2 * deg (m.B i).1 + w3 * deg (m.C i).1 := by linarith
  have ey : deg pt.2 = w1 * deg (m.A i).2 + w2 * deg (m.B i).2 + w3 * deg (m.C i).2 := by linarith
  rw [weights_eq]
  subst e1
  refine Prod.ext ?_ (Prod.ext ?_ ?_)
  · refine (eq_div_iff hD).mpr ?_
    simp only [cpq, ex, ey]; ring
  · refine (eq_div_iff hD).mpr ?_
    simp only [cpq, ex, ey]; ring
  · refine (eq_div_iff hD).mpr ?_
    simp only [cpq, ex, ey]; ring

/-- **C106**: at a vertex the value is the one given there. -/
theorem C106_vertex (m : Mesh) (i : Nat) (hp : m.Proper i) (f : Nat → ℚ) (k : Fin 3) :
    m.interp i f (m.pts ((m.tri i).v k)) = f ((m.tri i).v k) := by
  have hD : cpq (m.A i) (m.B i) (m.C i) ≠ 0 := cpq_ne hp
  have k0 : m.interp i f (m.A i) = f ((m.tri i).v 0) := by
    refine mul_right_cancel₀ hD ?_
    rw [interp_eq hp]; unfold cpq; ring
  have k1 : m.interp i f (m.B i) = f ((m.tri i).v 1) := by
    refine mul_right_cancel₀ hD ?_
    rw [interp_eq hp]; unfold cpq; ring
  have k2 : m.interp i f (m.C i) = f ((m.tri i).v 2) := by
    refine mul_right_cancel₀ hD ?_
    rw [interp_eq hp]; unfold cpq; ring
  fin_cases k
  · exact k0
  · exact k1
  · exact k2

theorem weights_closed {m : Mesh} {i : Nat} {pt : Pt}
    (hc : cp (m.pts ((m.tri i).v 0)) (m.pts ((m.tri i).v 1)) (m.pts ((m.tri i).v 2)) < 0) (h : ClosedIn m i pt) :
    0 ≤ (m.weights i pt).1 ∧ 0 ≤ (m.weights i pt).2.1 ∧ 0 ≤ (m.weights i pt).2.2 ∧
      (m.weights i pt).1 + (m.weights i pt).2.1 + (m.weights i pt).2.2 = 1 := by
  have neg : ∀ p q t : Pt, cp p q t ≤ 0 → cpq p q t ≤ 0 := by
    intro p q t h
    rw [cpq_eq]
    exact div_nonpos_of_nonpos_of_nonneg (by exact_mod_cast h) (by norm_num)
  have hD : cpq (m.A i) (m.B i) (m.C i) ≠ 0 := cpq_ne hc.ne
  have hD' := neg _ _ _ hc.le
  rw [weights_eq]
  refine ⟨div_nonneg_of_nonpos (neg _ _ _ (h 1)) hD', div_nonneg_of_nonpos (neg _ _ _ (h 2)) hD', div_nonneg_of_nonpos (neg _ _ _ (h 0)) hD', ?_⟩
  rw [← add_div, ← add_div, div_eq_one_iff_eq hD]
  unfold cpq; ring

/-- **C106**: in a triangle the value is between those at its vertices. -/
theorem C106_between (m : Mesh) (i : Nat) (hv : Valid m) (hi : i < m.n) (f : Nat → ℚ) (pt : Pt) (h : ClosedIn m i pt) (lo hi' : ℚ)
    (hf : ∀ k : Fin 3, lo ≤ f ((m.tri i).v k) ∧ f ((m.tri i).v k) ≤ hi') : lo ≤ m.interp i f pt ∧ m.interp i f pt ≤ hi' := by
  obtain ⟨h1, h2, h3, h4⟩ := weights_closed (hv.ccw i hi) h
  unfold Mesh.interp
  generalize m.weights i pt = w at *
  have f0 := hf 0
  have f1 := hf 1
  have f2 := hf 2
  constructor
  · have e1 := mul_le_mul_of_nonneg_left f0.1 h1
    have e2 := mul_le_mul_of_nonneg_left f1.1 h2
    have e3 := mul_le_mul_of_nonneg_left f2.1 h3
    have : w.1 * lo + w.2.1 * lo + w.2.2 * lo = lo := by rw [← add_mul, ← add_mul, h4, one_mul]
    dsimp only
    linarith
  · have e1 := mul_le_mul_of_nonneg_left f0.2 h1
    have e2 := mul_le_mul_of_nonneg_left f1.2 h2
    have e3 := mul_le_mul_of_nonneg_left f2.2 h3
    have : w.1 * hi' + w.2.1 * hi' + w.2.2 * hi' = hi' := by rw [← add_mul, ← add_mul, h4, one_mul]
    dsimp only
    linarith

/-- On the line through two vertices the third has no weight. -/
theorem interp_on_side {m : Mesh} {i : Nat} (hp : m.Proper i) (f : Nat → ℚ) (pt : Pt) (k : Fin 3) (s : ℚ)
    (hx : deg pt.1 = (1 - s) * deg (m.pts ((m.tri i).v k)).1 + s * deg (m.pts ((m.tri i).v (k + 1))).1)
    (hy : deg pt.2 = (1 - s) * deg (m.pts ((m.tri i).v k)).2 + s * deg (m.pts ((m.tri i).v (k + 1))).2) :
    m.interp i f pt = (1 - s) * f ((m.tri i).v k) + s * f ((m.tri i).v (k + 1)) := by
  have hD : cpq (m.A i) (m.B i) (m.C i) ≠ 0 := cpq_ne hp
  refine mul_right_cancel₀ hD ?_
  rw [interp_eq hp]
  have k0 : deg pt.1 = (1 - s) * deg (m.A i).1 + s * deg (m.B i).1 → deg pt.2 = (1 - s) * deg (m.A i).2 + s * deg (m.B i).2 →
      cpq (m.B i) (m.C i) pt * f ((m.tri i).v 0) + cpq (m.C i) (m.A i) pt * f ((m.tri i).v 1) + cpq (m.A i) (m.B i) pt * f ((m.tri i).v 2) =
        ((1 - s) * f ((m.tri i).v 0) + s * f ((m.tri i).v 1)) * cpq (m.A i) (m.B i) (m.C i) := by
    intro ex ey
    unfold cpq; rw [ex, ey]; ring
  have k1 : deg pt.1 = (1 - s) * deg (m.B i).1 + s * deg (m.C i).1 → deg pt.2 = (1 - s) * deg (m.B i).2 + s * deg (m.C i).2 →
      cpq (m.B i) (m.C i) pt * f ((m.tri i).v 0) + cpq (m.C i) (m.A i) pt * f ((m.tri i).v 1) + cpq (m.A i) (m.B i) pt * f ((m.tri i).v 2) =
        ((1 - s) * f ((m.tri i).v 1) + s * f ((m.tri i).v 2)) * cpq (m.A i) (m.B i) (m.C i) := by
    intro ex ey
    unfold cpq; rw [ex, ey]; ring
  have k2 : deg pt.1 = (1 - s) * deg (m.C i).1 + s * deg (m.A i).1 → deg pt.2 = (1 - s) * deg (m.C i).2 + s * deg (m.A i).2 →
      cpq (m.B i) (m.C i) pt * f ((m.tri i).v 0) + cpq (m.C i) (m.A i) pt * f ((m.tri i).v 1) + cpq (m.A i) (m.B i) pt * f ((m.tri i).v 2) =
        ((1 - s) * f ((m.tri i).v 2) + s * f ((m.tri i).v 0)) * cpq (m.A i) (m.B i) (m.C i) := by
    intro ex ey
    unfold cpq; rw [ex, ey]; ring
  fin_cases k
  · exact k0 hx hy
  · exact k1 hx hy
  · exact k2 hx hy

/-- A point on the line through two points is between them in some proportion. -/
theorem on_line {p q t : Pt} (hne : p ≠ q) (h : cp p q t = 0) :
    ∃ s : ℚ, deg t.1 = (1 - s) * deg p.1 + s * deg q.1 ∧ deg t.2 = (1 - s) * deg p.2 + s * deg q.2 := by
  have hq : cpq p q t = 0 := by rw [cpq_eq, h]; simp
  unfold cpq at hq
  have dinj : ∀ a b : ℤ, deg a = deg b → a = b := by
    intro a b h
    unfold deg at h
    have : (a : ℚ) = b := by field_simp at h; exact_mod_cast h
    exact_mod_cast this
  by_cases hx : q.1 = p.1
  · have hy : deg q.2 - deg p.2 ≠ 0 := fun e => hne (Prod.ext hx.symm (dinj _ _ (by linarith)))
    refine ⟨(deg t.2 - deg p.2) / (deg q.2 - deg p.2), ?_, ?_⟩
    · rw [hx] at hq ⊢
      have : deg t.1 - deg p.1 = 0 := by
        have : (deg t.1 - deg p.1) * (deg q.2 - deg p.2) = 0 := by linarith [hq]
        exact (mul_eq_zero.mp this).resolve_right hy
      linarith
    · field_simp; ring
  · have hx' : deg q.1 - deg p.1 ≠ 0 := fun e => hx (dinj _ _ (by linarith))
    refine ⟨(deg t.1 - deg p.1) / (deg q.1 - deg p.1), ?_, ?_⟩
    · field_simp; ring
    · have : (deg t.2 - deg p.2) = (deg t.1 - deg p.1) * (deg q.2 - deg p.2) / (deg q.1 - deg p.1) := by
        rw [eq_div_iff hx']; linarith
      have e : (1 - (deg t.1 - deg p.1) / (deg q.1 - deg p.1)) * deg p.2 + (deg t.1 - deg p.1) / (deg q.1 - deg p.1) * deg q.2 =
          deg p.2 + (deg t.1 - deg p.1) * (deg q.2 - deg p.2) / (deg q.1 - deg p.1) := by field_simp; ring
      rw [e, ← this]; ring

/-- **C106**: on the side two triangles share, both give the same value, so that the values do not jump from one to the next. -/
theorem C106_continuous (m : Mesh) (hv : Valid m) (i j : Nat) (hi : i < m.n) (k : Fin 3) (hj : (m.tri i).adj (k + 2) = some j)
    (f : Nat → ℚ) (pt : Pt) (h : cp (m.pts ((m.tri i).v k)) (m.pts ((m.tri i).v (k + 1))) pt = 0) : m.interp i f pt = m.interp j f pt := by
  obtain ⟨hjn, -, k', e1, e2, -⟩ := hv.adj i hi k j hj
  have hne : m.pts ((m.tri i).v k) ≠ m.pts ((m.tri i).v (k + 1)) := hv.ne hi k
  obtain ⟨s, hx, hy⟩ := on_line hne h
  rw [interp_on_side (hv.proper hi) f pt k s hx hy]
  rw [interp_on_side (hv.proper hjn) f pt k' (1 - s) (by rw [e1, e2, hx]; ring) (by rw [e1, e2, hy]; ring)]
  rw [e1, e2]
  ring

/-- The shore at one end of the bay: the hypotheses of `C106_continuous` and `C106_between` are met. -/
example (f : Nat → ℚ) : bay.interp 1 f (1, 3) = bay.interp 0 f (1, 3) :=
  C106_continuous bay bay_valid 1 0 (by decide +kernel) 0 (by decide +kernel) f (1, 3) (by decide +kernel)

example : 2 ≤ star.interp 0 (fun k => k) (5, 5) ∧ star.interp 0 (fun k => k) (5, 5) ≤ 5 :=
  C106_between star 0 star_valid (by decide +kernel) _ (5, 5) (by decide +kernel) 2 5 (by decide +kernel)

/-! ## C107: what is found at a point of the sea -/

/-- The claim for data on the triangles: the value is that of the triangle found. -/
def C107_claim_cell : Prop := ∀ (m : Mesh) (t : Tree) (junk : Nat) (a b : Nat → ℚ) (α : ℚ) (pt : Pt) (i : Nat), Valid m →
  Built m m.sides t → m.locate t junk pt = some i → m.cellValue t junk a b α pt = α * a i + (1 - α) * b i

/-- **C107**, data on triangles: in the first triangle of the grid there never is a current. -/
theorem C107_counterexample_first : ¬ C107_claim_cell := by
  intro h
  have := h star starTree 0 (fun _ => 1) (fun _ => 1) 1 (5, 5) 0 star_valid star_built (by decide +kernel)
  have e : star.cellValue starTree 0 (fun _ => 1) (fun _ => 1) 1 (5, 5) = 0 := by decide +kernel
  rw [e] at this
  norm_num at this

/-- **C107** for data on triangles, in every triangle but the first. -/
theorem C107_cell_partial (m : Mesh) (t : Tree) (junk : Nat) (a b : Nat → ℚ) (α : ℚ) (pt : Pt) (i : Nat) (hi : i ≠ 0)
    (h : m.locate t junk pt = some i) : m.cellValue t junk a b α pt = α * a i + (1 - α) * b i := by
  unfold Mesh.cellValue
  rw [h]
  exact if_pos (Nat.pos_of_ne_zero hi)

/-- The claim for data at the vertices: the value is within the range of the data, or nothing where there is no grid. -/
def C107_claim_node : Prop := ∀ (m : Mesh) (t : Tree) (junk : Nat) (a b : Nat → ℚ) (α : ℚ) (pt : Pt) (lo hi : ℚ), Valid m →
  Built m m.sides t → 0 ≤ α → α ≤ 1 → lo ≤ 0 → 0 ≤ hi → (∀ k, lo ≤ a k ∧ a k ≤ hi) → (∀ k, lo ≤ b k ∧ b k ≤ hi) →
  lo ≤ m.nodeValue t junk a b α pt ∧ m.nodeValue t junk a b α pt ≤ hi

/-- **C107**, data at the vertices: at a vertex that is taken to be in the wrong triangle the data are extrapolated. -/
theorem C107_counterexample_vertex : ¬ C107_claim_node := by
  intro h
  have := h star starTree 0 (fun k => if k = 3 ∨ k = 4 then 1 else 0) (fun _ => 0) 1 (0, 6) 0 1 star_valid star_built (by norm_num) le_rfl
    le_rfl (by norm_num) (by intro k; split <;> norm_num) (by norm_num)
  have e : star.nodeValue starTree 0 (fun k => if k = 3 ∨ k = 4 then 1 else 0) (fun _ => 0) 1 (0, 6) = 2 := by decide +kernel
  rw [e] at this
  norm_num at this

theorem mix_between {α x y lo hi : ℚ} (h0 : 0 ≤ α) (h1 : α ≤ 1) (hx : lo ≤ x ∧ x ≤ hi) (hy : lo ≤ y ∧ y ≤ hi) :
    lo ≤ α * x + (1 - α) * y ∧ α * x + (1 - α) * y ≤ hi := by
  have e1 := mul_le_mul_of_nonneg_left hx.1 h0
  have e2 := mul_le_mul_of_nonneg_left hx.2 h0
  have e3 := mul_le_mul_of_nonneg_left hy.1 (sub_nonneg.mpr h1)
  have e4 := mul_le_mul_of_nonneg_left hy.2 (sub_nonneg.mpr h1)
  constructor <;> linarith

/-- **C107** for data at the vertices, at points that are not vertices: the value is nothing, where no triangle is found, or between the
values at the vertices of the triangle the point is in.  Missing: the vertices themselves, where the triangle found may be another
(C104). -/
theorem C107_node_partial (m : Mesh) (t : Tree) (junk : Nat) (a b : Nat → ℚ) (α : ℚ) (pt : Pt) (hv : Valid m) (hb : Built m m.sides t)
    (hp : ∀ v, m.pts v ≠ pt) (h0 : 0 ≤ α) (h1 : α ≤ 1) :
    (m.locate t junk pt = none ∧ m.nodeValue t junk a b α pt = 0) ∨
      ∃ i < m.n, ClosedIn m i pt ∧ m.nodeValue t junk a b α pt = m.interp i (fun k => α * a k + (1 - α) * b k) pt ∧
        ∀ lo hi : ℚ, (∀ k : Fin 3, lo ≤ a ((m.tri i).v k) ∧ a ((m.tri i).v k) ≤ hi) →
          (∀ k : Fin 3, lo ≤ b ((m.tri i).v k) ∧ b ((m.tri i).v k) ≤ hi) →
          lo ≤ m.nodeValue t junk a b α pt ∧ m.nodeValue t junk a b α pt ≤ hi := by
  cases hq : m.locate t junk pt with
  | none => left; refine ⟨rfl, ?_⟩; unfold Mesh.nodeValue; rw [hq]
  | some i =>
    right
    obtain ⟨hi, hc⟩ := C104_true_partial m t junk pt i hv hb hp hq
    have e : m.nodeValue t junk a b α pt = m.interp i (fun k => α * a k + (1 - α) * b k) pt := by unfold Mesh.nodeValue; rw [hq]
    refine ⟨i, hi, hc, e, ?_⟩
    intro lo hi' ha hb'
    rw [e]
    exact C106_between m i hv hi _ pt hc lo hi' fun k => mix_between h0 h1 (ha k) (hb' k)

/-- **C107** outside the grid: no current and no depth. -/
theorem C107_outside (m : Mesh) (t : Tree) (junk : Nat) (a b : Nat → ℚ) (α : ℚ) (pt : Pt) (hv : Valid m) (hb : Built m m.sides t)
    (hp : ∀ v, m.pts v ≠ pt) (h : ∀ i < m.n, ¬ ClosedIn m i pt) :
    m.nodeValue t junk a b α pt = 0 ∧ m.cellValue t junk a b α pt = 0 ∧ m.depth t junk (some a) pt = 0 := by
  have := C104_outside m t junk pt hv hb hp h
  unfold Mesh.nodeValue Mesh.cellValue Mesh.depth
  rw [this]
  exact ⟨rfl, rfl, rfl⟩

/-- **C107** for depths: where a triangle is found for a point that is no vertex, the depth is between the depths at its vertices. -/
theorem C107_depth_partial (m : Mesh) (t : Tree) (junk : Nat) (d : Nat → ℚ) (pt : Pt) (i : Nat) (hv : Valid m) (hb : Built m m.sides t)
    (hp : ∀ v, m.pts v ≠ pt) (h : m.locate t junk pt = some i) (lo hi : ℚ)
    (hd : ∀ k : Fin 3, lo ≤ d ((m.tri i).v k) ∧ d ((m.tri i).v k) ≤ hi) : lo ≤ m.depth t junk (some d) pt ∧ m.depth t junk (some d) pt ≤ hi := by
  obtain ⟨hi', hc⟩ := C104_true_partial m t junk pt i hv hb hp h
  unfold Mesh.depth
  rw [h]
  exact C106_between m i hv hi' d pt hc lo hi hd

example : 3 ≤ star.depth starTree 0 (some fun k => k) (4, 2) ∧ star.depth starTree 0 (some fun k => k) (4, 2) ≤ 5 :=
  C107_depth_partial star starTree 0 _ (4, 2) 0 star_valid star_built (by
    intro v
    rcases v with _ | _ | _ | _ | _ | _ | v <;> simp [star, ofLists]) (by decide +kernel) 3 5 (by decide +kernel)

/-! ## C108: cells with four corners -/

/-- The claim: at a point of the rectangle that holds the corners, the weights add up to one and none is negative. -/
def C108_claim : Prop := ∀ (c1 c2 c3 c4 : ℚ × ℚ) (x y : ℚ),
  (c1.1 ≤ x ∨ c2.1 ≤ x ∨ c3.1 ≤ x ∨ c4.1 ≤ x) → (x ≤ c1.1 ∨ x ≤ c2.1 ∨ x ≤ c3.1 ∨ x ≤ c4.1) →
  (c1.2 ≤ y ∨ c2.2 ≤ y ∨ c3.2 ≤ y ∨ c4.2 ≤ y) → (y ≤ c1.2 ∨ y ≤ c2.2 ∨ y ≤ c3.2 ∨ y ≤ c4.2) →
  c1.1 < c2.1 → c1.2 < c3.2 →
  0 ≤ (bilinear c1 c2 c3 c4 x y).1 ∧ 0 ≤ (bilinear c1 c2 c3 c4 x y).2.1 ∧ 0 ≤ (bilinear c1 c2 c3 c4 x y).2.2.1 ∧
    0 ≤ (bilinear c1 c2 c3 c4 x y).2.2.2

/-- **C108** fails for a cell that leans to the east, in the western hemisphere: there the longitude of the second corner is less than any
latitude and takes the place of the first. -/
theorem C108_counterexample : ¬ C108_claim := by
  intro h
  have := h (-90, 30) (-89, 30) (-179 / 2, 31) (-177 / 2, 31) (-899 / 10) (301 / 10) (by norm_num) (by norm_num) (by norm_num) (by norm_num)
    (by norm_num) (by norm_num)
  have h2 := this.2.1
  norm_num [bilinear, latRange, lonRange, lower, upper] at h2

/-- **C108**: the weights add up to one, whatever the corners are. -/
theorem C108_sum (c1 c2 c3 c4 : ℚ × ℚ) (x y : ℚ) (lat lon : ℚ × ℚ) (h1 : lat = latRange c1.2 c2.2 c3.2 c4.2)
    (h2 : lon = lonRange lat.1 c1.1 c2.1 c3.1 c4.1) (hlat : lat.1 ≠ lat.2) (hlon : lon.1 ≠ lon.2) :
    let w := bilinear c1 c2 c3 c4 x y
    w.1 + w.2.1 + w.2.2.1 + w.2.2.2 = 1 := by
  intro w
  have e1 : lat.2 - lat.1 ≠ 0 := sub_ne_zero.mpr hlat.symm
  have e2 : lon.2 - lon.1 ≠ 0 := sub_ne_zero.mpr hlon.symm
  have hw : w = ((lon.2 - x) * (lat.2 - y) / ((lon.2 - lon.1) * (lat.2 - lat.1)), (x - lon.1) * (lat.2 - y) / ((lon.2 - lon.1) * (lat.2 - lat.1)),
      (lon.2 - x) * (y - lat.1) / ((lon.2 - lon.1) * (lat.2 - lat.1)), (x - lon.1) * (y - lat.1) / ((lon.2 - lon.1) * (lat.2 - lat.1))) := by
    rw [h2, h1]; rfl
  rw [hw]
  simp only
  field_simp
  ring

theorem lower_eq {a b : ℚ} : lower a a b = min a b := by
  unfold lower; rw [min_comm, min_def_lt]

theorem upper_eq {a b : ℚ} : upper a b = max a b := by
  unfold upper; rw [max_def_lt]

theorem or4 {a b c d : Prop} (h : a ∨ b ∨ c ∨ d) : ((a ∨ b) ∨ c) ∨ d := by
  rw [or_assoc, or_assoc]; exact h

/-- **C108**, where the top left corner is no further east than the bottom left one (or the second corner's longitude is no less than the
latitudes): no weight is negative at a point of the rectangle that holds the corners. -/
theorem C108_range_partial (c1 c2 c3 c4 : ℚ × ℚ) (x y : ℚ)
    (hx1 : c1.1 ≤ x ∨ c2.1 ≤ x ∨ c3.1 ≤ x ∨ c4.1 ≤ x) (hx2 : x ≤ c1.1 ∨ x ≤ c2.1 ∨ x ≤ c3.1 ∨ x ≤ c4.1)
    (hy1 : c1.2 ≤ y ∨ c2.2 ≤ y ∨ c3.2 ≤ y ∨ c4.2 ≤ y) (hy2 : y ≤ c1.2 ∨ y ≤ c2.2 ∨ y ≤ c3.2 ∨ y ≤ c4.2)
    (h12 : c1.1 < c2.1) (h : c3.1 ≤ c1.1 ∨ (c1.2 ≤ c2.1 ∨ c2.2 ≤ c2.1 ∨ c3.2 ≤ c2.1 ∨ c4.2 ≤ c2.1)) :
    0 ≤ (bilinear c1 c2 c3 c4 x y).1 ∧ 0 ≤ (bilinear c1 c2 c3 c4 x y).2.1 ∧ 0 ≤ (bilinear c1 c2 c3 c4 x y).2.2.1 ∧
      0 ≤ (bilinear c1 c2 c3 c4 x y).2.2.2 := by
  have hlat : latRange c1.2 c2.2 c3.2 c4.2 = (min (min (min c1.2 c2.2) c3.2) c4.2, max (max (max c1.2 c2.2) c3.2) c4.2) := by
    unfold latRange
    simp only [lower_eq, upper_eq]
  have hlo : (lonRange (latRange c1.2 c2.2 c3.2 c4.2).1 c1.1 c2.1 c3.1 c4.1).1 ≤ x := by
    rw [hlat]
    unfold lonRange
    simp only [lower_eq]
    unfold lower
    split
    · rename_i hlt
      have h3 : c3.1 ≤ c1.1 := by
        refine h.resolve_right fun h => ?_
        simp only [lt_min_iff] at hlt
        obtain ⟨⟨⟨a, b⟩, c⟩, d⟩ := hlt
        rcases h with h | h | h | h <;> linarith
      simp only [min_le_iff]
      rcases hx1 with h | h | h | h
      · exact Or.inl (Or.inr (h3.trans h))
      · exact Or.inl (Or.inl h)
      · exact Or.inl (Or.inr h)
      · exact Or.inr h
    · simp only [min_le_iff]
      rcases hx1 with h | h | h | h
      · exact Or.inl (Or.inl h)
      · exact Or.inl (Or.inl (h12.le.trans h))
      · exact Or.inl (Or.inr h)
      · exact Or.inr h
  have hhi : x ≤ (lonRange (latRange c1.2 c2.2 c3.2 c4.2).1 c1.1 c2.1 c3.1 c4.1).2 := by
    unfold lonRange
    simp only [upper_eq, le_max_iff]
    exact or4 hx2
  have hlo' : (latRange c1.2 c2.2 c3.2 c4.2).1 ≤ y := by
    rw [hlat]; simp only [min_le_iff]; exact or4 hy1
  have hhi' : y ≤ (latRange c1.2 c2.2 c3.2 c4.2).2 := by
    rw [hlat]; simp only [le_max_iff]; exact or4 hy2
  unfold bilinear
  dsimp only
  generalize lonRange (latRange c1.2 c2.2 c3.2 c4.2).1 c1.1 c2.1 c3.1 c4.1 = lon at *
  generalize latRange c1.2 c2.2 c3.2 c4.2 = lat at *
  have a1 : 0 ≤ lon.2 - x := sub_nonneg.mpr hhi
  have a2 : 0 ≤ x - lon.1 := sub_nonneg.mpr hlo
  have a3 : 0 ≤ lat.2 - y := sub_nonneg.mpr hhi'
  have a4 : 0 ≤ y - lat.1 := sub_nonneg.mpr hlo'
  have a5 : 0 ≤ lon.2 - lon.1 := by linarith
  have a6 : 0 ≤ lat.2 - lat.1 := by linarith
  refine ⟨?_, ?_, ?_, ?_⟩ <;> positivity

/-- A cell that leans to the west. -/
example : 0 ≤ (bilinear (-90, 30) (-89, 30) (-181 / 2, 31) (-179 / 2, 31) (-899 / 10) (301 / 10)).1 :=
  (C108_range_partial (-90, 30) (-89, 30) (-181 / 2, 31) (-179 / 2, 31) (-899 / 10) (301 / 10) (by norm_num) (by norm_num) (by norm_num)
    (by norm_num) (by norm_num) (by norm_num)).1

/-- **C108** on rectangles: fields that are linear in each coordinate are reproduced, so that at a corner the value is the one given there
and a constant field is constant. -/
theorem C108_rectangle (x0 x1 y0 y1 : ℚ) (hx : x0 < x1) (hy : y0 < y1) (a b c d : ℚ) (x y : ℚ) :
    let f := fun p : ℚ × ℚ => a + b * p.1 + c * p.2 + d * p.1 * p.2
    let w := bilinear (x0, y0) (x1, y0) (x0, y1) (x1, y1) x y
    w.1 * f (x0, y0) + w.2.1 * f (x1, y0) + w.2.2.1 * f (x0, y1) + w.2.2.2 * f (x1, y1) = f (x, y) := by
  intro f w
  have hlat : latRange y0 y0 y1 y1 = (y0, y1) := by
    unfold latRange
    simp only [lower_eq, upper_eq, min_self, max_self, min_eq_left hy.le, max_eq_right hy.le]
  have hlon : lonRange y0 x0 x1 x0 x1 = (x0, x1) := by
    unfold lonRange
    simp only [lower_eq, upper_eq, max_eq_right hx.le, max_eq_left hx.le, max_self]
    unfold lower
    split
    · rw [min_eq_right hx.le, min_eq_left hx.le]
    · rw [min_self, min_eq_left hx.le]
  have e1 : y1 - y0 ≠ 0 := sub_ne_zero.mpr hy.ne'
  have e2 : x1 - x0 ≠ 0 := sub_ne_zero.mpr hx.ne'
  have hw : w = ((x1 - x) * (y1 - y) / ((x1 - x0) * (y1 - y0)), (x - x0) * (y1 - y) / ((x1 - x0) * (y1 - y0)),
      (x1 - x) * (y - y0) / ((x1 - x0) * (y1 - y0)), (x - x0) * (y - y0) / ((x1 - x0) * (y1 - y0))) := by
    show bilinear _ _ _ _ _ _ = _
    unfold bilinear
    dsimp only
    rw [hlat]
    dsimp only
    rw [hlon]
  rw [hw]
  simp only [f]
  field_simp
  ring

/-- **C108**: both triangles of a cell give the corners of the cell, and give them their places. -/
theorem C108_corners (m : Mesh) (q bl br tl tr : Nat) (x y z x' y' z' : Option Nat) (he : m.tri (2 * q) = tri3 tr tl bl x y z)
    (ho : m.tri (2 * q + 1) = tri3 bl br tr x' y' z') :
    m.corners (2 * q) = (bl, br, tl, tr) ∧ m.corners (2 * q + 1) = (bl, br, tl, tr) := by
  unfold Mesh.corners
  rw [if_neg (by omega), if_pos (by omega), Nat.add_sub_cancel, he, ho]
  exact ⟨rfl, rfl⟩

/-- **C108** in a grid: in a rectangular cell, from whichever of its triangles, values given at the corners by a function that is linear in
each coordinate, in degrees, are those of the function at the point. -/
theorem C108_cell (m : Mesh) (q i bl br tl tr : Nat) (x y z x' y' z' : Option Nat) (he : m.tri (2 * q) = tri3 tr tl bl x y z)
    (ho : m.tri (2 * q + 1) = tri3 bl br tr x' y' z') (hi : i = 2 * q ∨ i = 2 * q + 1) (x0 x1 y0 y1 : ℤ) (hx : x0 < x1) (hy : y0 < y1)
    (h1 : m.pts bl = (x0, y0)) (h2 : m.pts br = (x1, y0)) (h3 : m.pts tl = (x0, y1)) (h4 : m.pts tr = (x1, y1)) (a b c d : ℚ) (pt : Pt) :
    let f := fun p : Pt => a + b * ((p.1 : ℚ) / 1000000) + c * ((p.2 : ℚ) / 1000000) + d * ((p.1 : ℚ) / 1000000) * ((p.2 : ℚ) / 1000000)
    let w := m.cellWeights i pt
    w.1 * f (m.pts bl) + w.2.1 * f (m.pts br) + w.2.2.1 * f (m.pts tl) + w.2.2.2 * f (m.pts tr) = f pt := by
  intro f w
  have hc : m.corners i = (bl, br, tl, tr) := by
    obtain ⟨c1, c2⟩ := C108_corners m q bl br tl tr x y z x' y' z' he ho
    rcases hi with rfl | rfl
    · exact c1
    · exact c2
  have hX : deg x0 < deg x1 := by
    have : (x0 : ℚ) < x1 := by exact_mod_cast hx
    unfold deg; linarith
  have hY : deg y0 < deg y1 := by
    have : (y0 : ℚ) < y1 := by exact_mod_cast hy
    unfold deg; linarith
  have hw : w = bilinear (deg x0, deg y0) (deg x1, deg y0) (deg x0, deg y1) (deg x1, deg y1) (deg pt.1) (deg pt.2) := by
    show m.cellWeights i pt = _
    unfold Mesh.cellWeights
    rw [hc]
    simp only [h1, h2, h3, h4]
  rw [hw, h1, h2, h3, h4]
  exact C108_rectangle (deg x0) (deg x1) (deg y0) (deg y1) hX hY a b c d (deg pt.1) (deg pt.2)

end Verif.Dag
