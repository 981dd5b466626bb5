import Verif.Place.PolyModel
import Mathlib.MeasureTheory.Measure.Lebesgue.EqHaar
import Mathlib.MeasureTheory.Measure.Haar.Unique
import Mathlib.Tactic.Linarith
import Mathlib.Tactic.LinearCombination
import Mathlib.Tactic.FieldSimp
import Mathlib.Tactic.Ring
import Mathlib.Tactic.NormNum

/-!
# C114: where a release in polygons puts its elements
-/

namespace Verif.Place

open MeasureTheory

/-- The points of a triangle: its corners and what is between. -/
def Tri.set (t : Tri) : Set Pt := {p | ∃ r s : ℝ, 0 ≤ r ∧ 0 ≤ s ∧ r + s ≤ 1 ∧ p = t.at r s}

/-- The numbers that can be drawn. -/
def square : Set Pt := {p | (0 ≤ p.1 ∧ p.1 < 1) ∧ 0 ≤ p.2 ∧ p.2 < 1}

/-- **C114**: every element is in a triangle of one of the polygons, at the surface, whatever is drawn. -/
theorem C114_inside (t : Tri) (r s : ℝ) (h : (r, s) ∈ square) : randomPt t r s ∈ t.set := by
  obtain ⟨⟨h1, h2⟩, h3, h4⟩ := h
  simp only at h1 h2 h3 h4
  unfold randomPt
  split
  · exact ⟨1 - r, 1 - s, by linarith, by linarith, by linarith, rfl⟩
  · rename_i h
    exact ⟨r, s, h1, h3, by linarith, rfl⟩

/-! ### Uniform within a triangle -/

instance : (volume : Measure (ℝ × ℝ)).IsAddHaarMeasure := by rw [Measure.volume_eq_prod]; infer_instance

/-- The sides of the triangle as a linear map. -/
noncomputable def Tri.lin (t : Tri) : ℝ × ℝ →ₗ[ℝ] ℝ × ℝ :=
  Matrix.toLin (Module.Basis.finTwoProd ℝ) (Module.Basis.finTwoProd ℝ) !![t.b.1 - t.a.1, t.c.1 - t.a.1; t.b.2 - t.a.2, t.c.2 - t.a.2]

theorem lin_apply (t : Tri) (p : ℝ × ℝ) : t.lin p = ((t.b.1 - t.a.1) * p.1 + (t.c.1 - t.a.1) * p.2, (t.b.2 - t.a.2) * p.1 + (t.c.2 - t.a.2) * p.2) := by
  unfold Tri.lin
  exact Matrix.toLin_finTwoProd_apply _ _ _ _ _

theorem lin_det (t : Tri) : LinearMap.det t.lin = t.cross := by
  unfold Tri.lin
  rw [LinearMap.det_toLin, Matrix.det_fin_two_of]
  unfold Tri.cross
  ring

theorem at_eq (t : Tri) (p : ℝ × ℝ) : t.at p.1 p.2 = t.a + t.lin p := by
  rw [lin_apply]
  unfold Tri.at
  ext
  · simp only [Prod.fst_add]; ring
  · simp only [Prod.snd_add]; ring

theorem at_preimage (t : Tri) (h : t.cross ≠ 0) (S : Set Pt) :
    volume {p : ℝ × ℝ | t.at p.1 p.2 ∈ S} = ENNReal.ofReal |t.cross⁻¹| * volume S := by
  have : {p : ℝ × ℝ | t.at p.1 p.2 ∈ S} = t.lin ⁻¹' ((fun x => t.a + x) ⁻¹' S) := by
    ext p
    simp only [Set.mem_ofPred_eq, Set.mem_preimage, at_eq]
  rw [this, Measure.addHaar_preimage_linearMap volume (by rw [lin_det]; exact h), lin_det, measure_preimage_add]

theorem at_inj (t : Tri) (h : t.cross ≠ 0) {r s r' s' : ℝ} (e : t.at r s = t.at r' s') : r = r' ∧ s = s' := by
  unfold Tri.at at e
  have e1 := congrArg Prod.fst e
  have e2 := congrArg Prod.snd e
  simp only at e1 e2
  unfold Tri.cross at h
  constructor
  · apply sub_eq_zero.mp
    apply (mul_eq_zero.mp (?_ : ((t.b.1 - t.a.1) * (t.c.2 - t.a.2) - (t.c.1 - t.a.1) * (t.b.2 - t.a.2)) * (r - r') = 0)).resolve_left h
    linear_combination (t.c.2 - t.a.2) * e1 - (t.c.1 - t.a.1) * e2
  · apply sub_eq_zero.mp
    apply (mul_eq_zero.mp (?_ : ((t.b.1 - t.a.1) * (t.c.2 - t.a.2) - (t.c.1 - t.a.1) * (t.b.2 - t.a.2)) * (s - s') = 0)).resolve_left h
    linear_combination (t.b.1 - t.a.1) * e2 - (t.b.2 - t.a.2) * e1

theorem null_line (f : ℝ × ℝ →ₗ[ℝ] ℝ) (v : ℝ × ℝ) (hv : f v ≠ 0) (w : ℝ × ℝ) : volume {p : ℝ × ℝ | f p = f w} = 0 := by
  have h1 : volume ((LinearMap.ker f : Submodule ℝ (ℝ × ℝ)) : Set (ℝ × ℝ)) = 0 := by
    apply Measure.addHaar_submodule
    intro h
    apply hv
    have : v ∈ LinearMap.ker f := by rw [h]; trivial
    exact this
  have h2 : {p : ℝ × ℝ | f p = f w} = (fun x => -w + x) ⁻¹' ((LinearMap.ker f : Submodule ℝ (ℝ × ℝ)) : Set (ℝ × ℝ)) := by
    ext p
    simp only [Set.mem_ofPred_eq, Set.mem_preimage, SetLike.mem_coe, LinearMap.mem_ker, map_add, map_neg]
    constructor
    · intro h; rw [h]; ring
    · intro h; linarith
  rw [h2, measure_preimage_add, h1]

theorem null_fst : volume {p : ℝ × ℝ | p.1 = 0} = 0 := by
  have := null_line (LinearMap.fst ℝ ℝ ℝ) (1, 0) (by simp) (0, 0)
  simpa using this

theorem null_snd : volume {p : ℝ × ℝ | p.2 = 0} = 0 := by
  have := null_line (LinearMap.snd ℝ ℝ ℝ) (0, 1) (by simp) (0, 0)
  simpa using this

theorem null_sum : volume {p : ℝ × ℝ | p.1 + p.2 = 1} = 0 := by
  have := null_line (LinearMap.fst ℝ ℝ ℝ + LinearMap.snd ℝ ℝ ℝ) (1, 0) (by simp) (1, 0)
  simpa using this

/-- **C114**: within its triangle an element is as likely in one place as in another: the chance of being in any set is the area of the part
of the triangle in the set over the area of the triangle. -/
theorem C114_uniform (t : Tri) (h : t.cross ≠ 0) (S : Set Pt) :
    volume {p ∈ square | randomPt t p.1 p.2 ∈ S} = ENNReal.ofReal (1 / t.area) * volume (S ∩ t.set) := by
  set D : Set (ℝ × ℝ) := {p | 0 ≤ p.1 ∧ 0 ≤ p.2 ∧ p.1 + p.2 ≤ 1 ∧ t.at p.1 p.2 ∈ S} with hD
  have hDv : volume D = ENNReal.ofReal |t.cross⁻¹| * volume (S ∩ t.set) := by
    rw [← at_preimage t h]
    congr 1
    ext p
    simp only [hD, Set.mem_ofPred_eq, Set.mem_inter_iff]
    constructor
    · rintro ⟨h1, h2, h3, h4⟩
      exact ⟨h4, p.1, p.2, h1, h2, h3, rfl⟩
    · rintro ⟨h4, r, s, h1, h2, h3, e⟩
      obtain ⟨e1, e2⟩ := at_inj t h e
      rw [e1, e2] at h4 ⊢
      exact ⟨h1, h2, h3, h4⟩
  have hM : MeasurableSet {p : ℝ × ℝ | p.1 + p.2 < 1} := measurableSet_lt (measurable_fst.add measurable_snd) measurable_const
  rw [← measure_inter_add_sdiff {p ∈ square | randomPt t p.1 p.2 ∈ S} hM]
  have low : volume ({p ∈ square | randomPt t p.1 p.2 ∈ S} ∩ {p : ℝ × ℝ | p.1 + p.2 < 1}) = volume D := by
    apply le_antisymm
    · apply measure_mono
      rintro p ⟨⟨⟨⟨h1, -⟩, h2, -⟩, h3⟩, h4⟩
      simp only [Set.mem_ofPred_eq] at h4
      unfold randomPt at h3
      rw [if_neg (not_le.mpr h4)] at h3
      exact ⟨h1, h2, h4.le, h3⟩
    · have : D ⊆ ({p ∈ square | randomPt t p.1 p.2 ∈ S} ∩ {p : ℝ × ℝ | p.1 + p.2 < 1}) ∪ {p : ℝ × ℝ | p.1 + p.2 = 1} := by
        rintro p ⟨h1, h2, h3, h4⟩
        rcases h3.lt_or_eq with h5 | h5
        · left
          refine ⟨⟨⟨⟨h1, by linarith⟩, h2, by linarith⟩, ?_⟩, h5⟩
          unfold randomPt
          rw [if_neg (not_le.mpr h5)]
          exact h4
        · right; exact h5
      calc volume D ≤ _ := measure_mono this
        _ ≤ _ := measure_union_le _ _
        _ = _ := by rw [null_sum, add_zero]
  have up : volume ({p ∈ square | randomPt t p.1 p.2 ∈ S} \ {p : ℝ × ℝ | p.1 + p.2 < 1}) = volume D := by
    have flip : volume D = volume {p : ℝ × ℝ | ((1 : ℝ), (1 : ℝ)) + -p ∈ D} := by
      have : {p : ℝ × ℝ | ((1 : ℝ), (1 : ℝ)) + -p ∈ D} = Neg.neg ⁻¹' ((fun x => ((1 : ℝ), (1 : ℝ)) + x) ⁻¹' D) := rfl
      rw [this, Measure.measure_preimage_neg, measure_preimage_add]
    have mem : ∀ p : ℝ × ℝ, ((1 : ℝ), (1 : ℝ)) + -p ∈ D ↔ p.1 ≤ 1 ∧ p.2 ≤ 1 ∧ 1 ≤ p.1 + p.2 ∧ t.at (1 - p.1) (1 - p.2) ∈ S := by
      intro p
      simp only [hD, Set.mem_ofPred_eq, Prod.fst_add, Prod.snd_add, Prod.fst_neg, Prod.snd_neg]
      rw [← sub_eq_add_neg, ← sub_eq_add_neg]
      constructor
      · rintro ⟨h1, h2, h3, h4⟩; exact ⟨by linarith, by linarith, by linarith, h4⟩
      · rintro ⟨h1, h2, h3, h4⟩; exact ⟨by linarith, by linarith, by linarith, h4⟩
    rw [flip]
    apply le_antisymm
    · apply measure_mono
      rintro p ⟨⟨⟨⟨-, h1⟩, -, h2⟩, h3⟩, h4⟩
      simp only [Set.mem_ofPred_eq, not_lt] at h4
      unfold randomPt at h3
      rw [if_pos h4] at h3
      exact (mem p).2 ⟨h1.le, h2.le, h4, h3⟩
    · set N1 : Set (ℝ × ℝ) := {p | ((1 : ℝ), (1 : ℝ)) + -p ∈ {q : ℝ × ℝ | q.1 = 0}} with hN1
      set N2 : Set (ℝ × ℝ) := {p | ((1 : ℝ), (1 : ℝ)) + -p ∈ {q : ℝ × ℝ | q.2 = 0}} with hN2
      have n1 : volume N1 = 0 := by
        have : N1 = Neg.neg ⁻¹' ((fun x => ((1 : ℝ), (1 : ℝ)) + x) ⁻¹' {q : ℝ × ℝ | q.1 = 0}) := rfl
        rw [this, Measure.measure_preimage_neg, measure_preimage_add, null_fst]
      have n2 : volume N2 = 0 := by
        have : N2 = Neg.neg ⁻¹' ((fun x => ((1 : ℝ), (1 : ℝ)) + x) ⁻¹' {q : ℝ × ℝ | q.2 = 0}) := rfl
        rw [this, Measure.measure_preimage_neg, measure_preimage_add, null_snd]
      have sub : {p : ℝ × ℝ | ((1 : ℝ), (1 : ℝ)) + -p ∈ D} ⊆ ({p ∈ square | randomPt t p.1 p.2 ∈ S} \ {p : ℝ × ℝ | p.1 + p.2 < 1}) ∪ (N1 ∪ N2) := by
        intro p hp
        obtain ⟨h1, h2, h3, h4⟩ := (mem p).1 hp
        by_cases e1 : p.1 = 1
        · right; left; simp [hN1, e1]
        · by_cases e2 : p.2 = 1
          · right; right; simp [hN2, e2]
          · left
            have l1 := lt_of_le_of_ne h1 e1
            have l2 := lt_of_le_of_ne h2 e2
            refine ⟨⟨⟨⟨by linarith, l1⟩, by linarith, l2⟩, ?_⟩, ?_⟩
            · unfold randomPt
              rw [if_pos h3]
              exact h4
            · simp only [Set.mem_ofPred_eq, not_lt]; exact h3
      calc _ ≤ _ := measure_mono sub
        _ ≤ _ := measure_union_le _ _
        _ ≤ volume ({p ∈ square | randomPt t p.1 p.2 ∈ S} \ {p : ℝ × ℝ | p.1 + p.2 < 1}) + (volume N1 + volume N2) := by
          gcongr; exact measure_union_le _ _
        _ = _ := by rw [n1, n2, add_zero, add_zero]
  rw [low, up, hDv, ← add_mul]
  congr 1
  rw [← ENNReal.ofReal_add (abs_nonneg _) (abs_nonneg _)]
  congr 1
  unfold Tri.area
  rw [abs_inv]
  have := abs_ne_zero.mpr h
  field_simp
  norm_num

theorem square_volume : volume square = 1 := by
  have : square = Set.Ico (0 : ℝ) 1 ×ˢ Set.Ico (0 : ℝ) 1 := by
    ext p; simp [square, Set.mem_prod]
  rw [this, Measure.volume_eq_prod, Measure.prod_prod]
  simp

/-- The area used for the weights is the area of the triangle. -/
theorem C114_area (t : Tri) (h : t.cross ≠ 0) : volume t.set = ENNReal.ofReal t.area := by
  have hu := C114_uniform t h Set.univ
  simp only [Set.mem_univ, and_true, Set.ofPred_mem_eq, Set.univ_inter, square_volume] at hu
  have hp : 0 < t.area := by unfold Tri.area; have := abs_pos.mpr h; linarith
  have : ENNReal.ofReal t.area * (ENNReal.ofReal (1 / t.area) * volume t.set) = ENNReal.ofReal t.area := by rw [← hu, mul_one]
  rw [← mul_assoc, ← ENNReal.ofReal_mul hp.le, mul_one_div_cancel hp.ne', ENNReal.ofReal_one, one_mul] at this
  exact this

/-! ### Weights -/

/-- The chance that an element is in a set: a triangle is chosen with its weight, then two numbers from the square. -/
noncomputable def chance (tw : List (Tri × ℝ)) (S : Set Pt) : ENNReal :=
  (tw.map fun q => ENNReal.ofReal q.2 * volume {p ∈ square | randomPt q.1 p.1 p.2 ∈ S}).sum

/-- The area in the plane of a list of triangles. -/
noncomputable def total (ts : List Tri) : ℝ := (ts.map Tri.area).sum

def Good (ts : List Tri) : Prop := ts ≠ [] ∧ ∀ t ∈ ts, t.cross ≠ 0

theorem area_pos {t : Tri} (h : t.cross ≠ 0) : 0 < t.area := by
  unfold Tri.area; have := abs_pos.mpr h; linarith

theorem total_nonneg (ts : List Tri) : 0 ≤ total ts := by
  apply List.sum_nonneg
  intro x hx
  obtain ⟨t, -, rfl⟩ := List.mem_map.mp hx
  unfold Tri.area
  positivity

theorem total_pos {ts : List Tri} (h : Good ts) : 0 < total ts := by
  obtain ⟨hn, ha⟩ := h
  cases ts with
  | nil => exact absurd rfl hn
  | cons t l =>
    have := area_pos (ha t (List.mem_cons_self ..))
    have := total_nonneg l
    unfold total at *
    rw [List.map_cons, List.sum_cons]
    linarith

theorem zip_map_self {α β : Type} (l : List α) (f : α → β) : l.zip (l.map f) = l.map fun x => (x, f x) := by
  induction l with
  | nil => rfl
  | cons a l ih => simp [ih]

theorem sum_map_div {α : Type} (l : List α) (f : α → ℝ) (c : ℝ) : (l.map fun x => f x / c).sum = (l.map f).sum / c := by
  induction l with
  | nil => simp
  | cons a l ih => simp [ih, add_div]

theorem sum_map_mul {α : Type} (l : List α) (f : α → ℝ) (c : ℝ) : (l.map fun x => c * f x).sum = c * (l.map f).sum := by
  induction l with
  | nil => simp
  | cons a l ih => simp [ih, mul_add]

/-- The weights of triangles by area sum to one. -/
theorem areaWeights_sum {ts : List Tri} (h : Good ts) : (areaWeights ts).sum = 1 := by
  unfold areaWeights
  rw [sum_map_div]
  exact div_self (total_pos h).ne'

/-- **C114**: without weights and thicknesses nothing is refused, and the chance of an element to be in a set is the area of the polygons in the set
over the area of all of them (in the plane of longitude and latitude). -/
theorem C114_by_area (ps : List Poly) (h : Good (ps.flatMap Poly.tris)) :
    ∃ tw, prepare ps none none = some tw ∧ (tw.map Prod.snd).sum = 1 ∧ tw.map Prod.fst = ps.flatMap Poly.tris ∧ (∀ q ∈ tw, 0 < q.2) ∧
      ∀ S, chance tw S = ENNReal.ofReal (1 / total (ps.flatMap Poly.tris)) *
        ((ps.flatMap Poly.tris).map fun t => volume (S ∩ t.set)).sum := by
  set ts := ps.flatMap Poly.tris with hts
  have ht := total_pos h
  have hsum : ((trisWeights ps none).map Prod.snd).sum = 1 := by
    unfold trisWeights
    rw [← hts, List.map_snd_zip (by simp [areaWeights])]
    exact areaWeights_sum h
  have hz : trisWeights ps none = ts.map fun t => (t, t.area / total ts) := by
    unfold trisWeights areaWeights
    rw [← hts]
    exact zip_map_self ts _
  refine ⟨trisWeights ps none, ?_, hsum, ?_, ?_, ?_⟩
  · unfold prepare polysAsTris
    exact if_neg (by simp [hsum])
  · rw [hz, List.map_map]
    exact List.map_id _
  · rw [hz]
    intro q hq
    obtain ⟨t, ht', rfl⟩ := List.mem_map.mp hq
    exact div_pos (area_pos (h.2 t ht')) ht
  · intro S
    unfold chance
    rw [hz, List.map_map]
    have : ∀ l : List Tri, (∀ t ∈ l, t.cross ≠ 0) →
        (l.map ((fun q : Tri × ℝ => ENNReal.ofReal q.2 * volume {p ∈ square | randomPt q.1 p.1 p.2 ∈ S}) ∘ fun t => (t, t.area / total ts))).sum =
          ENNReal.ofReal (1 / total ts) * (l.map fun t => volume (S ∩ t.set)).sum := by
      intro l hl
      induction l with
      | nil => simp
      | cons t l ih =>
        rw [List.map_cons, List.sum_cons, List.map_cons, List.sum_cons, ih fun x hx => hl x (List.mem_cons_of_mem _ hx), mul_add]
        congr 1
        have h1 := hl t (List.mem_cons_self ..)
        have h2 := area_pos h1
        simp only [Function.comp]
        rw [C114_uniform t h1 S, ← mul_assoc, ← ENNReal.ofReal_mul (by positivity)]
        congr 2
        field_simp
    exact this ts h.2

theorem polyWeights {p : Poly} (h : Good p.tris) (w : ℝ) (hw : 0 ≤ w) :
    let tw := p.tris.zip ((areaWeights p.tris).map fun x => w * x)
    (tw.map Prod.snd).sum = w ∧ tw.map Prod.fst = p.tris ∧
      ∀ S, chance tw S = ENNReal.ofReal (w / total p.tris) * (p.tris.map fun t => volume (S ∩ t.set)).sum := by
  intro tw
  have ht := total_pos h
  have hz : tw = p.tris.map fun t => (t, w * (t.area / total p.tris)) := by
    show p.tris.zip _ = _
    unfold areaWeights
    rw [List.map_map]
    exact zip_map_self _ _
  refine ⟨?_, ?_, ?_⟩
  · rw [hz, List.map_map]
    show (p.tris.map fun t => w * (t.area / total p.tris)).sum = w
    rw [sum_map_mul, sum_map_div]
    have : (p.tris.map Tri.area).sum = total p.tris := rfl
    rw [this, div_self ht.ne', mul_one]
  · rw [hz, List.map_map]
    exact List.map_id _
  · intro S
    rw [hz]
    unfold chance
    rw [List.map_map]
    have : ∀ l : List Tri, (∀ t ∈ l, t.cross ≠ 0) →
        (l.map ((fun q : Tri × ℝ => ENNReal.ofReal q.2 * volume {p ∈ square | randomPt q.1 p.1 p.2 ∈ S}) ∘ fun t => (t, w * (t.area / total p.tris)))).sum =
          ENNReal.ofReal (w / total p.tris) * (l.map fun t => volume (S ∩ t.set)).sum := by
      intro l hl
      induction l with
      | nil => simp
      | cons t l ih =>
        rw [List.map_cons, List.sum_cons, List.map_cons, List.sum_cons, ih fun x hx => hl x (List.mem_cons_of_mem _ hx), mul_add]
        congr 1
        have h1 := hl t (List.mem_cons_self ..)
        have h2 := area_pos h1
        simp only [Function.comp]
        rw [C114_uniform t h1 S, ← mul_assoc, ← ENNReal.ofReal_mul (by positivity)]
        congr 2
        field_simp
    exact this p.tris h.2

theorem chance_append (a b : List (Tri × ℝ)) (S : Set Pt) : chance (a ++ b) S = chance a S + chance b S := by
  simp [chance]

theorem weighted (l : List (Poly × ℝ)) (hg : ∀ q ∈ l, Good q.1.tris ∧ 0 ≤ q.2) :
    let tw := l.flatMap fun q => q.1.tris.zip ((areaWeights q.1.tris).map fun w => q.2 * w)
    (tw.map Prod.snd).sum = (l.map Prod.snd).sum ∧ tw.map Prod.fst = l.flatMap (fun q => q.1.tris) ∧
      ∀ S, chance tw S = (l.map fun q => ENNReal.ofReal (q.2 / total q.1.tris) * (q.1.tris.map fun t => volume (S ∩ t.set)).sum).sum := by
  induction l with
  | nil => exact ⟨rfl, rfl, fun S => rfl⟩
  | cons q l ih =>
    obtain ⟨i1, i2, i3⟩ := ih fun x hx => hg x (List.mem_cons_of_mem _ hx)
    obtain ⟨g, w0⟩ := hg q (List.mem_cons_self ..)
    obtain ⟨p1, p2, p3⟩ := polyWeights g q.2 w0
    simp only [List.flatMap_cons, List.map_append, List.sum_append, List.map_cons, List.sum_cons]
    refine ⟨?_, ?_, ?_⟩
    · rw [p1, i1]
    · rw [p2, i2]
    · intro S
      rw [chance_append, p3, i3]

/-- **C114**: with weights, one to a polygon, not negative and summing to one, a polygon is chosen with its weight, and within it places are as
likely as their area. -/
theorem C114_by_weight (ps : List Poly) (ws : List ℝ) (hl : ws.length = ps.length) (h : ∀ p ∈ ps, Good p.tris) (hw : ∀ w ∈ ws, 0 ≤ w) (h1 : ws.sum = 1) :
    ∃ tw, prepare ps none (some ws) = some tw ∧ (tw.map Prod.snd).sum = 1 ∧ tw.map Prod.fst = ps.flatMap Poly.tris ∧
      ∀ S, chance tw S = ((ps.zip ws).map fun q => ENNReal.ofReal (q.2 / total q.1.tris) *
        (q.1.tris.map fun t => volume (S ∩ t.set)).sum).sum := by
  have hg : ∀ q ∈ ps.zip ws, Good q.1.tris ∧ 0 ≤ q.2 := fun q hq => ⟨h _ (List.of_mem_zip hq).1, hw _ (List.of_mem_zip hq).2⟩
  obtain ⟨i1, i2, i3⟩ := weighted (ps.zip ws) hg
  rw [List.map_snd_zip (by omega), h1] at i1
  have hf : (ps.zip ws).flatMap (fun q => q.1.tris) = ps.flatMap Poly.tris := by
    have : (ps.zip ws).flatMap (fun q => q.1.tris) = ((ps.zip ws).map Prod.fst).flatMap Poly.tris := by rw [List.flatMap_map]
    rw [this, List.map_fst_zip (by omega)]
  refine ⟨trisWeights ps (some ws), ?_, i1, i2.trans hf, i3⟩
  unfold prepare polysAsTris
  refine if_neg ?_
  rintro (⟨ws', e, hne⟩ | hne)
  · cases e; exact hne hl
  · exact hne i1

/-- **C114**: weights that are too few, too many, or do not sum to one are refused. -/
theorem C114_refused (ps : List Poly) (ws : List ℝ) (h : ∀ p ∈ ps, Good p.tris) (hw : ∀ w ∈ ws, 0 ≤ w)
    (hb : ws.length ≠ ps.length ∨ ws.sum ≠ 1) : prepare ps none (some ws) = none := by
  unfold prepare polysAsTris
  by_cases hl : ws.length = ps.length
  · rw [if_pos]
    right
    have hg : ∀ q ∈ ps.zip ws, Good q.1.tris ∧ 0 ≤ q.2 := fun q hq => ⟨h _ (List.of_mem_zip hq).1, hw _ (List.of_mem_zip hq).2⟩
    obtain ⟨i1, -, -⟩ := weighted (ps.zip ws) hg
    rw [List.map_snd_zip (by omega)] at i1
    intro h1
    have h2 : ((trisWeights ps (some ws)).map Prod.snd).sum = ws.sum := i1
    rcases hb with hb | hb
    · exact hb hl
    · exact hb (h2.symm.trans h1)
  · rw [if_pos]
    exact Or.inl ⟨ws, rfl, hl⟩

/-- **C114**: with thicknesses the polygons are chosen in proportion to their volumes, area on the Earth times thickness. -/
theorem C114_by_thickness (ps : List Poly) (thick : List ℝ) (hl : thick.length = ps.length) (h : ∀ p ∈ ps, Good p.tris)
    (hv : ∀ q ∈ ps.zip thick, 0 ≤ q.1.geo * q.2) (hp : 0 < ((ps.zip thick).map fun q => q.1.geo * q.2).sum) (weights : Option (List ℝ)) :
    ∃ tw, prepare ps (some thick) weights = some tw ∧ (tw.map Prod.snd).sum = 1 ∧ tw.map Prod.fst = ps.flatMap Poly.tris ∧
      ∀ S, chance tw S = ((ps.zip (distribution ps thick)).map fun q => ENNReal.ofReal (q.2 / total q.1.tris) *
        (q.1.tris.map fun t => volume (S ∩ t.set)).sum).sum := by
  have := C114_by_weight ps (distribution ps thick) (by simp [distribution, hl]) h ?_ ?_
  · exact this
  · intro w hw
    obtain ⟨q, hq, rfl⟩ := List.mem_map.mp hw
    exact div_nonneg (hv q hq) hp.le
  · unfold distribution
    rw [sum_map_div]
    exact div_self hp.ne'

/-- **C114**: and of two polygons, the weights are as their volumes. -/
theorem C114_volumes (ps : List Poly) (thick : List ℝ) (i : Nat) (p : Poly) (t : ℝ) (hi : ps[i]? = some p)
    (ht : thick[i]? = some t) :
    (distribution ps thick)[i]? = some (p.geo * t / ((ps.zip thick).map fun q => q.1.geo * q.2).sum) := by
  unfold distribution
  rw [List.getElem?_map, (List.getElem?_zip_eq_some (z := (p, t))).mpr ⟨hi, ht⟩]
  rfl

/-- The claim: a thickness that is the same everywhere is the same as none. -/
def C114_claim_even : Prop := ∀ (ps : List Poly) (d : ℝ), 0 < d → (∀ p ∈ ps, Good p.tris ∧ 0 < p.geo) → ps ≠ [] → ∀ S tw tw',
  prepare ps none none = some tw → prepare ps (some (ps.map fun _ => d)) none = some tw' → chance tw S = chance tw' S

/-- A triangle on the equator and one of the same size in degrees at 60 degrees north, half as wide. -/
noncomputable def equator : Poly := ⟨[⟨(0, 0), (1, 0), (0, 1)⟩], 2⟩

noncomputable def north : Poly := ⟨[⟨(0, 60), (1, 60), (0, 61)⟩], 1⟩

theorem good_equator : Good equator.tris := ⟨by simp [equator], by intro t ht; simp [equator] at ht; subst ht; norm_num [Tri.cross]⟩

theorem good_north : Good north.tris := ⟨by simp [north], by intro t ht; simp [north] at ht; subst ht; norm_num [Tri.cross]⟩

/-- **C114** fails there: without thicknesses the area is in degrees, with them it is that on the Earth. -/
theorem C114_counterexample_even : ¬ C114_claim_even := by
  intro h
  have g : ∀ p ∈ [equator, north], Good p.tris := by
    intro p hp
    simp only [List.mem_cons, List.not_mem_nil, or_false] at hp
    rcases hp with rfl | rfl
    · exact good_equator
    · exact good_north
  have a1 : (⟨(0, 0), (1, 0), (0, 1)⟩ : Tri).area = 1 / 2 := by norm_num [Tri.area, Tri.cross]
  have a2 : (⟨(0, 60), (1, 60), (0, 61)⟩ : Tri).area = 1 / 2 := by norm_num [Tri.area, Tri.cross]
  obtain ⟨tw, e1, -, -, -, c1⟩ := C114_by_area [equator, north] ⟨by simp [equator, north], by
    intro t ht
    simp only [List.flatMap_cons, List.flatMap_nil, List.append_nil, List.mem_append] at ht
    rcases ht with ht | ht
    · exact good_equator.2 t ht
    · exact good_north.2 t ht⟩
  obtain ⟨tw', e2, -, -, c2⟩ := C114_by_thickness [equator, north] [1, 1] rfl g (by
      intro q hq; simp only [List.zip_cons_cons, List.zip_nil_right, List.mem_cons, List.not_mem_nil, or_false] at hq
      rcases hq with rfl | rfl <;> norm_num [equator, north]) (by norm_num [equator, north]) none
  have := h [equator, north] 1 (by norm_num) (by
    intro p hp
    refine ⟨g p hp, ?_⟩
    simp only [List.mem_cons, List.not_mem_nil, or_false] at hp
    rcases hp with rfl | rfl <;> norm_num [equator, north]) (by simp) {x | x.2 ≤ 30} tw tw' e1 e2
  rw [c1, c2] at this
  have v1 : volume ({x : Pt | x.2 ≤ 30} ∩ (⟨(0, 0), (1, 0), (0, 1)⟩ : Tri).set) = ENNReal.ofReal (1 / 2) := by
    rw [← a1, ← C114_area _ (by norm_num [Tri.cross])]
    congr 1
    apply Set.inter_eq_right.mpr
    rintro x ⟨r, s, h1, h2, h3, rfl⟩
    simp only [Tri.at, Set.mem_ofPred_eq]
    linarith
  have v2 : volume ({x : Pt | x.2 ≤ 30} ∩ (⟨(0, 60), (1, 60), (0, 61)⟩ : Tri).set) = 0 := by
    have : ({x : Pt | x.2 ≤ 30} ∩ (⟨(0, 60), (1, 60), (0, 61)⟩ : Tri).set) = ∅ := by
      apply Set.eq_empty_of_forall_notMem
      rintro x ⟨h0, r, s, h1, h2, h3, rfl⟩
      simp only [Tri.at, Set.mem_ofPred_eq] at h0
      linarith
    rw [this, measure_empty]
  simp only [equator, north, List.flatMap_cons, List.flatMap_nil, List.append_nil, List.cons_append, List.nil_append, List.map_cons, List.map_nil, List.sum_cons,
    List.sum_nil, total, distribution, List.zip_cons_cons, List.zip_nil_right, v1, v2, a1, a2, add_zero, mul_zero] at this
  rw [← ENNReal.ofReal_mul (by norm_num), ← ENNReal.ofReal_mul (by norm_num)] at this
  have := (ENNReal.ofReal_eq_ofReal_iff (by norm_num) (by norm_num)).mp this
  norm_num at this

/-- Half of the elements are within the half of a triangle. -/
example (t : Tri) (h : t.cross ≠ 0) (S : Set Pt) (hS : volume (S ∩ t.set) = ENNReal.ofReal (t.area / 2)) :
    volume {p ∈ square | randomPt t p.1 p.2 ∈ S} = ENNReal.ofReal (1 / 2) := by
  have := area_pos h
  rw [C114_uniform t h, hS, ← ENNReal.ofReal_mul (by positivity)]
  congr 1
  field_simp

/-- **C114** for elements: each is in a triangle of a polygon of the release, at depth zero. -/
theorem C114_place (ps : List Poly) (thick weights : Option (List ℝ)) (tw : List (Tri × ℝ)) (hp : prepare ps thick weights = some tw)
    (i : Nat) (r s : ℝ) (h : (r, s) ∈ square) (x : Pt × ℝ) (hx : place tw i r s = some x) :
    x.2 = 0 ∧ ∃ p ∈ ps, ∃ t ∈ p.tris, x.1 ∈ t.set := by
  unfold place at hx
  obtain ⟨q, hq, rfl⟩ := Option.map_eq_some_iff.mp hx
  refine ⟨rfl, ?_⟩
  have hm := List.mem_of_getElem? hq
  have key : ∀ w, polysAsTris ps w = some tw → ∃ p ∈ ps, q.1 ∈ p.tris := by
    intro w hw
    unfold polysAsTris at hw
    split at hw
    · cases hw
    · have e := Option.some.inj hw
      rw [← e] at hm
      unfold trisWeights at hm
      split at hm
      · obtain ⟨u, hu, hm⟩ := List.mem_flatMap.mp hm
        exact ⟨u.1, (List.of_mem_zip hu).1, (List.of_mem_zip hm).1⟩
      · obtain ⟨p, h1, h2⟩ := List.mem_flatMap.mp (List.of_mem_zip hm).1
        exact ⟨p, h1, h2⟩
  unfold prepare at hp
  split at hp
  · obtain ⟨p, h1, h2⟩ := key _ hp
    exact ⟨p, h1, q.1, h2, C114_inside q.1 r s h⟩
  · obtain ⟨p, h1, h2⟩ := key _ hp
    exact ⟨p, h1, q.1, h2, C114_inside q.1 r s h⟩

end Verif.Place
