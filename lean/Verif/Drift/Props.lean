import Mathlib.Tactic.Linarith
import Mathlib.Data.List.Basic
import Verif.Drift.Model

/-!
# C186: drifting ships
-/
namespace Verif.Drift

/-- The displacement of an element, as documented: its windage times the scaled wind, none unless it is in water. -/
def expected (scale dt : ℚ) (e : El) : ℚ × ℚ :=
  if e.inWater then (scale * e.u * dt * e.windage, scale * e.v * dt * e.windage) else (0, 0)

/-- **C186**, as one would expect. -/
def C186_claim : Prop := ∀ (scale angle dt : ℚ) (es : List El), getMove true scale angle dt es = some (es.map (expected scale dt))

/-- The first element on land, one of two, makes the move fail. -/
theorem C186_counterexample : ¬ C186_claim := by
  intro h
  have := h 1 0 1 [⟨true, 1, 1, 1⟩, ⟨false, 1, 1, 1⟩]
  revert this; decide +kernel

/-- The scale of the wind has no effect. -/
theorem C186_counterexample_scale : getMove true 2 0 1 [⟨true, 1, 1, 1⟩] = some [(1, 1)] := by decide +kernel

theorem go_all (l : List ℚ) (x : List ℚ) (h : x.length = l.length) : maskSet.go (l.map fun _ => true) l x = x := by
  induction l generalizing x with
  | nil => cases x with
    | nil => rfl
    | cons y x => simp at h
  | cons a l ih => cases x with
    | nil => simp at h
    | cons y x =>
      simp only [List.map_cons, maskSet.go]
      rw [ih x (by simpa using h)]

theorem countP_all (l : List ℚ) : (l.map fun _ => true).countP id = l.length := by
  induction l with
  | nil => rfl
  | cons a l ih => rw [List.map_cons, List.countP_cons, ih]; simp

theorem maskSet_all (l x : List ℚ) (h : x.length = l.length) : maskSet (l.map fun _ => true) l x = some x := by
  unfold maskSet
  rw [if_pos (by rw [countP_all, h]), go_all l x h]

theorem maskGet_all (l : List ℚ) : maskGet (l.map fun _ => true) l = l := by
  unfold maskGet
  induction l with
  | nil => rfl
  | cons a l ih => simpa using ih

theorem maskMul_all (l w : List ℚ) (h : w.length = l.length) : maskMul (l.map fun _ => true) l w = some (List.zipWith (· * ·) l w) := by
  unfold maskMul
  simp only [maskGet_all]
  rw [if_pos h, maskSet_all _ _ (by simp [h])]

/-- **C186** if all elements are in water and the scale is one; when the mover is not active nothing moves. -/
theorem C186_partial (angle dt : ℚ) (es : List El) :
    ((∀ e ∈ es, e.inWater = true) → getMove true 1 angle dt es = some (es.map (expected 1 dt))) ∧
    (∀ scale, getMove false scale angle dt es = some (es.map fun _ => (0, 0))) := by
  constructor
  · intro h
    unfold getMove
    by_cases he : es = []
    · subst he; rfl
    · simp only
      rw [if_pos ⟨trivial, he⟩]
      have hm : ∀ f : El → ℚ, es.map El.inWater = (es.map f).map fun _ => true := by
        intro f
        rw [List.map_map]
        exact List.map_congr_left fun e hm => h e hm
      have hz : ∀ f : El → ℚ, maskSet (es.map El.inWater) (es.map fun _ => (0 : ℚ)) (es.map f) = some (es.map f) := by
        intro f
        rw [hm fun _ => (0 : ℚ), maskSet_all _ _ (by simp)]
      have hw : ∀ f : El → ℚ, maskMul (es.map El.inWater) (es.map f) (es.map El.windage) =
          some (es.map fun e => f e * e.windage) := by
        intro f
        rw [hm f, maskMul_all _ _ (by simp)]
        simp [List.zipWith_map]
      rw [hz, hz]
      simp only [Option.bind_eq_bind, Option.bind_some]
      rw [hw, hw]
      simp only [Option.bind_some, Option.pure_def]
      congr 1
      rw [List.zip_map']
      apply List.map_congr_left
      intro e hm
      simp [expected, h e hm]
  · intro scale
    unfold getMove
    simp only
    rw [if_neg (by simp), List.zip_map']
    rfl

/-- With two or more elements, any element that is not in water makes the move fail. -/
theorem C186_fails (scale angle dt : ℚ) (es : List El) (hn : 2 ≤ es.length) (h : ∃ e ∈ es, e.inWater = false) :
    getMove true scale angle dt es = none := by
  have hlt : (es.map El.inWater).countP id < es.length := by
    clear hn
    induction es with
    | nil => simp at h
    | cons e es ih =>
      obtain ⟨x, hx, hw⟩ := h
      rw [List.map_cons, List.countP_cons]
      have hle : (es.map El.inWater).countP id ≤ es.length := by
        have := List.countP_le_length (p := id) (l := es.map El.inWater)
        simpa using this
      rcases List.mem_cons.mp hx with rfl | hx
      · rw [hw, List.length_cons, if_neg (by simp)]; omega
      · have := ih ⟨x, hx, hw⟩
        simp only [List.length_cons]
        split <;> omega
  have hs : maskSet (es.map El.inWater) (es.map fun _ => (0 : ℚ)) (es.map fun e => e.v * dt) = none := by
    unfold maskSet
    rw [if_neg (by rw [List.length_map]; omega)]
    match es, hn with
    | a :: b :: l, _ => rfl
  unfold getMove
  simp only
  rw [if_pos ⟨trivial, by rintro rfl; simp at hn⟩, hs]
  rfl

example : getMove true 1 0 10 [⟨true, 1/100, 5, 2⟩, ⟨true, 2/100, 5, 2⟩] = some [(1/2, 1/5), (1, 2/5)] := by decide +kernel

end Verif.Drift
