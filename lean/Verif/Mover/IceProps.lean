import Verif.Mover.IceModel
import Mathlib.Tactic.Ring
import Mathlib.Tactic.Linarith
import Mathlib.Tactic.NormNum
import Mathlib.Tactic.Module

/-!
# C103: ice

The rule: below a concentration of 20 % an element moves as in open water, from 80 % up with the ice (and neither wind nor diffusion
moves it), in between in proportion.
-/

namespace Verif.Mover

/-- The part of the ice, between 0 and 1: the distance from 0.2 over 0.6, held within 0 and 1. -/
noncomputable def cover (c : ℝ) : ℝ := max 0 (min 1 ((c - 2 / 10) / (6 / 10)))

theorem cover_bounds (c : ℝ) : 0 ≤ cover c ∧ cover c ≤ 1 := ⟨le_max_left _ _, max_le (by norm_num) (min_le_left _ _)⟩

theorem cover_water {c : ℝ} (h : c ≤ 2 / 10) : cover c = 0 := by
  apply max_eq_left
  apply (min_le_right _ _).trans
  exact div_nonpos_of_nonpos_of_nonneg (by linarith) (by norm_num)

theorem cover_ice {c : ℝ} (h : 8 / 10 ≤ c) : cover c = 1 := by
  unfold cover
  rw [min_eq_left, max_eq_right (by norm_num)]
  rw [le_div_iff₀ (by norm_num)]; linarith

theorem cover_between {c : ℝ} (h1 : 2 / 10 ≤ c) (h2 : c ≤ 8 / 10) : cover c = (c - 2 / 10) / (6 / 10) := by
  unfold cover
  rw [min_eq_right, max_eq_right]
  · exact div_nonneg (by linarith) (by norm_num)
  · rw [div_le_one (by norm_num)]; linarith

/-- More ice never gives less of it. -/
theorem C103_monotone {c c' : ℝ} (h : c ≤ c') : cover c ≤ cover c' := by
  unfold cover
  apply max_le_max le_rfl
  apply min_le_min le_rfl
  exact div_le_div_of_nonneg_right (by linarith) (by norm_num)

/-- The rule has no jumps: a change of the concentration changes the part by at most 5/3 of it. -/
theorem C103_no_jump (c c' : ℝ) : |cover c - cover c'| ≤ |c - c'| / (6 / 10) := by
  unfold cover
  refine (abs_max_sub_max_le_max _ _ _ _).trans ?_
  rw [sub_self, abs_zero]
  apply max_le (div_nonneg (abs_nonneg _) (by norm_num))
  refine (abs_min_sub_min_le_max _ _ _ _).trans ?_
  rw [sub_self, abs_zero]
  apply max_le (div_nonneg (abs_nonneg _) (by norm_num))
  rw [← sub_div, abs_div, abs_of_pos (by norm_num : (0 : ℝ) < 6 / 10)]
  apply le_of_eq
  congr 2
  ring

theorem iceFactor_eq (c : ℝ) : iceFactor c = cover c := by
  unfold iceFactor
  split
  · rename_i h; exact (cover_ice h).symm
  · rename_i h1
    split
    · rename_i h2; exact (cover_water h2.le).symm
    · rename_i h2
      rw [cover_between (not_lt.mp h2) (not_le.mp h1).le]
      ring

theorem iceDamp_eq (c : ℝ) : iceDamp c = 1 - cover c := by
  unfold iceDamp
  split
  · rename_i h; rw [cover_ice h]; norm_num
  · rename_i h1
    split
    · rename_i h2; rw [cover_water h2.le]; norm_num
    · rename_i h2
      rw [cover_between (not_lt.mp h2) (not_le.mp h1).le]
      ring

/-- **C103**, current: every element gets its own mixture of water and ice, whatever the other elements. -/
theorem C103_current (pts : List IcePt) : iceCurrent pts = pts.map fun p => (1 - cover p.c) • p.w + cover p.c • p.ice := by
  unfold iceCurrent
  split
  · apply List.map_congr_left
    intro p _
    rw [iceFactor_eq]
    module
  · rename_i h
    push Not at h
    apply List.map_congr_left
    intro p hp
    rw [cover_water (h p hp).le]
    module

/-- **C103**, diffusion: what `RandomMover` would give each element, times the part that is not ice, whatever the other elements. -/
theorem C103_random (active : Bool) (coef factor dt : ℝ) (r1 r2 : Nat → ℝ) (ice : LE → ℝ) (els : List LE) :
    iceRandomMove active coef factor dt r1 r2 ice els =
      els.mapIdx fun i e => (1 - cover (ice e)) • randomRow active coef factor dt (r1 i) (r2 i) e := by
  unfold iceRandomMove rowwise
  split
  · apply List.ext_getElem?
    intro i
    rw [List.getElem?_mapIdx, List.getElem?_mapIdx]
    cases els[i]? with
    | none => rfl
    | some e =>
      simp only [Option.map_some, Option.some.injEq, iceDamp_eq]
      split
      · rfl
      · rename_i hw
        simp [randomRow, hw]
  · rename_i h
    push Not at h
    apply List.ext_getElem?
    intro i
    rw [List.getElem?_mapIdx, List.getElem?_mapIdx]
    cases he : els[i]? with
    | none => rfl
    | some e =>
      simp only [Option.map_some, Option.some.injEq]
      rw [cover_water (h e (List.mem_of_getElem? he)).le]
      module

/-- The claim for winds: what the wind would give each element, times the part that is not ice. -/
def C103_claim_wind : Prop := ∀ pts : List IcePt, iceWind 0 pts = pts.map fun p => (1 - cover p.c) • p.w

theorem iceWind_eq (m : ℝ) (pts : List IcePt) : iceWind m pts = pts.map fun p => (1 - cover p.c) • clampMin m p.w := by
  unfold iceWind
  split
  · apply List.map_congr_left
    intro p _
    rw [iceFactor_eq]
    split
    · rename_i h; rw [cover_ice h]; simp
    · rfl
  · rename_i h
    push Not at h
    apply List.map_congr_left
    intro p hp
    rw [cover_water (h p hp).le]
    simp

/-- **C103**, wind: for winds towards the north and east. -/
theorem C103_wind_partial (pts : List IcePt) (h : ∀ p ∈ pts, 0 ≤ p.w.1 ∧ 0 ≤ p.w.2.1 ∧ 0 ≤ p.w.2.2) :
    iceWind 0 pts = pts.map fun p => (1 - cover p.c) • p.w := by
  rw [iceWind_eq]
  apply List.map_congr_left
  intro p hp
  obtain ⟨h1, h2, h3⟩ := h p hp
  simp only [clampMin, if_neg (not_lt.mpr h1), if_neg (not_lt.mpr h2), if_neg (not_lt.mpr h3)]

/-- Full ice: no wind and no diffusion, whatever the direction; the current is the ice's. -/
theorem C103_full_ice (m : ℝ) (pts : List IcePt) (h : ∀ p ∈ pts, 8 / 10 ≤ p.c) :
    iceWind m pts = pts.map (fun _ => 0) ∧ iceCurrent pts = pts.map IcePt.ice := by
  rw [iceWind_eq, C103_current]
  constructor <;> apply List.map_congr_left <;> intro p hp <;> rw [cover_ice (h p hp)] <;> simp

/-- **C103** fails for winds towards the south or the west, with no ice at all: the floor of 0, meant for the speed, is put under
each component. -/
theorem C103_counterexample_wind : ¬ C103_claim_wind := by
  intro h
  have := h [⟨0, (-5, 3, 0), 0⟩]
  rw [iceWind_eq] at this
  simp only [List.map_cons, List.map_nil, cover_water (show (0 : ℝ) ≤ 2 / 10 by norm_num), List.cons.injEq, and_true, sub_zero, one_smul] at this
  have h1 := congrArg (fun v : V => v.1) this
  norm_num [clampMin] at h1

/-- How it goes wrong: what is computed never points west or south. -/
theorem C103_wind_never_west (pts : List IcePt) : ∀ v ∈ iceWind 0 pts, 0 ≤ v.1 ∧ 0 ≤ v.2.1 := by
  rw [iceWind_eq]
  intro v hv
  obtain ⟨p, -, rfl⟩ := List.mem_map.mp hv
  have hk : 0 ≤ 1 - cover p.c := by linarith [(cover_bounds p.c).2]
  refine ⟨mul_nonneg hk ?_, mul_nonneg hk ?_⟩ <;> dsimp only [clampMin] <;> split <;> linarith

/-- Halfway, at a concentration of 50 %, beside an element in open water. -/
example : iceCurrent [⟨5 / 10, (1, 0, 0), (0, 1, 0)⟩, ⟨0, (1, 0, 0), (0, 1, 0)⟩] = [(1 / 2, 1 / 2, 0), (1, 0, 0)] := by
  rw [C103_current]
  simp only [List.map_cons, List.map_nil, cover_between (show (2 : ℝ) / 10 ≤ 5 / 10 by norm_num) (by norm_num),
    cover_water (show (0 : ℝ) ≤ 2 / 10 by norm_num)]
  norm_num

end Verif.Mover
