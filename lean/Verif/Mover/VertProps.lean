import Verif.Mover.MoveModel
import Mathlib.Tactic.Ring
import Mathlib.Tactic.FieldSimp
import Mathlib.Tactic.Linarith
import Mathlib.Tactic.NormNum
import Mathlib.Tactic.Positivity

/-!
# C102: vertical mixing
-/

namespace Verif.Mover

/-- The generator delivers numbers between 0 and 1. -/
def Draws.Fair (r : Draws) : Prop :=
  (0 ≤ r.h1 ∧ r.h1 ≤ 1) ∧ (0 ≤ r.h2 ∧ r.h2 ≤ 1) ∧ (0 ≤ r.v1 ∧ r.v1 ≤ 1) ∧ (0 ≤ r.v2 ∧ r.v2 ≤ 1) ∧ (0 ≤ r.m ∧ r.m ≤ 1) ∧ (0 ≤ r.w ∧ r.w ≤ 1)

/-- The parameters that `RandomMover3D` accepts, with a mixed layer. -/
def Vert.Valid (p : Vert) : Prop := 0 ≤ p.vAbove ∧ 0 ≤ p.vBelow ∧ 0 ≤ p.hAbove ∧ 0 ≤ p.hBelow ∧ 0 < p.mld

/-- The claim for forward and backward runs alike: the mover returns a move for every element. -/
def C102_claim_backward : Prop := ∀ (p : Vert) (active : Bool) (dt : ℝ) (r : Nat → Draws) (els : List LE), p.Valid → (∀ i, (r i).Fair) →
  vertMove p active dt r els ≠ none

/-- The claim for a mixed layer that is closed below: with no mixing below it, no element leaves it. -/
def C102_claim_layer : Prop := ∀ (p : Vert) (dt : ℝ) (r : Draws) (e : LE), p.Valid → r.Fair → 0 ≤ dt → p.vBelow = 0 → e.status = 2 →
  0 ≤ e.pos.2.2 → e.pos.2.2 ≤ p.mld → e.pos.2.2 + (vertRow p true dt r e).2.2 ≤ p.mld

theorem uniform_pos {a b r : ℝ} (ha : 0 < a) (hb : 0 < b) (h0 : 0 ≤ r) (h1 : r ≤ 1) : 0 < uniform a b r := by
  unfold uniform
  have : a + (b - a) * r = a * (1 - r) + b * r := by ring
  rw [this]
  rcases eq_or_lt_of_le h0 with h | h
  · rw [← h]; simpa using ha
  · have := mul_pos hb h
    have := mul_nonneg ha.le (by linarith : (0 : ℝ) ≤ 1 - r)
    linarith

theorem uniform_le {a b c r : ℝ} (ha : a ≤ c) (hb : b ≤ c) (h0 : 0 ≤ r) (h1 : r ≤ 1) : uniform a b r ≤ c := by
  unfold uniform
  nlinarith

theorem checks_in {r : Draws} (hr : r.Fair) (z dz total : ℝ) (h : 0 < total → total < bottom → 0 < z + dz ∧ z + dz ≤ bottom) :
    0 < z + checks r z dz total ∧ z + checks r z dz total ≤ bottom := by
  have hw : 0 < uniform eps (bottom - eps) r.w := uniform_pos (by norm_num [eps]) (by norm_num [eps, bottom]) hr.2.2.2.2.2.1 hr.2.2.2.2.2.2
  have hw2 : uniform eps (bottom - eps) r.w ≤ bottom :=
    uniform_le (by norm_num [eps, bottom]) (by norm_num [eps]) hr.2.2.2.2.2.1 hr.2.2.2.2.2.2
  unfold checks
  dsimp only
  split
  · norm_num [eps, bottom]
  rename_i h0
  split
  · rename_i h1
    split
    · constructor <;> linarith
    · rename_i h2; rw [not_lt] at h2
      constructor
      · linarith
      · exact h2
  rename_i h1
  have hpos : 0 < total := lt_of_le_of_ne (not_lt.mp h1) (Ne.symm h0)
  split
  · norm_num [eps, bottom]
  rename_i h2
  split
  · rename_i h3
    split
    · constructor <;> linarith
    · rename_i h4; rw [not_le] at h4
      exact ⟨h4, by linarith⟩
  · rename_i h3
    exact h hpos (lt_of_le_of_ne (not_lt.mp h3) h2)

theorem mixed_in {p : Vert} (hp : 0 < p.mld) {r : Draws} (hr : r.Fair) (dt z : ℝ) (h0 : 0 < (mixedMove p dt r z).2) :
    0 < z + (mixedMove p dt r z).1 ∧ z + (mixedMove p dt r z).1 ≤ max eps (if bottom < p.mld then bottom else p.mld) := by
  have hm : 0 < (if bottom < p.mld then bottom else p.mld) := by
    split
    · norm_num [bottom]
    · exact hp
  have he : ∀ m, 0 < m → 0 < uniform eps m r.m := fun m hm => uniform_pos (by norm_num [eps]) hm hr.2.2.2.2.1.1 hr.2.2.2.2.1.2
  unfold mixedMove at h0 ⊢
  dsimp only at h0 ⊢
  generalize (if bottom < p.mld then bottom else p.mld) = m at *
  split at h0
  · rename_i h1
    rw [if_pos h1]
    dsimp only
    split
    · rename_i h2
      refine ⟨by linarith [he m hm], ?_⟩
      have := uniform_le (le_max_left eps m) (le_max_right eps m) hr.2.2.2.2.1.1 hr.2.2.2.2.1.2
      linarith
    · rename_i h2; rw [not_le] at h2
      exact ⟨h2, le_trans (by linarith) (le_max_right eps m)⟩
  · rename_i h1
    rw [if_neg h1]
    dsimp only at h0 ⊢
    exact ⟨h0, (not_lt.mp h1).trans (le_max_right eps m)⟩

theorem max_eps_le (m : ℝ) : max eps (if bottom < m then bottom else m) ≤ bottom := by
  apply max_le
  · norm_num [eps, bottom]
  · split
    · exact le_refl _
    · rename_i h; exact not_lt.mp h

/-- The depth after mixing, where there is mixing. -/
theorem vertDz_in {p : Vert} (hp : 0 < p.mld) {r : Draws} (hr : r.Fair) (dt z : ℝ) (hv : ¬ (z ≤ p.mld ∧ p.vAbove = 0)) :
    0 < z + vertDz p dt r z ∧ z + vertDz p dt r z ≤ bottom := by
  unfold vertDz
  rw [if_neg hv]
  dsimp only
  generalize (if z ≤ p.mld ∧ bottom < p.mld then bottom else p.mld) = m
  by_cases hm : m = bottom ∨ p.vBelow = 0
  · rw [if_pos hm]
    apply checks_in hr
    intro h0 h1
    split at h0
    · rename_i hz
      rw [if_pos hz]
      obtain ⟨g0, g1⟩ := mixed_in hp hr dt z h0
      exact ⟨g0, g1.trans (max_eps_le _)⟩
    · rename_i hz
      rw [if_neg hz] at h1 ⊢
      dsimp only at h0 h1 ⊢
      constructor <;> linarith
  · rw [if_neg hm]
    apply checks_in hr
    intro h0 h1
    exact ⟨h0, h1.le⟩

/-- **C102**, one element: an element between the surface and the bottom stays between them, whatever the generator delivers and
whatever the coefficients, the mixed layer and the step. -/
theorem C102_in_column (p : Vert) (active : Bool) (dt : ℝ) (r : Draws) (e : LE) (hp : p.Valid) (hr : r.Fair) (h0 : 0 ≤ e.pos.2.2)
    (h1 : e.pos.2.2 ≤ 5000) :
    0 ≤ e.pos.2.2 + (vertRow p active dt r e).2.2 ∧ e.pos.2.2 + (vertRow p active dt r e).2.2 ≤ 5000 := by
  have hs : 0 ≤ e.pos.2.2 + (0 : V).2.2 ∧ e.pos.2.2 + (0 : V).2.2 ≤ 5000 := by simpa using ⟨h0, h1⟩
  unfold vertRow
  split
  · split
    · split
      · by_cases hv : e.pos.2.2 ≤ p.mld ∧ p.vAbove = 0
        · simp only [vertDz, if_pos hv]; simpa using ⟨h0, h1⟩
        · obtain ⟨g0, g1⟩ := vertDz_in hp.2.2.2.2 hr dt e.pos.2.2 hv
          exact ⟨g0.le, g1⟩
      · exact hs
    · exact hs
  · exact hs

/-- **C102**, all elements of a step. -/
theorem C102_all (p : Vert) (active : Bool) (dt : ℝ) (r : Nat → Draws) (els : List LE) (ds : List V) (hp : p.Valid)
    (hr : ∀ i, (r i).Fair) (hz : ∀ e ∈ els, 0 ≤ e.pos.2.2 ∧ e.pos.2.2 ≤ 5000) (h : vertMove p active dt r els = some ds) :
    ds.length = els.length ∧ ∀ (i : Nat) e, els[i]? = some e → ∃ d, ds[i]? = some d ∧ 0 ≤ e.pos.2.2 + d.2.2 ∧ e.pos.2.2 + d.2.2 ≤ 5000 := by
  unfold vertMove unsignedStep at h
  split at h
  · exact absurd h (by simp)
  obtain rfl := Option.some.inj h
  refine ⟨by simp [rowwise], fun i e he => ?_⟩
  obtain ⟨g0, g1⟩ := hz e (List.mem_of_getElem? he)
  exact ⟨_, by rw [rowwise, List.getElem?_mapIdx, he, Option.map_some], C102_in_column p active dt (r i) e hp (hr i) g0 g1⟩

/-- Unless the surface is allowed, an element in the water is below the surface after every step (with mixing above). -/
theorem C102_below_surface (p : Vert) (dt : ℝ) (r : Draws) (e : LE) (hp : p.Valid) (hr : r.Fair) (hw : e.status = 2)
    (hs : p.surfaceAllowed = false) (hv : p.vAbove ≠ 0) : 0 < e.pos.2.2 + (vertRow p true dt r e).2.2 := by
  have hin : inWater e := hw
  simp only [vertRow, hin, if_true, hs, or_true]
  exact (vertDz_in hp.2.2.2.2 hr dt e.pos.2.2 (fun h => hv h.2)).1

/-- Where the surface is allowed, an element at the surface is not mixed at all. -/
theorem C102_surface_allowed (p : Vert) (active : Bool) (dt : ℝ) (r : Draws) (e : LE) (hs : p.surfaceAllowed = true)
    (h0 : e.pos.2.2 ≤ 0) : vertRow p active dt r e = (0, 0, 0) := by
  unfold vertRow
  rw [if_neg (show ¬ (0 < e.pos.2.2 ∨ p.surfaceAllowed = false) by rw [hs]; simpa using h0)]
  split_ifs <;> rfl

theorem uniform_sym {a r : ℝ} (ha : 0 ≤ a) (h0 : 0 ≤ r) (h1 : r ≤ 1) : -a ≤ uniform (-1) 1 r * a ∧ uniform (-1) 1 r * a ≤ a := by
  unfold uniform
  constructor <;> nlinarith

/-- **C102**, the layer, when the greatest vertical move in a step is not more than its depth (and the layer is not half the ocean). -/
theorem C102_layer_partial (p : Vert) (dt : ℝ) (r : Draws) (e : LE) (hp : p.Valid) (hr : r.Fair) (hb : p.vBelow = 0) (hw : e.status = 2)
    (h0 : 0 ≤ e.pos.2.2) (h1 : e.pos.2.2 ≤ p.mld) (hstep : √(6 * (p.vAbove / 10000) * dt) ≤ p.mld) (hm : p.mld < 2500) (he : eps ≤ p.mld) :
    e.pos.2.2 + (vertRow p true dt r e).2.2 ≤ p.mld := by
  have hin : inWater e := hw
  simp only [vertRow, hin, if_true]
  split
  swap
  · simpa using h1
  dsimp only
  unfold vertDz
  split
  · simpa using h1
  simp only [hb, or_true, if_true]
  generalize e.pos.2.2 = z at *
  have hbm : ¬ bottom < p.mld := by unfold bottom; linarith
  obtain ⟨u0, u1⟩ := uniform_sym (Real.sqrt_nonneg (6 * (p.vAbove / 10000) * dt)) hr.2.2.1.1 hr.2.2.1.2
  have htot : (mixedMove p dt r z).2 = z + uniform (-1) 1 r.v1 * √(6 * (p.vAbove / 10000) * dt) := by
    unfold mixedMove; dsimp only; rw [if_neg hbm]; split <;> rfl
  have hlo : -p.mld ≤ (mixedMove p dt r z).2 := by rw [htot]; linarith
  have hhi : (mixedMove p dt r z).2 < bottom := by rw [htot]; unfold bottom; linarith
  have hmx := fun h => (mixed_in hp.2.2.2.2 hr dt z h).2
  rw [if_neg hbm, max_eq_right he] at hmx
  generalize (mixedMove p dt r z).2 = total at *
  unfold checks
  dsimp only
  split
  · linarith
  rename_i t0
  split
  · rename_i t1
    rw [if_neg (by unfold bottom; linarith)]
    linarith
  rename_i t1
  rw [if_neg hhi.ne, if_neg (not_lt.mpr hhi.le)]
  exact hmx (lt_of_le_of_ne (not_lt.mp t1) (Ne.symm t0))

/-- The depth mirrored at the surface and at the bottom. -/
noncomputable def mirrored (d : ℝ) : ℝ := if d < 0 then -d else if d ≤ 5000 then d else 10000 - d

/-- **C102**, reflection: with mixing below the layer (which has its depth above the bottom), an element that started below the layer
ends at the mirror image of the depth it was carried to, up to a millionth of a metre, unless carried farther than the depth of the
ocean. -/
theorem C102_mirrored (p : Vert) (dt : ℝ) (r : Draws) (z : ℝ) (hm : p.mld < z) (hb : p.vBelow ≠ 0) (hl : p.mld ≠ 5000)
    (h0 : -5000 < z + uniform (-1) 1 r.v2 * √(6 * (p.vBelow / 10000) * dt))
    (h1 : z + uniform (-1) 1 r.v2 * √(6 * (p.vBelow / 10000) * dt) < 10000) :
    |z + vertDz p dt r z - mirrored (z + uniform (-1) 1 r.v2 * √(6 * (p.vBelow / 10000) * dt))| ≤ 1 / 1000000 := by
  have hz : ¬ z ≤ p.mld := not_le.mpr hm
  have hl' : ¬ (p.mld = bottom ∨ p.vBelow = 0) := by
    rintro (h | h)
    · exact hl h
    · exact hb h
  simp only [vertDz, hz, false_and, if_false, if_neg hl', zero_add]
  generalize uniform (-1) 1 r.v2 * √(6 * (p.vBelow / 10000) * dt) = d at *
  unfold checks mirrored
  dsimp only
  split
  · rename_i h; rw [h]; norm_num [eps]
  rename_i h2
  split
  · rename_i h
    rw [if_neg (by unfold bottom; linarith)]
    rw [show z + (-(z + d) - z) - -(z + d) = 0 by ring]; norm_num
  rename_i h3
  split
  · rename_i h; rw [h]; norm_num [eps, bottom]
  rename_i h4
  split
  · rename_i h5
    unfold bottom at h5
    rw [if_neg (by unfold bottom; linarith), if_neg (by linarith)]
    rw [show z + (bottom - (z + d - bottom) - z) - (10000 - (z + d)) = 0 by unfold bottom; ring]; norm_num
  · rename_i h5
    rw [not_lt] at h5
    unfold bottom at h5
    rw [if_pos h5]
    norm_num

/-- With no mixing below the layer, elements below it stay at their depth. -/
theorem C102_still_below (p : Vert) (dt : ℝ) (r : Draws) (z : ℝ) (hm : p.mld < z) (h0 : 0 < z) (h1 : z < 5000) (hb : p.vBelow = 0) :
    vertDz p dt r z = 0 := by
  have hz : ¬ z ≤ p.mld := not_le.mpr hm
  simp only [vertDz, hz, false_and, if_false, hb, or_true, if_true]
  unfold checks
  rw [if_neg h0.ne', if_neg (not_lt.mpr h0.le), if_neg (by unfold bottom; exact h1.ne), if_neg (by unfold bottom; exact not_lt.mpr h1.le)]

/-- Horizontally the elements are spread as far as the coefficient of their layer allows, and no farther. -/
theorem C102_horizontal (p : Vert) (dt : ℝ) (r : Draws) (e : LE) (hr : r.Fair) (hw : e.status = 2) (hs : p.surfaceAllowed = false) :
    |(vertRow p true dt r e).2.1 * metresPerDegree| ≤ √(6 * ((if e.pos.2.2 ≤ p.mld then p.hAbove else p.hBelow) / 10000) * dt) ∧
      (r.h2 = 1 → (vertRow p true dt r e).2.1 * metresPerDegree =
        √(6 * ((if e.pos.2.2 ≤ p.mld then p.hAbove else p.hBelow) / 10000) * dt)) := by
  have hin : inWater e := hw
  have hmpd : metresPerDegree ≠ 0 := by norm_num [metresPerDegree]
  have hif : (if p.mld < e.pos.2.2 then p.hBelow else p.hAbove) = if e.pos.2.2 ≤ p.mld then p.hAbove else p.hBelow := by
    by_cases h : p.mld < e.pos.2.2
    · rw [if_pos h, if_neg (not_le.mpr h)]
    · rw [if_neg h, if_pos (not_lt.mp h)]
  simp only [vertRow, hin, if_true, hs, or_true, vertReach, hif]
  have hq := Real.sqrt_nonneg (6 * ((if e.pos.2.2 ≤ p.mld then p.hAbove else p.hBelow) / 10000) * dt)
  generalize √(6 * ((if e.pos.2.2 ≤ p.mld then p.hAbove else p.hBelow) / 10000) * dt) = q at *
  constructor
  · obtain ⟨g0, g1⟩ := uniform_sym hq hr.2.1.1 hr.2.1.2
    rw [show uniform (-1) 1 r.h2 * (q / metresPerDegree) * metresPerDegree = uniform (-1) 1 r.h2 * q by field_simp]
    exact abs_le.mpr ⟨g0, g1⟩
  · intro h
    rw [h]
    unfold uniform
    field_simp
    ring

/-- **C102** fails for the layer when a step can carry an element up by more than its depth: reflected at the surface, it comes out
below the layer (1 m deep here; default coefficient; step of 1200 s, reach 1.9 m). -/
theorem C102_counterexample_layer : ¬ C102_claim_layer := by
  intro h
  have hq : √((6 : ℝ) * (5 / 10000) * 1200) ^ 2 = 36 / 10 := by
    rw [Real.sq_sqrt (by norm_num)]; norm_num
  have hq0 := Real.sqrt_nonneg ((6 : ℝ) * (5 / 10000) * 1200)
  have hq1 : 3 / 2 < √((6 : ℝ) * (5 / 10000) * 1200) := by
    by_contra hc
    rw [not_lt] at hc
    nlinarith
  have hq2 : √((6 : ℝ) * (5 / 10000) * 1200) < 2 := by
    by_contra hc
    rw [not_lt] at hc
    nlinarith
  have := h ⟨5, 0, 0, 0, 1, false⟩ 1200 ⟨0, 0, 0, 0, 0, 0⟩ ⟨(0, 0, 1 / 10), 2, 0, 0⟩
    ⟨by norm_num, by norm_num, by norm_num, by norm_num, by norm_num⟩
    ⟨by norm_num, by norm_num, by norm_num, by norm_num, by norm_num, by norm_num⟩ (by norm_num) rfl rfl (by norm_num) (by norm_num)
  simp only [vertRow, inWater, if_true, or_true, vertDz, mixedMove, uniform, mul_zero, add_zero] at this
  generalize √((6 : ℝ) * (5 / 10000) * 1200) = q at *
  have hnb : ¬ bottom < (1 : ℝ) := by norm_num [bottom]
  rw [if_neg (by norm_num), if_pos (by norm_num), if_neg hnb, if_neg (by linarith)] at this
  dsimp only at this
  unfold checks at this
  dsimp only at this
  rw [if_neg (by intro hc; linarith), if_pos (by linarith), if_neg (by unfold bottom; linarith)] at this
  linarith

/-- **C102**, forward: the mover always returns a move. -/
theorem C102_forward_partial (p : Vert) (active : Bool) (dt : ℝ) (r : Nat → Draws) (els : List LE) (h : 0 ≤ dt) :
    vertMove p active dt r els ≠ none := by
  unfold vertMove unsignedStep
  rw [if_neg (fun hc => absurd hc.2.2 (not_lt.mpr h))]
  simp

/-- **C102** fails backward: an active mover with an element raises, and so does the one for rising elements. -/
theorem C102_counterexample_backward : ¬ C102_claim_backward := by
  intro h
  apply h ⟨5, 1 / 10, 100000, 126, 10, false⟩ true (-900) (fun _ => ⟨0, 0, 0, 0, 0, 0⟩) [⟨(0, 0, 5), 2, 0, 0⟩]
    ⟨by norm_num, by norm_num, by norm_num, by norm_num, by norm_num⟩
    (fun _ => ⟨by norm_num, by norm_num, by norm_num, by norm_num, by norm_num, by norm_num⟩)
  simp [vertMove, unsignedStep]

/-- The defaults of the mover and an element at 3 m, drawn up to the limit: 5 m up in an hour and a half, back down 2 m below. -/
example (r : Draws) (hr : r.Fair) : 0 < (3 : ℝ) + vertDz ⟨5, 11 / 100, 100000, 126, 10, false⟩ 5400 r 3 ∧
    (3 : ℝ) + vertDz ⟨5, 11 / 100, 100000, 126, 10, false⟩ 5400 r 3 ≤ bottom :=
  vertDz_in (by norm_num) hr 5400 3 (by norm_num)

end Verif.Mover
