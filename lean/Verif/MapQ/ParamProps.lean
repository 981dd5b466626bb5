import Verif.MapQ.ParamModel
import Mathlib.Analysis.SpecialFunctions.Trigonometric.Bounds
import Mathlib.Tactic.Linarith
import Mathlib.Tactic.Ring
import Mathlib.Tactic.NormNum
import Mathlib.Tactic.Positivity
import Mathlib.Tactic.FieldSimp
import Mathlib.Tactic.LinearCombination
/-!
# C316: the shore of a map is at its distance and bearing
-/
namespace Verif.MapQ.Param

open Real

/-! ## what is expected -/

/-- metres to the east and to the north from the centre to a point (`lonlat_to_meters`) -/
noncomputable def east (c p : Pt) : ℝ := (p.1 - c.1) / degPerMetre * cos (rad c.2)
noncomputable def north (c p : Pt) : ℝ := (p.2 - c.2) / degPerMetre

/-- a point of the segment between two points -/
def Between (a b p : Pt) : Prop := ∃ t : ℝ, 0 ≤ t ∧ t ≤ 1 ∧ p = (a.1 + t * (b.1 - a.1), a.2 + t * (b.2 - a.2))

/-- the shore: the side of the land towards the centre -/
def Shore (m : PMap) (p : Pt) : Prop := ∃ a b l, m.land = a :: b :: l ∧ Between a b p

/-- the point of the shore that is nearest to the centre is at the distance and in the direction that were given -/
def AsGiven (m : PMap) : Prop :=
  (∃ p, Shore m p ∧ east m.center p = m.dist * sin (rad m.bearing) ∧ north m.center p = m.dist * cos (rad m.bearing)) ∧
  ∀ p, Shore m p → m.dist ^ 2 ≤ east m.center p ^ 2 + north m.center p ^ 2

/-- C316 in full. -/
def C316_claim : Prop := ∀ (center : Pt) (dist bearing unit : ℝ) (m : PMap), |center.2| < 90 → build center dist bearing unit = some m →
  m.dist = dist * unit ∧ m.bearing = bearing ∧ m.center = center ∧ AsGiven m

theorem cos_pos' (lat : ℝ) (h : |lat| < 90) : 0 < cos (rad lat) := by
  rw [abs_lt] at h
  have hp := Real.pi_pos
  apply Real.cos_pos_of_mem_Ioo
  constructor <;> unfold rad <;> nlinarith

theorem build_some (center : Pt) (dist bearing unit : ℝ) (m : PMap) (h : build center dist bearing unit = some m) :
    m.dist = dist * unit ∧ m.bearing = bearing ∧ m.center = center ∧ m.unit = unit ∧ 30 ≤ m.dist ∧
    m.land = [(degrees m.dist center.2, -16 * degrees m.dist center.2), (degrees m.dist center.2, 16 * degrees m.dist center.2),
      (16 * degrees m.dist center.2, 16 * degrees m.dist center.2), (16 * degrees m.dist center.2, -16 * degrees m.dist center.2)].map (put (rad (90 - bearing)) center) := by
  unfold build at h
  split_ifs at h with h1
  cases h
  exact ⟨rfl, rfl, rfl, rfl, not_lt.1 h1, rfl⟩

/-- the points of the shore: at `d` ahead and some `y` to the side, in degrees -/
theorem shore_iff (center : Pt) (dist bearing unit : ℝ) (m : PMap) (h : build center dist bearing unit = some m) (p : Pt) :
    Shore m p ↔ ∃ y, |y| ≤ 16 * |degrees m.dist center.2| ∧ p = put (rad (90 - bearing)) center (degrees m.dist center.2, y) := by
  obtain ⟨-, -, -, -, -, hl⟩ := build_some center dist bearing unit m h
  set d := degrees m.dist center.2
  unfold Shore Between
  rw [hl]
  constructor
  · rintro ⟨a, b, l, he, t, h0, h1, rfl⟩
    simp only [List.map_cons, List.cons.injEq] at he
    obtain ⟨rfl, rfl, -⟩ := he
    refine ⟨-16 * d + t * (32 * d), ?_, ?_⟩
    · have : -16 * d + t * (32 * d) = 16 * d * (2 * t - 1) := by ring
      rw [this, abs_mul, abs_mul, abs_of_pos (by norm_num : (0 : ℝ) < 16)]
      have : |2 * t - 1| ≤ 1 := by rw [abs_le]; constructor <;> linarith
      nlinarith [abs_nonneg d]
    · unfold put
      ext <;> simp only <;> ring
  · rintro ⟨y, hy, rfl⟩
    refine ⟨_, _, _, rfl, ?_⟩
    by_cases hd : d = 0
    · refine ⟨0, le_refl _, zero_le_one, ?_⟩
      have : y = 0 := by
        rw [hd, abs_zero, mul_zero] at hy
        exact abs_nonpos_iff.1 hy
      rw [this, hd]
      unfold put
      ext <;> simp
    · refine ⟨(y / (16 * d) + 1) / 2, ?_, ?_, ?_⟩
      · have : -1 ≤ y / (16 * d) := by
          have : |y / (16 * d)| ≤ 1 := by
            rw [abs_div, abs_mul, abs_of_pos (by norm_num : (0 : ℝ) < 16)]
            exact (div_le_one (by positivity)).2 hy
          exact (abs_le.1 this).1
        linarith
      · have : y / (16 * d) ≤ 1 := by
          have : |y / (16 * d)| ≤ 1 := by
            rw [abs_div, abs_mul, abs_of_pos (by norm_num : (0 : ℝ) < 16)]
            exact (div_le_one (by positivity)).2 hy
          exact (abs_le.1 this).2
        linarith
      · unfold put
        ext <;> simp only <;> field_simp <;> ring

theorem sin_ang (b : ℝ) : sin (rad (90 - b)) = cos (rad b) ∧ cos (rad (90 - b)) = sin (rad b) := by
  have : rad (90 - b) = π / 2 - rad b := by unfold rad; ring
  rw [this, sin_pi_div_two_sub, cos_pi_div_two_sub]
  exact ⟨rfl, rfl⟩

theorem degPerMetre_pos : 0 < degPerMetre := by unfold degPerMetre; norm_num

/-- where a point of the shore is, in metres -/
theorem put_metres (center : Pt) (dist bearing y : ℝ) (hc : 0 < cos (rad center.2)) :
    east center (put (rad (90 - bearing)) center (degrees dist center.2, y)) = dist * sin (rad bearing) - y / degPerMetre * cos (rad center.2) * cos (rad bearing) ∧
    north center (put (rad (90 - bearing)) center (degrees dist center.2, y)) = dist * cos (rad bearing) / cos (rad center.2) + y / degPerMetre * sin (rad bearing) := by
  have hp := degPerMetre_pos
  unfold east north put degrees
  simp only [(sin_ang bearing).1, (sin_ang bearing).2]
  constructor <;> field_simp <;> ring

/-- C316. No point of the shore is nearer than the distance that was given. -/
theorem C316_least (center : Pt) (dist bearing unit : ℝ) (m : PMap) (hl : |center.2| < 90) (h : build center dist bearing unit = some m) (p : Pt) (hp : Shore m p) :
    m.dist ^ 2 ≤ east m.center p ^ 2 + north m.center p ^ 2 := by
  obtain ⟨y, -, rfl⟩ := (shore_iff center dist bearing unit m h p).1 hp
  obtain ⟨-, -, hcen, -, -, -⟩ := build_some center dist bearing unit m h
  have hc := cos_pos' center.2 hl
  rw [hcen]
  obtain ⟨e1, e2⟩ := put_metres center m.dist bearing y hc
  rw [e1, e2]
  set k := cos (rad center.2)
  set D := m.dist
  set z := y / degPerMetre
  have hk : k ≤ 1 := cos_le_one _
  have hs := sin_sq_add_cos_sq (rad bearing)
  have e : D * cos (rad bearing) / k + z * sin (rad bearing) = (D * cos (rad bearing) + k * z * sin (rad bearing)) / k := by field_simp
  rw [e]
  have h1 : (D * cos (rad bearing) + k * z * sin (rad bearing)) ^ 2 ≤ ((D * cos (rad bearing) + k * z * sin (rad bearing)) / k) ^ 2 := by
    rw [div_pow, le_div_iff₀ (by positivity)]
    have : k ^ 2 ≤ 1 := by nlinarith
    nlinarith [sq_nonneg (D * cos (rad bearing) + k * z * sin (rad bearing))]
  have h2 : (D * sin (rad bearing) - z * k * cos (rad bearing)) ^ 2 + (D * cos (rad bearing) + k * z * sin (rad bearing)) ^ 2 = D ^ 2 + (k * z) ^ 2 := by
    linear_combination (D ^ 2 + (k * z) ^ 2) * hs
  nlinarith [sq_nonneg (k * z)]

/-- C316. The middle of the shore: to the east it is where it should be, to the north it is too far by the shrinking of the degrees of longitude. -/
theorem C316_middle (center : Pt) (dist bearing unit : ℝ) (m : PMap) (hl : |center.2| < 90) (h : build center dist bearing unit = some m) :
    ∃ p, Shore m p ∧ east m.center p = m.dist * sin (rad m.bearing) ∧ north m.center p = m.dist * cos (rad m.bearing) / cos (rad center.2) := by
  obtain ⟨-, hb, hcen, -, -, -⟩ := build_some center dist bearing unit m h
  refine ⟨_, (shore_iff center dist bearing unit m h _).2 ⟨0, by rw [abs_zero]; positivity, rfl⟩, ?_, ?_⟩
  · rw [hcen, (put_metres center m.dist bearing 0 (cos_pos' center.2 hl)).1, hb]; ring
  · rw [hcen, (put_metres center m.dist bearing 0 (cos_pos' center.2 hl)).2, hb]; ring

/-- C316, on the equator for all bearings and everywhere for shores to the east and west (what is missing: other bearings elsewhere, where the shore is too far away, `C316_middle`). -/
theorem C316_partial (center : Pt) (dist bearing unit : ℝ) (m : PMap) (hl : |center.2| < 90) (h : build center dist bearing unit = some m) (hb : center.2 = 0 ∨ cos (rad bearing) = 0) :
    m.dist = dist * unit ∧ m.bearing = bearing ∧ m.center = center ∧ AsGiven m := by
  obtain ⟨h1, h2, h3, -, -, -⟩ := build_some center dist bearing unit m h
  refine ⟨h1, h2, h3, ?_, C316_least center dist bearing unit m hl h⟩
  obtain ⟨p, hp, he, hn⟩ := C316_middle center dist bearing unit m hl h
  refine ⟨p, hp, he, ?_⟩
  rw [hn]
  rcases hb with hb | hb
  · rw [hb]; simp [rad]
  · rw [h2, hb]; simp

/-- C316. A shore to the north or south is too far away by the factor by which degrees of longitude are shorter. -/
theorem C316_north (center : Pt) (dist bearing unit : ℝ) (m : PMap) (hl : |center.2| < 90) (h : build center dist bearing unit = some m) (hb : sin (rad bearing) = 0) (p : Pt) (hp : Shore m p) :
    north m.center p = m.dist * cos (rad bearing) / cos (rad center.2) := by
  obtain ⟨-, -, hcen, -, -, -⟩ := build_some center dist bearing unit m h
  obtain ⟨y, -, rfl⟩ := (shore_iff center dist bearing unit m h p).1 hp
  rw [hcen, (put_metres center m.dist bearing y (cos_pos' center.2 hl)).2, hb, mul_zero, add_zero]

theorem build_ok (center : Pt) (dist bearing unit : ℝ) (h : 30 ≤ dist * unit) (h1 : |center.1| ≤ 360) (h2 : |center.2| ≤ 90) : ∃ m, build center dist bearing unit = some m := by
  unfold build
  rw [if_neg (not_lt.2 h), if_neg (by rintro (h | h) <;> linarith)]
  exact ⟨_, rfl⟩

/-- C316 fails at 60 degrees north: a shore 30 km to the north is 60 km away. -/
theorem C316_counterexample : ¬ C316_claim := by
  intro h
  obtain ⟨m, hm⟩ := build_ok (-70, 60) 30000 0 1 (by norm_num) (by norm_num) (by norm_num [abs_of_pos])
  have hl : |((-70, 60) : Pt).2| < 90 := by norm_num [abs_of_pos]
  obtain ⟨h1, h2, -, ⟨p, hp, -, hn⟩, -⟩ := h _ _ _ _ m hl hm
  have h0 : rad 0 = 0 := by unfold rad; ring
  have := C316_north _ _ _ _ m hl hm (by rw [h0, sin_zero]) p hp
  have h60 : cos (rad 60) = 1 / 2 := by
    have : rad 60 = π / 3 := by unfold rad; ring
    rw [this, cos_pi_div_three]
  rw [hn, h2, h0, cos_zero, h60, h1] at this
  norm_num at this

/-- C316. After an update of the centre, the distance or the bearing the map is the one that would be built with the new value and the old others. -/
theorem C316_update (center : Pt) (dist bearing unit : ℝ) (hu : unit ≠ 0) (m : PMap) (h : build center dist bearing unit = some m) (c' : Option Pt) (d' b' : Option ℝ) :
    m.update c' d' b' none = build (c'.getD center) (d'.getD dist) (b'.getD bearing) unit := by
  obtain ⟨h1, h2, h3, h4, -, -⟩ := build_some center dist bearing unit m h
  have : m.distance = dist := by
    unfold PMap.distance
    rw [h1, h4]
    field_simp
  unfold PMap.update
  rw [this, h2, h3, h4]
  rfl

/-- 20 nautical miles to the east at 45 degrees north -/
example : ∃ m, build (-70, 45) 20 90 1852 = some m ∧ AsGiven m := by
  obtain ⟨m, hm⟩ := build_ok (-70, 45) 20 90 1852 (by norm_num) (by norm_num) (by norm_num [abs_of_pos])
  refine ⟨m, hm, (C316_partial _ _ _ _ m (by norm_num [abs_of_pos]) hm (Or.inr ?_)).2.2.2⟩
  have : rad 90 = π / 2 := by unfold rad; ring
  rw [this, cos_pi_div_two]

end Verif.MapQ.Param
