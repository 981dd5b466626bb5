import Verif.Geom.GreatModel
import Mathlib.Analysis.Real.Pi.Bounds
import Mathlib.Tactic.Linarith
import Mathlib.Tactic.Ring
import Mathlib.Tactic.NormNum
import Mathlib.Tactic.Positivity
import Mathlib.Tactic.FieldSimp
import Mathlib.Tactic.LinearCombination
/-!
# C314: the point at a distance and bearing is where the great circle leads
-/
namespace Verif.Geom.Great

open Real

/-! ## the sphere -/

/-- a place or direction in space -/
@[ext] structure V3 where
  x : ℝ
  y : ℝ
  z : ℝ

def V3.dot (a b : V3) : ℝ := a.x * b.x + a.y * b.y + a.z * b.z
def V3.add (a b : V3) : V3 := ⟨a.x + b.x, a.y + b.y, a.z + b.z⟩
def V3.smul (c : ℝ) (a : V3) : V3 := ⟨c * a.x, c * a.y, c * a.z⟩

/-- the point of the unit sphere at a longitude and latitude in degrees -/
noncomputable def place (lon lat : ℝ) : V3 := ⟨cos (rad lat) * cos (rad lon), cos (rad lat) * sin (rad lon), sin (rad lat)⟩

/-- the direction to the north there -/
noncomputable def north (lon lat : ℝ) : V3 := ⟨-(sin (rad lat) * cos (rad lon)), -(sin (rad lat) * sin (rad lon)), cos (rad lat)⟩

/-- the direction to the east there -/
noncomputable def east (lon : ℝ) : V3 := ⟨-sin (rad lon), cos (rad lon), 0⟩

/-- the point that is reached from a place along the great circle that begins in the bearing (clockwise from north, degrees) after the angle `δ` -/
noncomputable def along (lon lat bearing δ : ℝ) : V3 :=
  ((place lon lat).smul (cos δ)).add (((north lon lat).smul (cos (rad bearing))).add ((east lon).smul (sin (rad bearing))) |>.smul (sin δ))

/-- north and east are unit vectors, at right angles to each other and to the place -/
theorem frame (lon lat : ℝ) : (place lon lat).dot (place lon lat) = 1 ∧ (north lon lat).dot (north lon lat) = 1 ∧ (east lon).dot (east lon) = 1 ∧
    (place lon lat).dot (north lon lat) = 0 ∧ (place lon lat).dot (east lon) = 0 ∧ (north lon lat).dot (east lon) = 0 := by
  have a := sin_sq_add_cos_sq (rad lon)
  have b := sin_sq_add_cos_sq (rad lat)
  simp only [V3.dot, place, north, east]
  refine ⟨?_, ?_, ?_, ?_, ?_, ?_⟩
  · linear_combination cos (rad lat) ^ 2 * a + b
  · linear_combination sin (rad lat) ^ 2 * a + b
  · linear_combination a
  · linear_combination -(cos (rad lat) * sin (rad lat)) * a
  · ring
  · ring

theorem rad_deg (x : ℝ) : rad (deg x) = x := by
  unfold rad deg
  field_simp

/-- the sine of the latitude reached is within its bounds -/
theorem sin_latOut (lat δ β : ℝ) : sin (latOut lat δ β) = sin lat * cos δ + cos lat * sin δ * cos β := by
  unfold latOut
  have h1 := sin_sq_add_cos_sq lat
  have h2 := sin_sq_add_cos_sq δ
  have h3 := sin_sq_add_cos_sq β
  have hsq : (sin lat * cos δ + cos lat * sin δ * cos β) ^ 2 ≤ 1 := by
    have e : 1 - (sin lat * cos δ + cos lat * sin δ * cos β) ^ 2 = (sin lat * sin δ - cos lat * cos δ * cos β) ^ 2 + (cos lat * sin β) ^ 2 := by
      linear_combination (-1 : ℝ) * h1 + (- sin lat ^ 2 - cos lat ^ 2 * cos β ^ 2) * (h2) + (-cos lat ^ 2) * h3
    have : 0 ≤ (sin lat * sin δ - cos lat * cos δ * cos β) ^ 2 + (cos lat * sin β) ^ 2 := by positivity
    linarith
  have := (sq_le_one_iff_abs_le_one _).1 hsq
  rw [abs_le] at this
  exact Real.sin_arcsin this.1 this.2

theorem cos_latOut_nonneg (lat δ β : ℝ) : 0 ≤ cos (latOut lat δ β) := Real.cos_arcsin_nonneg _

/-- sine and cosine of the change of longitude, times the cosines of both latitudes -/
theorem lon_parts (lat δ β : ℝ) (hc : 0 ≤ cos lat) :
    cos lat * cos (latOut lat δ β) * cos (arctan2 (sin β * sin δ * cos lat) (cos δ - sin lat * sin (latOut lat δ β))) = cos δ - sin lat * sin (latOut lat δ β) ∧
    cos lat * cos (latOut lat δ β) * sin (arctan2 (sin β * sin δ * cos lat) (cos δ - sin lat * sin (latOut lat δ β))) = sin β * sin δ * cos lat := by
  set φ := latOut lat δ β with hφ
  set z : ℂ := ⟨cos δ - sin lat * sin φ, sin β * sin δ * cos lat⟩ with hz
  have hs : sin φ = sin lat * cos δ + cos lat * sin δ * cos β := sin_latOut lat δ β
  have hn : 0 ≤ cos φ := cos_latOut_nonneg lat δ β
  have hnorm : ‖z‖ = cos lat * cos φ := by
    have h1 := sin_sq_add_cos_sq lat
    have h2 := sin_sq_add_cos_sq δ
    have h3 := sin_sq_add_cos_sq β
    have h4 := sin_sq_add_cos_sq φ
    have : ‖z‖ ^ 2 = (cos lat * cos φ) ^ 2 := by
      rw [Complex.sq_norm, Complex.normSq_apply]
      simp only [hz]
      have e4 : cos φ ^ 2 = 1 - sin φ ^ 2 := by linarith
      have hx : cos δ - sin lat * (sin lat * cos δ + cos lat * sin δ * cos β) = cos lat * (cos lat * cos δ - sin lat * sin δ * cos β) := by
        linear_combination (-cos δ) * h1
      rw [mul_pow, e4, hs, hx]
      linear_combination cos lat ^ 2 * ((cos δ ^ 2 + sin δ ^ 2 * cos β ^ 2) * h1 + sin δ ^ 2 * h3 + h2)
    exact (pow_left_inj₀ (norm_nonneg _) (mul_nonneg hc hn) two_ne_zero).1 this
  unfold arctan2
  constructor
  · rw [← hnorm, Complex.norm_mul_cos_arg]
  · rw [← hnorm, Complex.norm_mul_sin_arg]

theorem cos_rad_nonneg (lat : ℝ) (h : |lat| ≤ 90) : 0 ≤ cos (rad lat) := by
  rw [abs_le] at h
  have hp := Real.pi_pos
  apply Real.cos_nonneg_of_mem_Icc
  constructor <;> unfold rad <;> nlinarith

theorem cos_rad_pos (lat : ℝ) (h : |lat| < 90) : 0 < cos (rad lat) := by
  rw [abs_lt] at h
  have hp := Real.pi_pos
  apply Real.cos_pos_of_mem_Ioo
  constructor <;> unfold rad <;> nlinarith

/-- C314. The point that is returned is where the great circle that begins in the bearing leads after the distance, from every place but the poles and for every distance and bearing. -/
theorem C314_circle (lon lat distance bearing : ℝ) (h : |lat| < 90) :
    place (geodesicSphere lon lat distance bearing).1 (geodesicSphere lon lat distance bearing).2 = along lon lat bearing (distance / earthRadius) := by
  have hc := cos_rad_pos lat h
  set δ := distance / earthRadius with hδ
  obtain ⟨p1, p2⟩ := lon_parts (rad lat) δ (rad bearing) hc.le
  have hs := sin_latOut (rad lat) δ (rad bearing)
  have h1 := sin_sq_add_cos_sq (rad lat)
  have hg : geodesicSphere lon lat distance bearing = (deg (lonOut (rad lon) (rad lat) δ (rad bearing)), deg (latOut (rad lat) δ (rad bearing))) := rfl
  rw [hg]
  simp only [place, along, north, east, V3.smul, V3.add, rad_deg, lonOut, cos_add, sin_add]
  set A := arctan2 (sin (rad bearing) * sin δ * cos (rad lat)) (cos δ - sin (rad lat) * sin (latOut (rad lat) δ (rad bearing)))
  set φ := latOut (rad lat) δ (rad bearing)
  have q2 : cos φ * sin A = sin (rad bearing) * sin δ := by
    apply mul_left_cancel₀ hc.ne'
    linear_combination p2
  have q1 : cos φ * cos A = cos (rad lat) * cos δ - sin (rad lat) * sin δ * cos (rad bearing) := by
    apply mul_left_cancel₀ hc.ne'
    rw [hs] at p1
    linear_combination p1 - cos δ * h1
  ext
  · simp only
    linear_combination cos (rad lon) * q1 - sin (rad lon) * q2
  · simp only
    linear_combination sin (rad lon) * q1 + cos (rad lon) * q2
  · simp only
    linear_combination hs

/-- C314. The distance over the ground to the point that is returned is the distance that was given (as an angle: that of a circle of the earth's radius), from every place. -/
theorem C314_distance (lon lat distance bearing : ℝ) (h : |lat| ≤ 90) :
    (place lon lat).dot (place (geodesicSphere lon lat distance bearing).1 (geodesicSphere lon lat distance bearing).2) = cos (distance / earthRadius) := by
  have hc := cos_rad_nonneg lat h
  set δ := distance / earthRadius with hδ
  obtain ⟨p1, p2⟩ := lon_parts (rad lat) δ (rad bearing) hc
  have ha := sin_sq_add_cos_sq (rad lon)
  have hg : geodesicSphere lon lat distance bearing = (deg (lonOut (rad lon) (rad lat) δ (rad bearing)), deg (latOut (rad lat) δ (rad bearing))) := rfl
  rw [hg]
  simp only [place, V3.dot, rad_deg, lonOut, cos_add, sin_add]
  linear_combination p1 + (cos (rad lat) * cos (latOut (rad lat) δ (rad bearing)) * cos (arctan2 (sin (rad bearing) * sin δ * cos (rad lat)) (cos δ - sin (rad lat) * sin (latOut (rad lat) δ (rad bearing))))) * ha

/-- C314. The latitude that is returned is one. -/
theorem C314_latitude (lon lat distance bearing : ℝ) : |(geodesicSphere lon lat distance bearing).2| ≤ 90 := by
  have hp := Real.pi_pos
  change |deg (latOut _ _ _)| ≤ 90
  unfold latOut deg
  have h1 := Real.arcsin_le_pi_div_two (sin (rad lat) * cos (distance / earthRadius) + cos (rad lat) * sin (distance / earthRadius) * cos (rad bearing))
  have h2 := Real.neg_pi_div_two_le_arcsin (sin (rad lat) * cos (distance / earthRadius) + cos (rad lat) * sin (distance / earthRadius) * cos (rad bearing))
  rw [abs_le]
  have e : π / 2 * (180 / π) = 90 := by field_simp; norm_num
  have hq : 0 < 180 / π := by positivity
  constructor
  · nlinarith
  · nlinarith

theorem deg_rad (x : ℝ) : deg (rad x) = x := by
  unfold rad deg
  field_simp

/-- C314. To the north (and to the south with a negative distance) the longitude stays and the latitude changes by the angle of the distance, up to the pole. -/
theorem C314_north (lon lat distance : ℝ) (h : |lat| ≤ 90) (h' : |lat + deg (distance / earthRadius)| ≤ 90) :
    geodesicSphere lon lat distance 0 = (lon, lat + deg (distance / earthRadius)) := by
  set δ := distance / earthRadius with hδ
  have hg : geodesicSphere lon lat distance 0 = (deg (lonOut (rad lon) (rad lat) δ (rad 0)), deg (latOut (rad lat) δ (rad 0))) := rfl
  have e : rad lat + δ = rad (lat + deg δ) := by
    have := rad_deg δ
    unfold rad at this ⊢
    rw [add_mul, this]
  have hlat : latOut (rad lat) δ (rad 0) = rad lat + δ := by
    unfold latOut
    have r0 : rad 0 = 0 := by unfold rad; ring
    rw [r0, cos_zero, mul_one, ← sin_add, e]
    have hp := Real.pi_pos
    rw [abs_le] at h'
    apply Real.arcsin_sin <;> unfold rad <;> nlinarith
  have hlon : lonOut (rad lon) (rad lat) δ (rad 0) = rad lon := by
    unfold lonOut arctan2
    rw [hlat]
    have r0 : rad 0 = 0 := by unfold rad; ring
    have hx : cos δ - sin (rad lat) * sin (rad lat + δ) = cos (rad lat) * cos (rad lat + δ) := by
      have := cos_sub (rad lat + δ) (rad lat)
      rw [add_sub_cancel_left] at this
      rw [this]; ring
    have hn : 0 ≤ cos (rad lat) * cos (rad lat + δ) := by
      rw [e]
      exact mul_nonneg (cos_rad_nonneg _ h) (cos_rad_nonneg _ h')
    have : (⟨cos δ - sin (rad lat) * sin (rad lat + δ), sin (rad 0) * sin δ * cos (rad lat)⟩ : ℂ) = ((cos (rad lat) * cos (rad lat + δ) : ℝ) : ℂ) := by
      apply Complex.ext
      · rw [hx, Complex.ofReal_re]
      · rw [r0, sin_zero, Complex.ofReal_im]; ring
    rw [this, Complex.arg_ofReal_of_nonneg hn, add_zero]
  rw [hg, hlat, hlon, deg_rad, e, deg_rad]

/-- from 50 degrees north, a hundredth of the radius of the earth to the north-east -/
example : place (geodesicSphere (-70) 50 (earthRadius / 100) 45).1 (geodesicSphere (-70) 50 (earthRadius / 100) 45).2 = along (-70) 50 45 (earthRadius / 100 / earthRadius) :=
  C314_circle _ _ _ _ (by norm_num)

/-- from 50 degrees north a degree to the north -/
example : geodesicSphere (-70) 50 (earthRadius * rad 1) 0 = (-70, 51) := by
  have e : earthRadius * rad 1 / earthRadius = rad 1 := by
    apply mul_div_cancel_left₀
    unfold earthRadius
    norm_num
  rw [C314_north (-70) 50 _ (by norm_num) (by rw [e, deg_rad]; norm_num), e, deg_rad]
  norm_num

/-- C314. A degree of this sphere is the degree of the flat-earth projection (`8.9992801e-06` degrees to a metre), to one part in a million. -/
theorem C314_degree : |earthRadius * rad 1 * 0.0000089992801 - 1| < 1 / 10 ^ 6 := by
  have h1 := Real.pi_gt_d6
  have h2 := Real.pi_lt_d6
  unfold earthRadius rad
  rw [abs_lt]
  constructor <;> norm_num at * <;> linarith

end Verif.Geom.Great
