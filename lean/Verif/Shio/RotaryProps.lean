import Verif.Shio.RotaryModel
import Verif.Shio.HarmProps
import Mathlib.Tactic.LinearCombination

/-!
# C339: currents of rotary stations
-/
namespace Verif.Shio.Rotary

open Verif.Shio.Harm Real

/-! ## Specification -/

/-- The unit vector (east, north) of a direction in degrees clockwise from north -/
noncomputable def compass (d : ℝ) : ℝ × ℝ := (sin (d * (π / 180)), cos (d * (π / 180)))

/-- How much a velocity goes in a direction -/
noncomputable def along (w : ℝ × ℝ) (d : Int) : ℝ := w.1 * (compass d).1 + w.2 * (compass d).2

def InRange (d : Int) : Prop := 0 ≤ d ∧ d ≤ 360

/-! ## Proofs -/

theorem vec_fix (d : Int) (h : InRange d) : vec (fixAngle d) = compass d := by
  unfold InRange at h
  have key : ∀ a : Int, (a = 90 - d ∨ a = 450 - d) → vec a = compass d := by
    intro a ha
    unfold vec compass
    rcases ha with rfl | rfl
    · have e : (((90 - d : Int) : ℝ)) * (π / 180) = π / 2 - d * (π / 180) := by push_cast; ring
      rw [e, cos_pi_div_two_sub, sin_pi_div_two_sub]
    · have e : (((450 - d : Int) : ℝ)) * (π / 180) = π / 2 - d * (π / 180) + 2 * π := by push_cast; ring
      rw [e, cos_add_two_pi, sin_add_two_pi, cos_pi_div_two_sub, sin_pi_div_two_sub]
  apply key
  unfold fixAngle
  repeat' split
  all_goals first | (left; rfl) | (right; rfl) | (exfalso; omega)

/-- C339: directions from 0 to 360 are taken, unless they are the same. -/
theorem C339_directions (fdir edir : Int) (hf : InRange fdir) (he : InRange edir) :
    cDirec fdir edir = (if fdir = edir ∨ (fdir = 0 ∧ edir = 360) ∨ (fdir = 360 ∧ edir = 0) then none
      else some (fixAngle fdir, fixAngle edir)) := by
  unfold InRange at hf he
  have key : ∀ d : Int, 0 ≤ d → d ≤ 360 → fixAngle d = if d ≤ 90 then 90 - d else 450 - d := by
    intro d h1 h2
    unfold fixAngle
    split_ifs <;> omega
  unfold cDirec
  rw [key fdir hf.1 hf.2, key edir he.1 he.2]
  split_ifs <;> first | rfl | omega

theorem velDir_eq (fdir edir : Int) (hf : InRange fdir) (he : InRange edir) (w : ℝ × ℝ) :
    velDir (fixAngle fdir) (fixAngle edir) w.1 w.2 =
      if along w fdir > 0 ∧ along w edir < 0 then 1 else if along w fdir < 0 ∧ along w edir > 0 then -1 else 0 := by
  unfold velDir along
  rw [vec_fix fdir hf, vec_fix edir he]

theorem rotate_vec (f : Int) (p : ℝ × ℝ) :
    rotate (90 - f) p = (p.2 * (vec f).1 + p.1 * (vec f).2, p.2 * (vec f).2 - p.1 * (vec f).1) := by
  unfold rotate vec
  have e : (90 - (f : ℝ)) * (π / 180) = π / 2 - f * (π / 180) := by ring
  simp only [e, cos_pi_div_two_sub, sin_pi_div_two_sub]
  refine Prod.ext ?_ ?_ <;> ring

theorem speed_neg (p : ℝ × ℝ) : |-speed p| = speed p := by
  rw [abs_neg, abs_of_nonneg (show 0 ≤ speed p from sqrt_nonneg _)]

theorem speed_abs (p : ℝ × ℝ) : |speed p| = speed p := abs_of_nonneg (sqrt_nonneg _)

theorem undetermined_abs (mm : Bool) (f e : Int) (hist : Option (ℝ × ℝ)) (p w : ℝ × ℝ) : |undetermined mm f e hist p w| = speed p := by
  have h1 := speed_neg p
  have h2 := speed_abs p
  unfold undetermined
  cases hist with
  | none =>
    simp only
    repeat' split
    all_goals assumption
  | some q =>
    simp only
    repeat' split
    all_goals simp only [mul_one, mul_neg, neg_neg]; assumption

/-- C339: the value is the speed, with a sign, and the velocity has this speed. -/
theorem C339_speed (mm : Bool) (fdir edir : Int) (hist : Option (ℝ × ℝ)) (p : ℝ × ℝ) (c : ℝ) (w : ℝ × ℝ)
    (h : current mm fdir edir hist p = some (c, w)) : |c| = sqrt (w.1 ^ 2 + w.2 ^ 2) ∧ sqrt (w.1 ^ 2 + w.2 ^ 2) = sqrt (p.1 ^ 2 + p.2 ^ 2) := by
  unfold current at h
  cases hd : cDirec fdir edir with
  | none => rw [hd] at h; cases h
  | some q =>
    obtain ⟨f, e⟩ := q
    rw [hd] at h
    simp only [Option.some.injEq, Prod.mk.injEq] at h
    obtain ⟨h1, h2⟩ := h
    have hw : w.1 ^ 2 + w.2 ^ 2 = p.1 ^ 2 + p.2 ^ 2 := by
      rw [← h2]
      unfold velocity
      split
      · rw [rotate_vec]
        have := cos_sq_add_sin_sq ((f : ℝ) * (π / 180))
        unfold vec
        simp only
        linear_combination (p.1 ^ 2 + p.2 ^ 2) * this
      · rfl
    rw [hw]
    refine ⟨?_, rfl⟩
    have hs : speed p = sqrt (p.1 ^ 2 + p.2 ^ 2) := by
      unfold speed
      congr 1
      ring
    rw [← hs, ← h1]
    split
    · exact speed_abs p
    · split
      · exact speed_neg p
      · exact undetermined_abs _ _ _ _ _ _

/-- C339: for stations with major and minor axes the velocity is the first half of the constituents in the direction of the flood, and the second to
the right of it. -/
theorem C339_axes (fdir edir : Int) (hf : InRange fdir) (hist : Option (ℝ × ℝ)) (p : ℝ × ℝ) (c : ℝ) (w : ℝ × ℝ)
    (h : current true fdir edir hist p = some (c, w)) :
    w = (p.2 * (compass fdir).1 + p.1 * (compass (fdir + 90)).1, p.2 * (compass fdir).2 + p.1 * (compass (fdir + 90)).2) := by
  unfold current at h
  cases hd : cDirec fdir edir with
  | none => rw [hd] at h; cases h
  | some q =>
    have hq : q.1 = fixAngle fdir := by
      unfold cDirec at hd
      repeat' split at hd
      all_goals first | (cases hd; done) | (cases hd; rfl)
    obtain ⟨f, e⟩ := q
    simp only at hq
    subst hq
    rw [hd] at h
    simp only [Option.some.injEq, Prod.mk.injEq] at h
    rw [← h.2]
    unfold velocity
    rw [if_pos rfl, rotate_vec, vec_fix fdir hf]
    unfold compass
    have e : ((fdir : ℝ) + 90) * (π / 180) = fdir * (π / 180) + π / 2 := by ring
    simp only [e, sin_add_pi_div_two, cos_add_pi_div_two]
    refine Prod.ext ?_ ?_
    · ring
    · simp only
      ring

/-- C339: for the other stations the velocity is east and north as the halves of the constituents. -/
theorem C339_east_north (fdir edir : Int) (hist : Option (ℝ × ℝ)) (p : ℝ × ℝ) (c : ℝ) (w : ℝ × ℝ)
    (h : current false fdir edir hist p = some (c, w)) : w = p := by
  unfold current at h
  split at h
  · cases h
  · simp only [Option.some.injEq, Prod.mk.injEq] at h
    rw [← h.2]
    rfl

/-- C339: the halves are the sums of their constituents. -/
theorem C339_parts (datum : ℝ) (cs : List Con) (t : ℝ) :
    |(parts datum cs t).1 - (datum + tide t (cs.drop (cs.length / 2)))| ≤ 21 / 10 ^ 12 * amplitudes (cs.drop (cs.length / 2)) ∧
    |(parts datum cs t).2 - (datum + tide t (cs.take (cs.length / 2)))| ≤ 21 / 10 ^ 12 * amplitudes (cs.take (cs.length / 2)) := by
  unfold parts
  constructor
  · rw [add_sub_add_left_eq_sub]
    exact total_near t _
  · rw [add_sub_add_left_eq_sub]
    exact total_near t _

theorem along_axes (fdir : Int) (p : ℝ × ℝ) :
    along (p.2 * (compass fdir).1 + p.1 * (compass (fdir + 90)).1, p.2 * (compass fdir).2 + p.1 * (compass (fdir + 90)).2) fdir = p.2 := by
  unfold along compass
  have e : ((fdir : ℝ) + 90) * (π / 180) = fdir * (π / 180) + π / 2 := by ring
  have := cos_sq_add_sin_sq ((fdir : ℝ) * (π / 180))
  simp only [e, sin_add_pi_div_two, cos_add_pi_div_two]
  linear_combination p.2 * this

/-- What `current` is when the directions are in range. -/
theorem current_eq (mm : Bool) (fdir edir : Int) (hf : InRange fdir) (he : InRange edir) (hist : Option (ℝ × ℝ)) (p : ℝ × ℝ) (c : ℝ) (w : ℝ × ℝ)
    (h : current mm fdir edir hist p = some (c, w)) :
    major mm p = (if mm then along w fdir else 0) ∧
    c = if (along w fdir > 0 ∧ along w edir < 0) then speed p else if (along w fdir < 0 ∧ along w edir > 0) then -speed p
      else undetermined mm (fixAngle fdir) (fixAngle edir) hist p w := by
  have hm : major mm p = (if mm then along w fdir else 0) := by
    cases mm with
    | false => rfl
    | true =>
      rw [C339_axes fdir edir hf hist p c w h, if_pos rfl, along_axes]
      rfl
  refine ⟨hm, ?_⟩
  unfold current at h
  cases hd : cDirec fdir edir with
  | none => rw [hd] at h; cases h
  | some q =>
    have hq : q = (fixAngle fdir, fixAngle edir) := by
      unfold cDirec at hd
      repeat' split at hd
      all_goals first | (cases hd; done) | (cases hd; rfl)
    subst hq
    rw [hd] at h
    simp only [Option.some.injEq, Prod.mk.injEq] at h
    obtain ⟨h1, h2⟩ := h
    rw [h2] at h1
    rw [velDir_eq fdir edir hf he, hm] at h1
    rw [← h1]
    by_cases c1 : along w fdir > 0 ∧ along w edir < 0
    · rw [if_pos c1]
      simp only [true_and]
      rw [if_pos, if_pos c1]
      split
      · exact c1.1.le
      · exact le_refl _
    · rw [if_neg c1, if_neg c1]
      by_cases c2 : along w fdir < 0 ∧ along w edir > 0
      · rw [if_pos c2, if_pos c2]
        rw [if_neg (by rintro ⟨h, _⟩; exact absurd h (by decide)), if_pos]
        refine ⟨rfl, ?_⟩
        split
        · exact c2.1.le
        · exact le_refl _
      · rw [if_neg c2, if_neg c2]
        rw [if_neg (by rintro ⟨h, _⟩; exact absurd h (by decide)), if_neg (by rintro ⟨h, _⟩; exact absurd h (by decide))]

/-- C339: a current that goes with the flood and against the ebb is positive, one that goes with the ebb and against the flood negative. -/
theorem C339_sign (mm : Bool) (fdir edir : Int) (hf : InRange fdir) (he : InRange edir) (hist : Option (ℝ × ℝ)) (p : ℝ × ℝ) (c : ℝ) (w : ℝ × ℝ)
    (h : current mm fdir edir hist p = some (c, w)) :
    (along w fdir > 0 → along w edir < 0 → c > 0) ∧ (along w fdir < 0 → along w edir > 0 → c < 0) := by
  have hc := (current_eq mm fdir edir hf he hist p c w h).2
  obtain ⟨ha, hb⟩ := C339_speed mm fdir edir hist p c w h
  have hpos : along w fdir ≠ 0 → 0 < |c| := by
    intro hne
    rw [ha]
    apply sqrt_pos.2
    by_contra hle
    have h1 : w.1 = 0 := by nlinarith [sq_nonneg w.1, sq_nonneg w.2]
    have h2 : w.2 = 0 := by nlinarith [sq_nonneg w.1, sq_nonneg w.2]
    apply hne
    unfold along
    rw [h1, h2]
    ring
  constructor
  · intro h1 h2
    rw [if_pos ⟨h1, h2⟩] at hc
    have := hpos h1.ne'
    rw [hc, speed_abs] at this
    rw [hc]
    exact this
  · intro h1 h2
    rw [if_neg (fun hh => absurd hh.1 (not_lt.2 h1.le)), if_pos ⟨h1, h2⟩] at hc
    have := hpos h1.ne
    rw [hc, speed_neg] at this
    rw [hc]
    linarith

/-- C339: when the ebb is opposite to the flood, this settles the sign of all currents but those across. -/
theorem C339_opposite (fdir edir : Int) (h : edir = fdir + 180 ∨ edir = fdir - 180) (w : ℝ × ℝ) : along w edir = -along w fdir := by
  unfold along compass
  rcases h with rfl | rfl
  · have e : (((fdir + 180 : Int) : ℝ)) * (π / 180) = fdir * (π / 180) + π := by push_cast; ring
    simp only [e, sin_add_pi, cos_add_pi]
    ring
  · have e : (((fdir - 180 : Int) : ℝ)) * (π / 180) = fdir * (π / 180) - π := by push_cast; ring
    simp only [e, sin_sub_pi, cos_sub_pi]
    ring

/-- C339: otherwise the sign is that of the last value, and changes where the speed is least. -/
theorem C339_history (mm : Bool) (fdir edir : Int) (hf : InRange fdir) (he : InRange edir) (two last : ℝ) (p : ℝ × ℝ) (c : ℝ) (w : ℝ × ℝ)
    (h : current mm fdir edir (some (two, last)) p = some (c, w))
    (hu : ¬ (along w fdir > 0 ∧ along w edir < 0)) (hu' : ¬ (along w fdir < 0 ∧ along w edir > 0)) :
    (|last| ≤ |two| ∧ |last| ≤ |c| → if last ≥ 0 then c ≤ 0 else c ≥ 0) ∧
    (|last| > |two| ∨ |last| > |c| → if last ≥ 0 then c ≥ 0 else c ≤ 0) := by
  have hc := (current_eq mm fdir edir hf he _ p c w h).2
  rw [if_neg hu, if_neg hu'] at hc
  have ha : |c| = speed p := by
    rw [hc, undetermined_abs]
  have hs : 0 ≤ speed p := sqrt_nonneg _
  rw [ha, hc]
  unfold undetermined
  constructor
  · rintro ⟨h1, h2⟩
    have hcond : |last| - |two| ≤ 0 ∧ speed p - |last| ≥ 0 := ⟨by linarith, by linarith⟩
    by_cases hl : last ≥ 0
    · simp only [if_pos hl, if_pos hcond]
      linarith
    · simp only [if_neg hl, if_pos hcond]
      linarith
  · intro h1
    have hcond : ¬ (|last| - |two| ≤ 0 ∧ speed p - |last| ≥ 0) := by
      rintro ⟨h2, h3⟩
      rcases h1 with h1 | h1 <;> linarith
    by_cases hl : last ≥ 0
    · simp only [if_pos hl, if_neg hcond]
      linarith
    · simp only [if_neg hl, if_neg hcond]
      linarith

/-! ## Claims that fail -/

/-- At the start, where the directions do not tell, the value has the sign of the nearer direction. -/
def C339_claim_start : Prop := ∀ (fdir edir : Int) (p : ℝ × ℝ) (c : ℝ) (w : ℝ × ℝ), InRange fdir → InRange edir →
  current false fdir edir none p = some (c, w) → along w fdir > along w edir → c ≥ 0

/-- The flood is towards 120 degrees, the ebb towards 315, and the current towards 45: it is 75 degrees from the flood and 90 from the ebb. -/
theorem C339_counterexample : ¬ C339_claim_start := by
  intro hcl
  have hF : (compass ((120 : Int) : ℝ)) = (√3 / 2, -(1 / 2)) := by
    have e : ((120 : Int) : ℝ) * (π / 180) = π - π / 3 := by push_cast; ring
    unfold compass
    rw [e, sin_pi_sub, cos_pi_sub, sin_pi_div_three, cos_pi_div_three]
  have hE : (compass ((315 : Int) : ℝ)) = (-(√2 / 2), √2 / 2) := by
    have e : ((315 : Int) : ℝ) * (π / 180) = -(π / 4) + 2 * π := by push_cast; ring
    unfold compass
    rw [e, sin_add_two_pi, cos_add_two_pi, sin_neg, cos_neg, sin_pi_div_four, cos_pi_div_four]
  have s3 : 1 < √3 := by
    rw [show (1 : ℝ) = √1 by simp]
    exact sqrt_lt_sqrt (by norm_num) (by norm_num)
  have aF : along (1, 1) 120 > 0 := by
    unfold along
    rw [hF]
    simp only
    linarith
  have aE : along (1, 1) 315 = 0 := by
    unfold along
    rw [hE]
    simp only
    ring
  obtain ⟨c, hc⟩ : ∃ c, current false 120 315 none (1, 1) = some (c, (1, 1)) := ⟨_, rfl⟩
  have rF : InRange 120 := ⟨by norm_num, by norm_num⟩
  have rE : InRange 315 := ⟨by norm_num, by norm_num⟩
  have h1 := (current_eq false 120 315 rF rE none (1, 1) c (1, 1) hc).2
  rw [if_neg (by rw [aE]; rintro ⟨_, h⟩; exact lt_irrefl _ h), if_neg (by rw [aE]; rintro ⟨_, h⟩; exact lt_irrefl _ h)] at h1
  have hang : angle 1 1 = 45 := by
    have h0 : (if (1 : ℝ) ≠ 0 then (if (1 : ℝ) < 0 then arctan (1 / 1) + π else arctan (1 / 1))
        else if (1 : ℝ) < 0 then π + π / 2 else π / 2) = π / 4 := by
      rw [if_pos one_ne_zero, if_neg (by norm_num), div_one, arctan_one]
    have : π / 4 * (180 / π) = 45 := by
      have := pi_pos.ne'
      field_simp
      norm_num
    simp only [angle, h0, this]
    norm_num
  have f1 : fixAngle 120 = 330 := by decide
  have f2 : fixAngle 315 = 135 := by decide
  unfold undetermined at h1
  simp only [f1, f2, hang, Bool.false_eq_true, if_false] at h1
  rw [if_pos] at h1
  · have h2 := hcl 120 315 (1, 1) c (1, 1) rF rE hc (by rw [aE]; exact aF)
    have h3 : speed (1, 1) > 0 := by
      unfold speed
      apply sqrt_pos.2
      norm_num
    rw [h1] at h2
    linarith
  · rw [abs_of_nonneg (by norm_num), abs_of_nonneg (by norm_num)]
    norm_num

/-- Directions that are not from 0 to 360 are errors. -/
def C339_claim_directions : Prop := ∀ fdir edir : Int, ¬ InRange fdir → cDirec fdir edir = none

/-- A flood towards 400 is taken as one towards the east. -/
theorem C339_counterexample_directions : ¬ C339_claim_directions := by
  intro h
  exact absurd (h 400 180 (by unfold InRange; decide)) (by decide)

/-! ## Cases that meet the hypotheses -/

/-- A current to the north at a station whose flood is to the north and ebb to the south -/
example : ∃ c, current false 0 180 none (0, 2) = some (c, (0, 2)) ∧ along (0, 2) 0 > 0 ∧ along (0, 2) 180 < 0 := by
  refine ⟨_, rfl, ?_, ?_⟩
  · simp [along, compass]
  · have e : ((180 : Int) : ℝ) * (π / 180) = π := by push_cast; ring
    unfold along compass
    rw [e]
    simp

/-- Major axis to the east (90): a current of 2 on the major axis goes east. -/
example : ∃ c, current true 90 270 none (0, 2) = some (c, velocity true 0 (0, 2)) ∧ (velocity true 0 (0, 2)).1 = 2 := by
  refine ⟨_, rfl, ?_⟩
  have e : (90 - ((0 : Int) : ℝ)) * (π / 180) = π / 2 := by push_cast; ring
  unfold velocity
  rw [if_pos rfl, rotate, e]
  simp

end Verif.Shio.Rotary
