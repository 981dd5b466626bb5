import Verif.Mover.RiseVelModel
import Mathlib.Tactic.Linarith
import Mathlib.Tactic.FieldSimp
import Mathlib.Tactic.Ring
import Mathlib.Tactic.NormNum
import Mathlib.Topology.Order.OrderClosed
import Mathlib.Topology.Piecewise
import Mathlib.Analysis.Calculus.Deriv.Pow
import Mathlib.Analysis.Calculus.Deriv.Mul
import Mathlib.Analysis.Calculus.Deriv.Add

namespace Verif.Mover.RiseVel

/-- Stokes' law. -/
noncomputable def stokes (f d nu : ℝ) : ℝ := f * d * d / (18 * nu)

/-- Form drag. -/
noncomputable def form (f d : ℝ) : ℝ := √(8 * f * d / 3)

/-- The speed as a real number, with the ranges in metres. -/
noncomputable def speed (f d nu : ℝ) : ℝ :=
  if d < d1 then stokes f d nu else if d2 ≤ d then form f d else middle (stokes f d1 nu) (form f d2) ((d - d1) / (d2 - d1))

theorem middle_eq (a1 a3 s : ℝ) :
    middle a1 a3 s = a1 * (2 * s ^ 3 - 3 * s ^ 2 + 1 + 49 / 2 * (s ^ 3 - 2 * s ^ 2 + s)) + a3 * (s ^ 2 * (251 / 100 - 151 / 100 * s)) := by
  unfold middle d1 d2
  ring

theorem scaled_neg (d : ℝ) : (d - d1) / (d2 - d1) < 0 ↔ d < d1 := by
  rw [div_lt_iff₀ (by unfold d1 d2; norm_num)]
  constructor <;> intro h <;> linarith

theorem scaled_one (d : ℝ) : 1 ≤ (d - d1) / (d2 - d1) ↔ d2 ≤ d := by
  rw [le_div_iff₀ (by unfold d1 d2; norm_num)]
  constructor <;> intro h <;> linarith

theorem scaled_back (d : ℝ) : (d - d1) / (d2 - d1) * (d2 - d1) + d1 = d := by
  have : d2 - d1 ≠ 0 := by unfold d1 d2; norm_num
  field_simp
  ring

/-- With buoyancy upward the speed is a number. -/
theorem riseOf_eq (f d nu : ℝ) (hf : 0 ≤ f) (hd : 0 ≤ d) : riseOf f d nu = some (speed f d nu) := by
  unfold riseOf speed
  simp only [scaled_neg, scaled_one, scaled_back]
  split
  · rfl
  · split
    · rw [sqrtC, if_neg (by have := mul_nonneg hf hd; nlinarith)]
      rfl
    · rw [sqrtC, if_neg (by unfold d2; linarith)]
      rfl

theorem stokes_nonneg (f d nu : ℝ) (hf : 0 ≤ f) (hn : 0 < nu) : 0 ≤ stokes f d nu := by
  unfold stokes
  apply div_nonneg _ (by linarith)
  rw [mul_assoc]
  exact mul_nonneg hf (mul_self_nonneg d)

theorem h1_nonneg (s : ℝ) (h0 : 0 ≤ s) : 0 ≤ 2 * s ^ 3 - 3 * s ^ 2 + 1 + 49 / 2 * (s ^ 3 - 2 * s ^ 2 + s) := by
  have e : 2 * s ^ 3 - 3 * s ^ 2 + 1 + 49 / 2 * (s ^ 3 - 2 * s ^ 2 + s) = (1 - s) ^ 2 * (1 + 2 * s) + 49 / 2 * (s * (1 - s) ^ 2) := by ring
  rw [e]
  have := sq_nonneg (1 - s)
  positivity

theorem h3_nonneg (s : ℝ) (h1 : s ≤ 1) : 0 ≤ s ^ 2 * (251 / 100 - 151 / 100 * s) := by
  apply mul_nonneg (sq_nonneg s)
  linarith

/-- The middle range goes up with the size when the speed at its end is large enough against that at its start. -/
theorem middle_mono (a1 a3 s t : ℝ) (h1 : 0 ≤ a1) (h3 : 55 * a1 ≤ 6 * a3) (hs : 0 ≤ s) (hst : s ≤ t) (ht : t ≤ 1) : middle a1 a3 s ≤ middle a1 a3 t := by
  rw [middle_eq, middle_eq]
  have key : 0 ≤ (t - s) * (a1 * (53 / 2 * (t ^ 2 + t * s + s ^ 2) - 52 * (t + s) + 49 / 2)
      + a3 * (-(151 / 100) * (t ^ 2 + t * s + s ^ 2) + 251 / 100 * (t + s))) := by
    apply mul_nonneg (by linarith)
    have hq : 0 ≤ -(151 / 100) * (t ^ 2 + t * s + s ^ 2) + 251 / 100 * (t + s) := by
      nlinarith [sq_nonneg (t - s), mul_nonneg hs (sub_nonneg.mpr (hst.trans ht)), mul_nonneg (le_trans hs hst) (sub_nonneg.mpr ht)]
    have hr : 0 ≤ 6 / 55 * (53 / 2 * (t ^ 2 + t * s + s ^ 2) - 52 * (t + s) + 49 / 2) + (-(151 / 100) * (t ^ 2 + t * s + s ^ 2) + 251 / 100 * (t + s)) := by
      nlinarith [sq_nonneg (t - s), sq_nonneg (t + s - 3 / 2)]
    by_cases hP : 0 ≤ 53 / 2 * (t ^ 2 + t * s + s ^ 2) - 52 * (t + s) + 49 / 2
    · exact add_nonneg (mul_nonneg h1 hP) (mul_nonneg (by linarith) hq)
    · have : 0 ≤ (6 / 55 * a3 - a1) * -(53 / 2 * (t ^ 2 + t * s + s ^ 2) - 52 * (t + s) + 49 / 2) := mul_nonneg (by linarith) (by linarith)
      have h4 : 0 ≤ a3 * (6 / 55 * (53 / 2 * (t ^ 2 + t * s + s ^ 2) - 52 * (t + s) + 49 / 2) + (-(151 / 100) * (t ^ 2 + t * s + s ^ 2) + 251 / 100 * (t + s))) :=
        mul_nonneg (by linarith) hr
      linarith
  nlinarith [key]

theorem middle_zero (a1 a3 : ℝ) : middle a1 a3 0 = a1 := by rw [middle_eq]; ring

theorem middle_one (a1 a3 : ℝ) : middle a1 a3 1 = a3 := by rw [middle_eq]; ring

/-- The speeds at the two ends of the middle range, for buoyancy up to that of air in water and water that is not hotter than boiling. -/
theorem ends (f nu : ℝ) (hf : 0 ≤ f) (hf' : f ≤ 98 / 10) (hn : 4 / 10000000 ≤ nu) : 55 * stokes f d1 nu ≤ 6 * form f d2 := by
  have h1 : stokes f d1 nu ≤ f / 180 := by
    unfold stokes d1
    rw [div_le_div_iff₀ (by linarith) (by norm_num)]
    nlinarith
  have h2 : 55 / 6 * (f / 180) ≤ form f d2 := by
    unfold form d2
    apply Real.le_sqrt_of_sq_le
    nlinarith
  linarith

theorem form_mono (f d e : ℝ) (hf : 0 ≤ f) (hde : d ≤ e) : form f d ≤ form f e := by
  unfold form
  apply Real.sqrt_le_sqrt
  have := mul_le_mul_of_nonneg_left hde hf
  linarith

theorem stokes_mono (f d e nu : ℝ) (hf : 0 ≤ f) (hn : 0 < nu) (hd : 0 ≤ d) (hde : d ≤ e) : stokes f d nu ≤ stokes f e nu := by
  unfold stokes
  apply div_le_div_of_nonneg_right _ (by linarith)
  rw [mul_assoc, mul_assoc]
  exact mul_le_mul_of_nonneg_left (mul_self_le_mul_self hd hde) hf

theorem speed_mono (f nu d e : ℝ) (hf : 0 ≤ f) (hf' : f ≤ 98 / 10) (hn : 4 / 10000000 ≤ nu) (hd : 0 ≤ d) (hde : d ≤ e) : speed f d nu ≤ speed f e nu := by
  have hn0 : 0 < nu := by linarith
  have h12 : 0 < d2 - d1 := by unfold d1 d2; norm_num
  have hA := stokes_nonneg f d1 nu hf hn0
  have hE := ends f nu hf hf' hn
  have m : ∀ s t, 0 ≤ s → s ≤ t → t ≤ 1 → middle (stokes f d1 nu) (form f d2) s ≤ middle (stokes f d1 nu) (form f d2) t := fun s t => middle_mono _ _ s t hA hE
  have lo : ∀ x, d1 ≤ x → x ≤ d2 → stokes f d1 nu ≤ middle (stokes f d1 nu) (form f d2) ((x - d1) / (d2 - d1)) := by
    intro x h1 h2
    have := m 0 ((x - d1) / (d2 - d1)) le_rfl (div_nonneg (by linarith) h12.le) ((div_le_one h12).mpr (by linarith))
    rwa [middle_zero] at this
  have hi : ∀ x, d1 ≤ x → x ≤ d2 → middle (stokes f d1 nu) (form f d2) ((x - d1) / (d2 - d1)) ≤ form f d2 := by
    intro x h1 h2
    have := m ((x - d1) / (d2 - d1)) 1 (div_nonneg (by linarith) h12.le) ((div_le_one h12).mpr (by linarith)) le_rfl
    rwa [middle_one] at this
  have hAB : stokes f d1 nu ≤ form f d2 := le_trans (lo d1 le_rfl (by linarith)) (hi d1 le_rfl (by linarith))
  unfold speed
  by_cases c1 : d < d1
  · rw [if_pos c1]
    by_cases c2 : e < d1
    · rw [if_pos c2]
      exact stokes_mono f d e nu hf hn0 hd hde
    · rw [if_neg c2]
      have h1 := stokes_mono f d d1 nu hf hn0 hd c1.le
      by_cases c3 : d2 ≤ e
      · rw [if_pos c3]
        exact h1.trans (hAB.trans (form_mono f d2 e hf c3))
      · rw [if_neg c3]
        exact h1.trans (lo e (not_lt.mp c2) (not_le.mp c3).le)
  · rw [if_neg c1, if_neg (by linarith : ¬ e < d1)]
    by_cases c2 : d2 ≤ d
    · rw [if_pos c2, if_pos (c2.trans hde)]
      exact form_mono f d e hf hde
    · rw [if_neg c2]
      by_cases c3 : d2 ≤ e
      · rw [if_pos c3]
        exact (hi d (not_lt.mp c1) (not_le.mp c2).le).trans (form_mono f d2 e hf c3)
      · rw [if_neg c3]
        apply m
        · exact div_nonneg (by linarith [not_lt.mp c1]) h12.le
        · exact div_le_div_of_nonneg_right (by linarith) h12.le
        · exact (div_le_one h12).mpr (by linarith [not_le.mp c3])

theorem buoyancy_range (oil water : ℝ) (ho : 0 ≤ oil) (how : oil ≤ water) (hw : 0 < water) : 0 ≤ buoyancy oil water ∧ buoyancy oil water ≤ 98 / 10 := by
  unfold buoyancy
  constructor
  · exact div_nonneg (by linarith) hw.le
  · rw [div_le_iff₀ hw]; linarith

/-- C244: droplets of oil that is not denser than the water rise with a speed that is not below 0, and larger droplets do not rise more slowly, in water
of a viscosity of at least 4e-7 m²/s (that of water at 70 °C). -/
theorem C244_size (oil water nu d e : ℝ) (ho : 0 ≤ oil) (how : oil ≤ water) (hw : 0 < water) (hn : 4 / 10000000 ≤ nu) (hd : 0 ≤ d) (hde : d ≤ e) :
    ∃ v w, rise oil d nu water = some v ∧ rise oil e nu water = some w ∧ 0 ≤ v ∧ v ≤ w := by
  obtain ⟨h0, h1⟩ := buoyancy_range oil water ho how hw
  refine ⟨_, _, riseOf_eq _ d nu h0 hd, riseOf_eq _ e nu h0 (hd.trans hde), ?_, speed_mono _ nu d e h0 h1 hn hd hde⟩
  have := speed_mono _ nu 0 d h0 h1 hn le_rfl hd
  have h2 : speed (buoyancy oil water) 0 nu = 0 := by
    unfold speed stokes
    rw [if_pos (by unfold d1; norm_num)]
    ring
  linarith

theorem speed_buoyancy (f g nu mu d : ℝ) (hf : 0 ≤ f) (hfg : f ≤ g) (hm : 0 < mu) (hmn : mu ≤ nu) (hd : 0 ≤ d) : speed f d nu ≤ speed g d mu := by
  have hs : ∀ x, stokes f x nu ≤ stokes g x mu := by
    intro x
    have hx := mul_self_nonneg x
    unfold stokes
    rw [mul_assoc, mul_assoc]
    apply div_le_div₀ (mul_nonneg (hf.trans hfg) hx) (mul_le_mul_of_nonneg_right hfg hx) (by linarith) (by linarith)
  have hF : ∀ x, 0 ≤ x → form f x ≤ form g x := by
    intro x hx
    unfold form
    apply Real.sqrt_le_sqrt
    have := mul_le_mul_of_nonneg_right hfg hx
    linarith
  unfold speed
  split
  · exact hs d
  · rename_i c1
    split
    · exact hF d hd
    · rename_i c2
      have h12 : 0 < d2 - d1 := by unfold d1 d2; norm_num
      have s0 : 0 ≤ (d - d1) / (d2 - d1) := div_nonneg (by linarith [not_lt.mp c1]) h12.le
      have s1 : (d - d1) / (d2 - d1) ≤ 1 := (div_le_one h12).mpr (by linarith [not_le.mp c2])
      rw [middle_eq, middle_eq]
      exact add_le_add (mul_le_mul_of_nonneg_right (hs d1) (h1_nonneg _ s0)) (mul_le_mul_of_nonneg_right (hF d2 (by unfold d2; norm_num)) (h3_nonneg _ s1))

/-- C244, densities and viscosity: lighter oil and thinner water do not make a droplet rise more slowly. -/
theorem C244_buoyancy (oil light water nu mu d : ℝ) (hlo : light ≤ oil) (how : oil ≤ water) (hw : 0 < water) (hm : 0 < mu) (hmn : mu ≤ nu) (hd : 0 ≤ d) :
    ∃ v w, rise oil d nu water = some v ∧ rise light d mu water = some w ∧ v ≤ w := by
  have h0 : 0 ≤ buoyancy oil water := div_nonneg (by linarith) hw.le
  have h1 : buoyancy oil water ≤ buoyancy light water := by
    unfold buoyancy
    exact div_le_div_of_nonneg_right (by linarith) hw.le
  exact ⟨_, _, riseOf_eq _ d nu h0 hd, riseOf_eq _ d mu (h0.trans h1) hd, speed_buoyancy _ _ nu mu d h0 h1 hm hmn hd⟩

theorem speed_continuous (f nu : ℝ) : Continuous fun d => speed f d nu := by
  have e : (fun d => speed f d nu) = fun d => if d1 ≤ d then (if d2 ≤ d then form f d else middle (stokes f d1 nu) (form f d2) ((d - d1) / (d2 - d1))) else stokes f d nu := by
    funext d
    unfold speed
    by_cases h : d < d1
    · rw [if_pos h, if_neg (not_le.mpr h)]
    · rw [if_neg h, if_pos (not_lt.mp h)]
  rw [e]
  have h12 : d2 - d1 ≠ 0 := by unfold d1 d2; norm_num
  have cs : Continuous fun d => stokes f d nu := by
    unfold stokes
    exact (((continuous_const.mul continuous_id).mul continuous_id).div_const _)
  have cf : Continuous fun d => form f d := by
    unfold form
    exact Real.continuous_sqrt.comp ((continuous_const.mul continuous_id).div_const _)
  have cm : Continuous fun d => middle (stokes f d1 nu) (form f d2) ((d - d1) / (d2 - d1)) := by
    simp only [middle_eq]
    have c0 : Continuous fun d : ℝ => (d - d1) / (d2 - d1) := (continuous_id.sub continuous_const).div_const _
    fun_prop
  apply Continuous.if_le _ cs continuous_const continuous_id
  · intro d hd
    subst hd
    rw [if_neg (by unfold d1 d2; norm_num), sub_self, zero_div, middle_zero]
  · apply Continuous.if_le cf cm continuous_const continuous_id
    intro d hd
    subst hd
    rw [div_self h12, middle_one]

/-- C244, no jumps: the speed is a continuous function of the size. -/
theorem C244_continuous (oil water nu : ℝ) (how : oil ≤ water) (hw : 0 < water) : ∃ v : ℝ → ℝ, Continuous v ∧ ∀ d, 0 ≤ d → rise oil d nu water = some (v d) :=
  ⟨_, speed_continuous (buoyancy oil water) nu, fun d hd => riseOf_eq _ d nu (div_nonneg (by linarith) hw.le) hd⟩

example : rise 1000 (1 / 10000) (1 / 1000000) 1000 = some 0 := by
  rw [rise, riseOf_eq _ _ _ (by unfold buoyancy; norm_num) (by norm_num)]
  unfold speed stokes buoyancy
  rw [if_pos (by unfold d1; norm_num)]
  norm_num

/-- C245 in full: a droplet that is denser than the water sinks, with a speed that is a number. -/
def C245_claim : Prop := ∀ oil d nu water dt : ℝ, 0 < water → water < oil → 0 < d → 0 < nu → 0 < dt → ∃ z, moveZ (rise oil d nu water) dt = some z ∧ 0 < z

/-- C245 fails: from two tenths of a millimetre on, the square root of a negative number is taken. -/
theorem C245_counterexample : ¬ C245_claim := by
  intro h
  obtain ⟨z, hz, _⟩ := h 1100 1 1 1000 1 (by norm_num) (by norm_num) (by norm_num) (by norm_num) (by norm_num)
  have : rise 1100 1 1 1000 = none := by
    unfold rise riseOf
    simp only [scaled_neg, scaled_one, scaled_back]
    rw [if_neg (by unfold d1; norm_num), if_pos (by unfold d2; norm_num), sqrtC, if_pos (by unfold buoyancy; norm_num)]
  rw [this] at hz
  cases hz

/-- C245, what holds: a denser droplet sinks if it is smaller than two tenths of a millimetre; any larger one gets no number. -/
theorem C245_partial (oil d nu water dt : ℝ) (hw : 0 < water) (how : water < oil) (hd : 0 < d) (hn : 0 < nu) (ht : 0 < dt) :
    (d < d1 → ∃ z, moveZ (rise oil d nu water) dt = some z ∧ 0 < z) ∧ (d1 ≤ d → moveZ (rise oil d nu water) dt = none) := by
  have hf : buoyancy oil water < 0 := by
    unfold buoyancy
    exact div_neg_of_neg_of_pos (by linarith) hw
  unfold rise riseOf
  simp only [scaled_neg, scaled_one, scaled_back]
  constructor
  · intro h
    rw [if_pos h]
    refine ⟨_, rfl, ?_⟩
    have : buoyancy oil water * d * d / (18 * nu) < 0 := by
      apply div_neg_of_neg_of_pos _ (by linarith)
      rw [mul_assoc]
      exact mul_neg_of_neg_of_pos hf (mul_pos hd hd)
    nlinarith
  · intro h
    rw [if_neg (not_lt.mpr h)]
    split
    · rw [sqrtC, if_pos (by have := mul_neg_of_neg_of_pos hf hd; linarith)]
      rfl
    · rw [sqrtC, if_pos (by unfold d2; linarith)]
      rfl

/-- C245, the other side: a droplet of lighter oil, of any size, rises: its depth gets less. -/
theorem C245_rises (oil d nu water dt : ℝ) (how : oil < water) (hw : 0 < water) (hd : 0 < d) (hn : 0 < nu) (ht : 0 < dt) :
    ∃ z, moveZ (rise oil d nu water) dt = some z ∧ z < 0 := by
  have hf : 0 < buoyancy oil water := by
    unfold buoyancy
    exact div_pos (by linarith) hw
  rw [rise, riseOf_eq _ d nu hf.le hd.le]
  refine ⟨_, rfl, ?_⟩
  have hs : ∀ x, 0 < x → 0 < stokes (buoyancy oil water) x nu := by
    intro x hx
    unfold stokes
    positivity
  have hF : ∀ x, 0 < x → 0 < form (buoyancy oil water) x := by
    intro x hx
    unfold form
    apply Real.sqrt_pos.mpr
    positivity
  have : 0 < speed (buoyancy oil water) d nu := by
    unfold speed
    split
    · exact hs d hd
    · rename_i c1
      split
      · exact hF d hd
      · rename_i c2
        have h12 : 0 < d2 - d1 := by unfold d1 d2; norm_num
        have s0 : 0 ≤ (d - d1) / (d2 - d1) := div_nonneg (by linarith [not_lt.mp c1]) h12.le
        have s1 : (d - d1) / (d2 - d1) ≤ 1 := (div_le_one h12).mpr (by linarith [not_le.mp c2])
        rw [middle_eq]
        have p1 := h1_nonneg _ s0
        have q1 := hs d1 (by unfold d1; norm_num)
        have q3 := hF d2 (by unfold d2; norm_num)
        rcases s0.eq_or_lt with h | h
        · rw [← h]
          norm_num
          exact q1
        · apply add_pos_of_nonneg_of_pos (mul_nonneg q1.le p1)
          exact mul_pos q3 (mul_pos (by positivity) (by linarith))
  nlinarith

/-- C246 in full: the speed changes smoothly with the size. -/
def C246_claim : Prop := ∀ (oil nu water : ℝ) (v : ℝ → ℝ), oil < water → 0 < water → 0 < nu → (∀ d, 0 ≤ d → rise oil d nu water = some (v d)) →
  ∀ d, 0 < d → DifferentiableAt ℝ v d

theorem stokes_deriv (f nu d : ℝ) : HasDerivAt (fun d => stokes f d nu) (2 * f * d / (18 * nu)) d := by
  unfold stokes
  have h := (((hasDerivAt_id d).const_mul f).mul (hasDerivAt_id d)).div_const (18 * nu)
  have e : f * 1 * id d + f * id d * 1 = 2 * f * d := by
    simp only [id]
    ring
  rw [e] at h
  exact h

/-- At the smaller end of the middle range its slope is a quarter of that of Stokes' law there. -/
theorem middle_deriv (f nu : ℝ) : HasDerivAt (fun d => middle (stokes f d1 nu) (form f d2) ((d - d1) / (d2 - d1))) (2 * f * d1 / (18 * nu) / 4) d1 := by
  have hs : HasDerivAt (fun d : ℝ => (d - d1) / (d2 - d1)) (1 / (d2 - d1)) d1 := ((hasDerivAt_id d1).sub_const d1).div_const _
  simp only [middle]
  generalize hA : stokes f d1 nu = A
  generalize form f d2 = B
  have h := ((((((hs.const_mul (2 * A + A * (d2 - d1) / (2 * d1) - 2 * B + B * (d2 - d1) / (2 * d2))).add_const
    (-3 * A - 2 * (A * (d2 - d1) / (2 * d1)) + 3 * B - B * (d2 - d1) / (2 * d2))).mul hs).add_const (A * (d2 - d1) / (2 * d1))).mul hs).add_const A)
  refine h.congr_deriv ?_
  rw [← hA]
  unfold stokes
  simp only [sub_self, zero_div, mul_zero, zero_add, Pi.mul_apply]
  have h12 : d2 - d1 ≠ 0 := by unfold d1 d2; norm_num
  have h1 : d1 ≠ 0 := by unfold d1; norm_num
  field_simp
  ring

/-- C246 fails: at two tenths of a millimetre the slope jumps to a quarter. -/
theorem C246_counterexample : ¬ C246_claim := by
  intro h
  have hb : buoyancy 88 98 = 1 := by unfold buoyancy; norm_num
  have hD := (h 88 1 98 (fun d => speed 1 d 1) (by norm_num) (by norm_num) one_pos
    (fun d hd => by rw [rise, hb]; exact riseOf_eq 1 d 1 zero_le_one hd) d1 (by unfold d1; norm_num)).hasDerivAt
  set D := deriv (fun d => speed 1 d 1) d1
  have hl : D = 2 * 1 * d1 / (18 * 1) := by
    have e1 : HasDerivWithinAt (fun d => stokes 1 d 1) D (Set.Iic d1) d1 := by
      apply hD.hasDerivWithinAt.congr
      · intro x hx
        unfold speed
        by_cases hx' : x < d1
        · rw [if_pos hx']
        · have : x = d1 := le_antisymm hx (not_lt.mp hx')
          subst this
          rw [if_neg hx', if_neg (by unfold d1 d2; norm_num), sub_self, zero_div, middle_zero]
      · unfold speed
        rw [if_neg (lt_irrefl _), if_neg (by unfold d1 d2; norm_num), sub_self, zero_div, middle_zero]
    exact (uniqueDiffWithinAt_Iic d1).eq_deriv _ e1 (stokes_deriv 1 1 d1).hasDerivWithinAt
  have hr : D = 2 * 1 * d1 / (18 * 1) / 4 := by
    have e1 : HasDerivWithinAt (fun d => middle (stokes 1 d1 1) (form 1 d2) ((d - d1) / (d2 - d1))) D (Set.Ico d1 d2) d1 := by
      apply (hD.hasDerivWithinAt (s := Set.Ico d1 d2)).congr
      · intro x hx
        unfold speed
        rw [if_neg (not_lt.mpr hx.1), if_neg (not_le.mpr hx.2)]
      · unfold speed
        rw [if_neg (lt_irrefl _), if_neg (by unfold d1 d2; norm_num)]
    have hu : UniqueDiffWithinAt ℝ (Set.Ico d1 d2) d1 := by
      apply uniqueDiffOn_Ico d1 d2
      exact ⟨le_rfl, by unfold d1 d2; norm_num⟩
    exact hu.eq_deriv _ e1 (middle_deriv 1 1).hasDerivWithinAt
  rw [hl] at hr
  unfold d1 at hr
  norm_num at hr

/-- C246, what holds: inside the range of Stokes' law the slope is that of the law (a slope of `2 k d` for a speed of `k d²`). -/
theorem C246_partial (oil nu water d : ℝ) (v : ℝ → ℝ) (how : oil ≤ water) (hw : 0 < water) (hv : ∀ d, 0 ≤ d → rise oil d nu water = some (v d)) (h0 : 0 < d) (hd : d < d1) :
    v d = buoyancy oil water / (18 * nu) * d ^ 2 ∧ HasDerivAt v (2 * (buoyancy oil water / (18 * nu)) * d) d := by
  have hf : 0 ≤ buoyancy oil water := div_nonneg (by linarith) hw.le
  have e : ∀ x, 0 < x → x < d1 → v x = stokes (buoyancy oil water) x nu := by
    intro x hx hx'
    have h := hv x hx.le
    rw [rise, riseOf_eq _ x nu hf hx.le, Option.some.injEq] at h
    rw [← h, speed, if_pos hx']
  constructor
  · rw [e d h0 hd, stokes]
    ring
  · have h1 := (stokes_deriv (buoyancy oil water) nu d).congr_of_eventuallyEq (f₁ := v) (by
      filter_upwards [Ioo_mem_nhds h0 hd] with x hx
      exact e x hx.1 hx.2)
    exact h1.congr_deriv (by ring)

end Verif.Mover.RiseVel
