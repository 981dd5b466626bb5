import Verif.Waves.Model
import Mathlib.Tactic.Linarith
import Mathlib.Tactic.NormNum
import Mathlib.Tactic.Positivity
import Mathlib.Tactic.FieldSimp
import Mathlib.Tactic.Ring
import Mathlib.Topology.Algebra.Order.Field
import Mathlib.Topology.Order.MonotoneContinuity
import Mathlib.Topology.Piecewise
/-!
# C127 waves by height and by wind; C128 more wind or fetch, higher waves; C129 whitecaps and the wind for emulsification
-/
namespace Verif.Waves

theorem g_pos : 0 < g := by unfold g; norm_num

theorem uT_pos : 0 < uT := by unfold uT; norm_num

/-- the two laws of the stress factor meet at `uT` (from below) -/
theorem meet : 0.71 * uT ^ (1.23 : ℝ) ≤ uT := by
  have e : uT ^ (1.23 : ℝ) = uT * uT ^ (0.23 : ℝ) := by
    have : (1.23 : ℝ) = 1 + 0.23 := by norm_num
    rw [this, Real.rpow_add uT_pos, Real.rpow_one]
  have h : uT ^ (0.23 : ℝ) ≤ 100 / 71 := by
    have e1 : uT ^ (0.23 : ℝ) = (uT ^ (23 : ℕ)) ^ ((1 : ℝ) / 100) := by
      rw [← Real.rpow_natCast, ← Real.rpow_mul uT_pos.le]
      norm_num
    have e2 : (100 / 71 : ℝ) = ((100 / 71 : ℝ) ^ (100 : ℕ)) ^ ((1 : ℝ) / 100) := by
      rw [← Real.rpow_natCast, ← Real.rpow_mul (by norm_num)]
      norm_num
    rw [e1, e2]
    apply Real.rpow_le_rpow (by have := uT_pos; positivity) _ (by norm_num)
    unfold uT
    norm_num
  rw [e]
  have := mul_le_mul_of_nonneg_left h uT_pos.le
  linarith

theorem stress_nonneg {U : ℝ} (h : 0 ≤ U) : 0 ≤ stress U := by
  unfold stress
  split
  · positivity
  · exact h

theorem stress_mono {U V : ℝ} (h0 : 0 ≤ U) (h : U ≤ V) : stress U ≤ stress V := by
  unfold stress
  split <;> split
  · have := Real.rpow_le_rpow h0 h (show (0 : ℝ) ≤ 1.23 by norm_num)
    linarith
  · rename_i h1 h2
    have := Real.rpow_le_rpow h0 h1.le (show (0 : ℝ) ≤ 1.23 by norm_num)
    have := meet
    linarith
  · rename_i h1 h2
    exact absurd (h.trans_lt h2) h1
  · exact h

theorem stress_big {U : ℝ} (h : uT ≤ U) : stress U = U := by
  unfold stress
  rw [if_neg (not_lt.2 h)]

/-! ### C128 -/

/-- the height without limit of fetch -/
noncomputable def full (s : ℝ) : ℝ := 0.243 * s * s / g

theorem full_mono {s t : ℝ} (h0 : 0 ≤ s) (h : s ≤ t) : full s ≤ full t := by
  unfold full
  apply div_le_div_of_nonneg_right _ g_pos.le
  nlinarith

/-- in the limited case the height is at most that without limit, and near the limit at least 98 % of it -/
theorem limited_le {f s : ℝ} (_hf : 0 ≤ f) (hs : 0 ≤ s) (h : f ≤ 2268 * s ^ 2) :
    0.0016 * Real.sqrt (f / g) * s ≤ full s := by
  have h1 : Real.sqrt (f / g) ≤ 15.3 * s := by
    apply Real.sqrt_le_iff.2
    refine ⟨by positivity, ?_⟩
    rw [div_le_iff₀ g_pos]
    unfold g
    nlinarith [sq_nonneg s]
  have h2 : 0.0016 * Real.sqrt (f / g) * s ≤ 0.0016 * (15.3 * s) * s := by
    apply mul_le_mul_of_nonneg_right _ hs
    linarith
  have h3 : 0.0016 * (15.3 * s) * s ≤ full s := by
    unfold full
    rw [le_div_iff₀ g_pos]
    unfold g
    nlinarith [mul_nonneg hs hs]
  linarith

theorem limited_ge {f s : ℝ} (hs : 0 ≤ s) (h : 2268 * s ^ 2 ≤ f) :
    0.98 * full s ≤ 0.0016 * Real.sqrt (f / g) * s := by
  have hf : 0 ≤ f := le_trans (by positivity) h
  have h1 : 15.2 * s ≤ Real.sqrt (f / g) := by
    apply Real.le_sqrt_of_sq_le
    rw [le_div_iff₀ g_pos]
    unfold g
    nlinarith [sq_nonneg s]
  have h2 : 0.0016 * (15.2 * s) * s ≤ 0.0016 * Real.sqrt (f / g) * s := by
    apply mul_le_mul_of_nonneg_right _ hs
    linarith
  have h3 : 0.98 * full s ≤ 0.0016 * (15.2 * s) * s := by
    unfold full
    have : 0.98 * (0.243 * s * s / g) = 0.23814 * (s * s) / g := by ring
    rw [this, div_le_iff₀ g_pos]
    unfold g
    nlinarith [mul_nonneg hs hs]
  linarith

theorem sig_none (U : ℝ) : sigHeight U none = full (stress U) := rfl

theorem sig_nonneg {U : ℝ} (h : 0 ≤ U) (f : Option ℝ) : 0 ≤ sigHeight U f := by
  have hs := stress_nonneg h
  have hg := g_pos
  unfold sigHeight
  cases f with
  | none => simp only; positivity
  | some f => simp only; split <;> positivity

/-- Wave heights are between 0 and 30 m. -/
theorem C128_range {U : ℝ} (h : 0 ≤ U) (f : Option ℝ) : 0 ≤ waveHeight U f ∧ waveHeight U f ≤ 30 := by
  unfold waveHeight
  have := sig_nonneg h f
  exact ⟨le_min (by positivity) (by norm_num), min_le_right _ _⟩

/-- Without a limit of fetch, more wind makes no lower waves. -/
theorem C128_wind {U V : ℝ} (h0 : 0 ≤ U) (h : U ≤ V) : waveHeight U none ≤ waveHeight V none := by
  unfold waveHeight
  rw [sig_none, sig_none]
  have := full_mono (stress_nonneg h0) (stress_mono h0 h)
  exact min_le_min (by linarith) (le_refl _)

/-- A longer fetch makes no lower waves, and no fetch higher ones than an unlimited one. -/
theorem C128_fetch {U f f' : ℝ} (h0 : 0 ≤ U) (hf : 0 ≤ f) (h : f ≤ f') :
    waveHeight U (some f) ≤ waveHeight U (some f') ∧ waveHeight U (some f') ≤ waveHeight U none := by
  have hs := stress_nonneg h0
  have key : sigHeight U (some f) ≤ sigHeight U (some f') ∧ sigHeight U (some f') ≤ sigHeight U none := by
    rw [sig_none]
    unfold sigHeight
    simp only
    constructor
    · split <;> split
      · apply mul_le_mul_of_nonneg_right _ hs
        have := Real.sqrt_le_sqrt (div_le_div_of_nonneg_right h g_pos.le)
        linarith
      · rename_i h1 h2
        exact limited_le hf hs h1.le
      · rename_i h1 h2
        exact absurd (h.trans_lt h2) h1
      · exact le_refl _
    · split
      · rename_i h1
        exact limited_le (hf.trans h) hs h1.le
      · exact le_refl _
  unfold waveHeight
  exact ⟨min_le_min (by linarith [key.1]) (le_refl _), min_le_min (by linarith [key.2]) (le_refl _)⟩

/-- the full claim: more wind makes no lower waves, for any fetch -/
def C128_claim : Prop := ∀ (U V : ℝ) (f : Option ℝ), 0 ≤ U → (∀ x, f = some x → 0 ≤ x) → U ≤ V →
  waveHeight U f ≤ waveHeight V f

/-- What holds for any fetch: the waves of a stronger wind are at least 98 % as high. -/
theorem C128_wind_partial {U V : ℝ} (f : ℝ) (h0 : 0 ≤ U) (h : U ≤ V) :
    0.98 * waveHeight U (some f) ≤ waveHeight V (some f) := by
  have hs := stress_nonneg h0
  have hst := stress_mono h0 h
  have key : 0.98 * sigHeight U (some f) ≤ sigHeight V (some f) := by
    have hU := sig_nonneg h0 (some f)
    unfold sigHeight at hU ⊢
    simp only at hU ⊢
    by_cases h1 : f < 2268 * stress U ^ 2
    · have h2 : f < 2268 * stress V ^ 2 := by nlinarith
      rw [if_pos h1, if_pos h2]
      rw [if_pos h1] at hU
      have : 0.0016 * Real.sqrt (f / g) * stress U ≤ 0.0016 * Real.sqrt (f / g) * stress V :=
        mul_le_mul_of_nonneg_left hst (by positivity)
      linarith
    · rw [if_neg h1]
      by_cases h2 : f < 2268 * stress V ^ 2
      · rw [if_pos h2]
        have := limited_ge hs (not_lt.1 h1)
        have h3 : 0.0016 * Real.sqrt (f / g) * stress U ≤ 0.0016 * Real.sqrt (f / g) * stress V :=
          mul_le_mul_of_nonneg_left hst (by positivity)
        unfold full at this
        linarith
      · rw [if_neg h2]
        have := full_mono hs hst
        have h0' : 0 ≤ full (stress U) := by
          have := g_pos
          unfold full
          positivity
        unfold full at this h0'
        linarith
  unfold waveHeight
  refine le_min ?_ ?_
  · have := min_le_left (0.707 * sigHeight U (some f)) 30
    linarith
  · have := min_le_right (0.707 * sigHeight U (some f)) 30
    linarith

/-- False: with a fetch of 226.8 km, a little more wind than 10 m/s makes lower waves. -/
theorem C128_counterexample : ¬ C128_claim := by
  intro h
  have h1 := h 10 10.01 (some 226800) (by norm_num) (by intro x hx; cases hx; norm_num) (by norm_num)
  have s1 : stress 10 = 10 := stress_big (by unfold uT; norm_num)
  have s2 : stress 10.01 = 10.01 := stress_big (by unfold uT; norm_num)
  have e1 : sigHeight 10 (some 226800) = 24.3 / g := by
    unfold sigHeight
    simp only [s1]
    rw [if_neg (by norm_num)]
    norm_num
  have e2 : sigHeight 10.01 (some 226800) ≤ 0.0016 * 152.1 * 10.01 := by
    unfold sigHeight
    simp only [s2]
    rw [if_pos (by norm_num)]
    have : Real.sqrt (226800 / g) ≤ 152.1 := by
      apply Real.sqrt_le_iff.2
      refine ⟨by norm_num, ?_⟩
      unfold g
      norm_num
    have := mul_le_mul_of_nonneg_left this (show (0 : ℝ) ≤ 0.0016 by norm_num)
    exact mul_le_mul_of_nonneg_right this (by norm_num)
  have e3 : (2.477 : ℝ) ≤ 24.3 / g := by unfold g; norm_num
  have e4 : (24.3 : ℝ) / g ≤ 2.48 := by unfold g; norm_num
  unfold waveHeight at h1
  rw [e1, min_eq_left (by linarith)] at h1
  have := h1.trans (min_le_left _ _)
  have : (0.707 : ℝ) * 2.477 ≤ 0.707 * (0.0016 * 152.1 * 10.01) := by linarith
  norm_num at this

/-! ### C127 -/

/-- A wind of at least 4.43 m/s is recovered from the height of its waves (the significant height, before the factor 0.707). -/
theorem C127_pseudo {U : ℝ} (h : uT ≤ U) : pseudoWind (sigHeight U none) = U := by
  have hU : 0 ≤ U := uT_pos.le.trans h
  have e : Real.sqrt (g * sigHeight U none / 0.243) = U := by
    rw [sig_none, stress_big h]
    have : g * full U / 0.243 = U ^ 2 := by
      unfold full
      have := g_pos.ne'
      field_simp
    rw [this, Real.sqrt_sq hU]
  unfold pseudoWind
  simp only [e]
  rw [if_neg (not_lt.2 h)]

/-- the full claim: giving the height of the waves of a wind is giving the wind (where the height is not cut at 30 m) -/
def C127_claim : Prop := ∀ (U V s : ℝ), uT ≤ U → 0.707 * sigHeight U none ≤ 30 →
  getValue ⟨some (sigHeight U none), none, s⟩ V = getValue ⟨none, none, s⟩ U

/-- What holds: heights and whitecaps agree, whatever the actual wind. -/
theorem C127_height_partial (U V s : ℝ) (h : uT ≤ U) (h30 : 0.707 * sigHeight U none ≤ 30) :
    (getValue ⟨some (sigHeight U none), none, s⟩ V).height = (getValue ⟨none, none, s⟩ U).height ∧
    (getValue ⟨some (sigHeight U none), none, s⟩ V).whitecaps = (getValue ⟨none, none, s⟩ U).whitecaps := by
  unfold getValue
  simp only
  refine ⟨?_, ?_⟩
  · unfold waveHeight
    rw [min_eq_left h30]
  · rw [C127_pseudo h]

/-- A height given is used for every element whatever the wind, and no other output depends on the wind then. -/
theorem C127_given (h s : ℝ) (f : Option ℝ) (U V : ℝ) : getValue ⟨some h, f, s⟩ U = getValue ⟨some h, f, s⟩ V := rfl

/-- the period of waves given by their height goes with the square root of the height -/
theorem C127_period (h s U : ℝ) (f : Option ℝ) :
    (getValue ⟨some (4 * h), f, s⟩ U).period = 2 * (getValue ⟨some h, f, s⟩ U).period := by
  unfold getValue meanPeriod
  simp only
  have : Real.sqrt (4 * h) = 2 * Real.sqrt h := by
    rw [Real.sqrt_mul (show (0 : ℝ) ≤ 4 by norm_num)]
    congr 1
    rw [Real.sqrt_eq_iff_mul_self_eq (by norm_num) (by norm_num)]
    norm_num
  rw [this]
  ring

/-- False for the period: at 10 m/s it is over 58 s by the wind and under 16 s by the height of the same waves. -/
theorem C127_counterexample : ¬ C127_claim := by
  intro h
  have hu : uT ≤ 10 := by unfold uT; norm_num
  have e0 : sigHeight 10 none = 24.3 / g := by
    rw [sig_none, stress_big hu]
    unfold full
    norm_num
  have b : (24.3 : ℝ) / g ≤ 4 := by unfold g; norm_num
  have := h 10 0 35 hu (by rw [e0]; linarith)
  have hp := congrArg Out.period this
  unfold getValue meanPeriod at hp
  simp only at hp
  rw [e0] at hp
  have h1 : Real.sqrt (24.3 / g) ≤ 2 := by
    apply Real.sqrt_le_iff.2
    exact ⟨by norm_num, by linarith⟩
  have h2 : (10 : ℝ) ≤ 10 ^ (1.23 : ℝ) := by
    calc (10 : ℝ) = 10 ^ (1 : ℝ) := (Real.rpow_one _).symm
      _ ≤ 10 ^ (1.23 : ℝ) := Real.rpow_le_rpow_of_exponent_le (by norm_num) (by norm_num)
  linarith

/-- The period of wind waves is far from the 15.7 s at 32 m/s that the comment in the code gives: over ten minutes. -/
theorem C127_comment : 600 < meanPeriod 32 none none := by
  unfold meanPeriod
  simp only
  have : (32 : ℝ) ≤ 32 ^ (1.23 : ℝ) := by
    calc (32 : ℝ) = 32 ^ (1 : ℝ) := (Real.rpow_one _).symm
      _ ≤ 32 ^ (1.23 : ℝ) := Real.rpow_le_rpow_of_exponent_le (by norm_num) (by norm_num)
  linarith

/-- The energy taken from breaking waves goes with the square of their height and is never negative. -/
theorem C127_energy {rho : ℝ} (h : 0 ≤ rho) (c H : ℝ) : energy rho (c * H) = c ^ 2 * energy rho H ∧ 0 ≤ energy rho H := by
  unfold energy
  have := g_pos
  exact ⟨by ring, by positivity⟩

/-! ### C129 -/

theorem decay_pos {s : ℝ} (h : 0 ≤ s) : 2.54 ≤ decay s := by
  unfold decay
  linarith [mul_nonneg (show (0 : ℝ) ≤ 0.03742857 by norm_num) h]

/-- The decay constants are the documented ones: 2.54 s in fresh water and 3.85 s in sea water (35 psu). -/
theorem C129_decay : decay 0 = 2.54 ∧ |decay 35 - 3.85| < 0.00001 := by
  unfold decay
  norm_num [abs_lt]

/-- Whitecaps cover a fraction between 0 and 1. -/
theorem C129_range {U s : ℝ} (hU : 0 ≤ U) (hs : 0 ≤ s) : 0 ≤ whitecap U s ∧ whitecap U s ≤ 1 := by
  have := decay_pos hs
  unfold whitecap
  refine ⟨le_min ?_ (by norm_num), min_le_right _ _⟩
  split
  · have : 0 ≤ (0.0125 * U) / decay s := div_nonneg (by positivity) (by linarith)
    linarith
  · have : 0 ≤ (0.01 * U + 0.01) / decay s := div_nonneg (by positivity) (by linarith)
    linarith

/-- More wind never makes fewer whitecaps. -/
theorem C129_wind {U V s : ℝ} (h : U ≤ V) (hs : 0 ≤ s) : whitecap U s ≤ whitecap V s := by
  have hd := decay_pos hs
  unfold whitecap
  apply min_le_min _ (le_refl _)
  apply mul_le_mul_of_nonneg_left _ (by norm_num)
  split <;> split
  · apply div_le_div_of_nonneg_right _ (by linarith); linarith
  · apply div_le_div_of_nonneg_right _ (by linarith); linarith
  · rename_i h1 h2
    exact absurd (h.trans_lt h2) h1
  · apply div_le_div_of_nonneg_right _ (by linarith); linarith

/-- Saltier water has fewer whitecaps... -/
theorem C129_salt {U s s' : ℝ} (hU : 0 ≤ U) (hs : 0 ≤ s) (h : s ≤ s') : whitecap U s' ≤ whitecap U s := by
  have hd := decay_pos hs
  have hd' : decay s ≤ decay s' := by
    unfold decay
    linarith [mul_le_mul_of_nonneg_left h (show (0 : ℝ) ≤ 0.03742857 by norm_num)]
  unfold whitecap
  apply min_le_min _ (le_refl _)
  apply mul_le_mul_of_nonneg_left _ (by norm_num)
  split
  · exact div_le_div_of_nonneg_left (by positivity) (by linarith) hd'
  · exact div_le_div_of_nonneg_left (by positivity) (by linarith) hd'

/-- A little more wind makes few more whitecaps: there is no jump at 4 m/s. -/
theorem C129_no_jump {U V s : ℝ} (hs : 0 ≤ s) : |whitecap U s - whitecap V s| ≤ 0.0025 * |U - V| := by
  wlog h : V ≤ U generalizing U V with H
  · rw [abs_sub_comm, abs_sub_comm U V]
    exact H (le_of_not_ge h)
  have hm := C129_wind h hs
  rw [abs_of_nonneg (by linarith), abs_of_nonneg (by linarith)]
  have hd := decay_pos hs
  have key : ∀ x y : ℝ, y ≤ x → x - y ≤ 0.0025 * (U - V) → min x 1 - min y 1 ≤ 0.0025 * (U - V) := by
    intro x y hxy hk
    rcases le_total y 1 with h1 | h1
    · rw [min_eq_left h1]
      linarith [min_le_left x 1]
    · rw [min_eq_right h1, min_eq_right (h1.trans hxy)]
      simp only [sub_self]
      linarith
  unfold whitecap at hm ⊢
  have b : ∀ a : ℝ, 0 ≤ a → a / decay s ≤ a / 2.54 := fun a ha => div_le_div_of_nonneg_left ha (by norm_num) hd
  have inv : 0 < decay s := by linarith
  split <;> split
  · refine key _ _ ?_ ?_
    · apply mul_le_mul_of_nonneg_left _ (by norm_num)
      apply div_le_div_of_nonneg_right _ inv.le; linarith
    · rw [← mul_sub, ← sub_div]
      have := b (0.0125 * U - 0.0125 * V) (by linarith)
      have e : (0.0125 * U - 0.0125 * V) / 2.54 ≤ 0.005 * (U - V) := by
        rw [div_le_iff₀ (by norm_num)]; linarith
      linarith
  · rename_i h1 h2
    exact absurd (h.trans_lt h1) (by assumption)
  · rename_i h1 h2
    push Not at h1
    refine key _ _ ?_ ?_
    · apply mul_le_mul_of_nonneg_left _ (by norm_num)
      apply div_le_div_of_nonneg_right _ inv.le; linarith
    · rw [← mul_sub, ← sub_div]
      have := b (0.01 * U + 0.01 - 0.0125 * V) (by linarith)
      have e : (0.01 * U + 0.01 - 0.0125 * V) / 2.54 ≤ 0.005 * (U - V) := by
        rw [div_le_iff₀ (by norm_num)]; linarith
      linarith
  · refine key _ _ ?_ ?_
    · apply mul_le_mul_of_nonneg_left _ (by norm_num)
      apply div_le_div_of_nonneg_right _ inv.le; linarith
    · rw [← mul_sub, ← sub_div]
      have := b (0.01 * U + 0.01 - (0.01 * V + 0.01)) (by linarith)
      have e : (0.01 * U + 0.01 - (0.01 * V + 0.01)) / 2.54 ≤ 0.005 * (U - V) := by
        rw [div_le_iff₀ (by norm_num)]; linarith
      linarith

/-- The wind used for emulsification is the greater of the actual wind and the one that would raise the waves given. -/
theorem C129_emulsification (f : Option ℝ) (s U : ℝ) :
    emulsWind ⟨none, f, s⟩ U = U ∧ ∀ h, emulsWind ⟨some h, f, s⟩ U = max U (pseudoWind h) := by
  refine ⟨rfl, fun h => ?_⟩
  unfold emulsWind
  simp only
  split
  · rename_i h1; rw [max_eq_right h1.le]
  · rename_i h1; rw [max_eq_left (not_lt.1 h1)]

/-! concrete cases -/
example : waveHeight 5 none ≤ waveHeight 12 none := C128_wind (by norm_num) (by norm_num)
example : waveHeight 12 (some 1000) ≤ waveHeight 12 (some 5000) := (C128_fetch (by norm_num) (by norm_num) (by norm_num)).1
example : pseudoWind (sigHeight 9 none) = 9 := C127_pseudo (by unfold uT; norm_num)
example : whitecap 3 35 ≤ whitecap 5 35 := C129_wind (by norm_num) (by norm_num)

end Verif.Waves
