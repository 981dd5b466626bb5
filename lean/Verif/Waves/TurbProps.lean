import Verif.Waves.TurbModel
import Verif.Waves.Props
import Mathlib.Analysis.Real.Pi.Bounds
import Mathlib.Tactic.NormNum
import Mathlib.Tactic.Linarith
import Mathlib.Tactic.Positivity
import Mathlib.Tactic.FieldSimp

/-! # Turbulence and whitecaps of waves from the wind (C364) -/

namespace Verif.Waves

/-- C364 in full: waves lose energy, never gain any; whitecaps cover a part of the sea, more of it in more wind. -/
def C364_claim : Prop :=
  (∀ H U : ℝ, 0 ≤ H → 0 ≤ U → 0 ≤ turbulence H U) ∧
    ∀ U V : ℝ, 0 ≤ U → U ≤ V → 0 ≤ coverage U ∧ coverage U ≤ coverage V ∧ coverage V ≤ 100

/-- No waves or no wind: no turbulence. -/
theorem C364_calm (H U : ℝ) (h : H = 0 ∨ U = 0) : turbulence H U = 0 := if_pos h

theorem roughness_pos {H U : ℝ} (hH : 0 < H) (hU : 0 < U) : 0 < roughness H U := by
  have := g_pos
  have := Real.pi_pos
  unfold roughness peakSpeed peakFrequency
  rw [if_pos hU]
  positivity

/-- The sign of the turbulence: right as long as the roughness of the sea is less than 10 m, wrong above. -/
theorem C364_sign_partial {H U : ℝ} (hH : 0 < H) (hU : 0 < U) :
    (roughness H U < 10 → 0 < turbulence H U) ∧ (10 < roughness H U → turbulence H U < 0) := by
  have hr := roughness_pos hH hU
  have hn : ¬ (H = 0 ∨ U = 0) := by rintro (h | h) <;> linarith
  unfold turbulence
  rw [if_neg hn]
  constructor
  · intro h
    have : 0 < Real.log (10 / roughness H U) := Real.log_pos (by rw [lt_div_iff₀ hr]; linarith)
    positivity
  · intro h
    have h1 : Real.log (10 / roughness H U) < 0 := Real.log_neg (by positivity) (by rw [div_lt_iff₀ hr]; linarith)
    have h2 : 0.4 * U / Real.log (10 / roughness H U) < 0 := div_neg_of_pos_of_neg (by positivity) h1
    have h3 : (0.03 * (0.4 * U / Real.log (10 / roughness H U))) ^ 3 < 0 := by
      have h4 : 0.03 * (0.4 * U / Real.log (10 / roughness H U)) < 0 := by linarith
      exact Odd.pow_neg (by decide) h4
    exact div_neg_of_neg_of_pos (by linarith) hH

theorem steepness {H U : ℝ} (hU : 0 < U) :
    H / (2 * Real.pi * peakSpeed U) * peakFrequency U = 0.86 * g * H / (2 * Real.pi * 1.17 * U ^ 2) := by
  have := Real.pi_pos
  unfold peakSpeed peakFrequency
  rw [if_pos hU]
  field_simp

theorem stress_le {U : ℝ} (h : 0 < U) : stress U ≤ U := by
  unfold stress
  split
  · rename_i hu
    have e : ∀ x : ℝ, 0 < x → x ^ (1.23 : ℝ) = x * x ^ (0.23 : ℝ) := fun x hx => by
      rw [show (1.23 : ℝ) = 1 + 0.23 by norm_num, Real.rpow_add hx, Real.rpow_one]
    have hm := meet
    rw [e uT uT_pos] at hm
    rw [e U h]
    have h1 : 0.71 * uT ^ (0.23 : ℝ) ≤ 1 := by
      have := uT_pos
      by_contra hc
      push Not at hc
      have : uT * 1 < uT * (0.71 * uT ^ (0.23 : ℝ)) := by gcongr
      linarith
    have h2 : U ^ (0.23 : ℝ) ≤ uT ^ (0.23 : ℝ) := Real.rpow_le_rpow h.le hu.le (by norm_num)
    calc 0.71 * (U * U ^ (0.23 : ℝ)) = U * (0.71 * U ^ (0.23 : ℝ)) := by ring
      _ ≤ U * 1 := by gcongr; linarith
      _ = U := mul_one U
  · exact le_refl U

theorem sig_le {U : ℝ} (h : 0 < U) (f : Option ℝ) (hf : ∀ x, f = some x → 0 ≤ x) : sigHeight U f ≤ full U := by
  have hs := stress_nonneg h.le
  have hm : full (stress U) ≤ full U := full_mono hs (stress_le h)
  cases f with
  | none => exact hm
  | some x =>
    unfold sigHeight
    simp only
    split
    · rename_i hx
      exact le_trans (limited_le (hf x rfl) hs hx.le) hm
    · exact hm

/-- The waves that the model computes from a wind: not rougher than 10 m, so they lose energy in any wind and for any fetch. -/
theorem C364_waves_partial {U : ℝ} (hU : 0 < U) (f : Option ℝ) (hf : ∀ x, f = some x → 0 ≤ x) :
    0 ≤ turbulence (waveHeight U f) U ∧ (0 < waveHeight U f → 0 < turbulence (waveHeight U f) U) := by
  have hr := C128_range hU.le f
  have key : 0 < waveHeight U f → 0 < turbulence (waveHeight U f) U := by
    intro h
    refine (C364_sign_partial h hU).1 ?_
    have hg := g_pos
    have hpi := Real.pi_gt_three
    have hH : waveHeight U f ≤ 0.707 * full U := le_trans (min_le_left _ _) (by have := sig_le hU f hf; linarith)
    have hx : waveHeight U f / (2 * Real.pi * peakSpeed U) * peakFrequency U ≤ 1 / 16 := by
      rw [steepness hU, div_le_iff₀ (by positivity)]
      have h1 : 0.86 * g * waveHeight U f ≤ 0.86 * g * (0.707 * full U) := by gcongr
      have h2 : 0.86 * g * (0.707 * full U) = 0.86 * 0.707 * 0.243 * U ^ 2 := by unfold full; field_simp
      have h3 : 2 * 3 * 1.17 * U ^ 2 ≤ 2 * Real.pi * 1.17 * U ^ 2 := by gcongr
      have h4 : 0 ≤ U ^ 2 := by positivity
      linarith
    have hx0 : 0 ≤ waveHeight U f / (2 * Real.pi * peakSpeed U) * peakFrequency U := by
      rw [steepness hU]; positivity
    have hp : (waveHeight U f / (2 * Real.pi * peakSpeed U) * peakFrequency U) ^ (4.5 : ℝ) ≤ 1 / 262144 := by
      calc _ ≤ (1 / 16 : ℝ) ^ (4.5 : ℝ) := Real.rpow_le_rpow hx0 hx (by norm_num)
        _ = 1 / 262144 := by
          rw [show (1 / 16 : ℝ) = (1 / 4) ^ (2 : ℝ) by norm_num, ← Real.rpow_mul (by norm_num)]
          rw [show (2 * 4.5 : ℝ) = ((9 : ℕ) : ℝ) by norm_num, Real.rpow_natCast]
          norm_num
    have hp0 : 0 ≤ (waveHeight U f / (2 * Real.pi * peakSpeed U) * peakFrequency U) ^ (4.5 : ℝ) := Real.rpow_nonneg hx0 _
    unfold roughness
    calc 1200 * waveHeight U f * _ ≤ 1200 * 30 * (1 / 262144) := by
          have := hr.2
          gcongr
      _ < 10 := by norm_num
  refine ⟨?_, key⟩
  rcases hr.1.eq_or_lt with h | h
  · rw [C364_calm _ _ (.inl h.symm)]
  · exact (key h).le

/-- Waves of one metre in a wind of one metre per second gain energy. -/
theorem C364_counterexample_turbulence : turbulence 1 1 < 0 := by
  refine (C364_sign_partial one_pos one_pos).2 ?_
  have hx : 1 ≤ (1 : ℝ) / (2 * Real.pi * peakSpeed 1) * peakFrequency 1 := by
    rw [steepness one_pos, le_div_iff₀ (by have := Real.pi_pos; positivity)]
    have := Real.pi_lt_d2
    unfold g
    norm_num
    linarith
  have : 1 ≤ ((1 : ℝ) / (2 * Real.pi * peakSpeed 1) * peakFrequency 1) ^ (4.5 : ℝ) := Real.one_le_rpow hx (by norm_num)
  unfold roughness
  linarith

theorem drag_nonneg {U : ℝ} (h : 0 ≤ U) : 0 ≤ drag U := by
  unfold drag
  split <;> positivity

theorem drag_low (x : ℝ) : (0.0008 + 2.4 * 0.000065) * x / 2.4 = 239 / 600000 * x := by norm_num; ring

theorem drag_mono {U V : ℝ} (h : U ≤ V) : drag U ≤ drag V := by
  unfold drag
  rw [drag_low, drag_low]
  split <;> split <;> norm_num at * <;> linarith

/-- No jump where the two laws meet. -/
theorem C364_drag (U V : ℝ) : |drag U - drag V| ≤ 0.0004 * |U - V| := by
  wlog h : U ≤ V
  · rw [abs_sub_comm, abs_sub_comm U V]; exact this V U (le_of_not_ge h)
  have hm := drag_mono h
  rw [abs_of_nonpos (by linarith), abs_of_nonpos (by linarith)]
  unfold drag
  rw [drag_low, drag_low]
  split <;> split <;> norm_num at * <;> linarith

/-- C364, what holds of the whitecaps: never negative, none without wind, more in more wind. -/
theorem C364_whitecaps_partial {U V : ℝ} (h0 : 0 ≤ U) (h : U ≤ V) : coverage 0 = 0 ∧ 0 ≤ coverage U ∧ coverage U ≤ coverage V := by
  have hg := g_pos
  have hc : ∀ x : ℝ, 0 ≤ x → 0 ≤ coverage x := by
    intro x hx
    unfold coverage peakFrequency
    split
    · exact le_refl _
    · have := drag_nonneg hx
      split <;> positivity
  refine ⟨by simp [coverage], hc U h0, ?_⟩
  rcases h0.eq_or_lt with hu | hu
  · rw [← hu]
    rw [show coverage 0 = 0 by simp [coverage]]
    exact hc V (by linarith)
  · have hv : 0 < V := lt_of_lt_of_le hu h
    unfold coverage peakFrequency
    rw [if_neg hu.ne', if_neg hv.ne', if_pos hu, if_pos hv]
    have hd := drag_nonneg hu.le
    have hd' := drag_mono h
    have hdv := drag_nonneg hv.le
    gcongr ?_ * ?_ ^ _
    · have h1 : drag U * U ^ 2 ≤ drag V * V ^ 2 := by gcongr
      have h2 : 0.86 * g / V ≤ 0.86 * g / U := by gcongr
      gcongr

/-- In a wind of 50 m/s more than the whole sea is covered. -/
theorem C364_counterexample_whitecaps : 100 < coverage 50 := by
  unfold coverage peakFrequency drag
  rw [if_neg (by norm_num), if_pos (by norm_num), if_pos (by norm_num)]
  have hR : (4000000 : ℝ) ≤ (0.0008 + 0.000065 * 50) * 50 ^ 2 / (1.5 * 10 ^ (-5 : ℤ) * (0.86 * g / 50)) := by
    unfold g
    rw [le_div_iff₀ (by norm_num)]
    norm_num
  have h1 := Real.self_le_rpow_of_one_le (le_trans (by norm_num) hR) (show (1 : ℝ) ≤ 1.09 by norm_num)
  have h2 : (4000000 : ℝ) ≤ ((0.0008 + 0.000065 * 50) * 50 ^ 2 / (1.5 * 10 ^ (-5 : ℤ) * (0.86 * g / 50))) ^ (1.09 : ℝ) := le_trans hR h1
  have h3 : (3.88 * 10 ^ (-5 : ℤ) : ℝ) * 4000000 ≤
      3.88 * 10 ^ (-5 : ℤ) * ((0.0008 + 0.000065 * 50) * 50 ^ 2 / (1.5 * 10 ^ (-5 : ℤ) * (0.86 * g / 50))) ^ (1.09 : ℝ) := by
    gcongr
  have h4 : (100 : ℝ) < 3.88 * 10 ^ (-5 : ℤ) * 4000000 := by norm_num
  linarith

theorem C364_counterexample : ¬ C364_claim := by
  intro h
  have := h.1 1 1 zero_le_one zero_le_one
  have := C364_counterexample_turbulence
  linarith

/-- The theorem about the waves of the model is not about calm water: 10 m/s raise waves. -/
example : 0 < waveHeight 10 none := by
  unfold waveHeight
  rw [sig_none, stress_big (by unfold uT; norm_num)]
  unfold full g
  norm_num

end Verif.Waves
