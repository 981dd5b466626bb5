import Verif.NatWeath.EvapModel
import Mathlib.Tactic.Linarith
import Mathlib.Tactic.Ring
import Mathlib.Tactic.FieldSimp
import Mathlib.Analysis.Complex.ExponentialBounds
import Mathlib.Algebra.Order.BigOperators.Group.List

/-!
# C219, C220: how fast oil evaporates
-/
namespace Verif.NatWeath.Evap
open Verif.NatWeath

/-! ### vapour pressure -/

theorem log_upper (b : ℝ) (h : 0 < b) : Real.log b ≤ b / 256 + 4.5453 := by
  have h1 : Real.log b = Real.log (b / 256) + 8 * Real.log 2 := by
    rw [Real.log_div h.ne' (by norm_num), show (256 : ℝ) = 2 ^ 8 by norm_num, Real.log_pow]
    push_cast
    ring
  have h2 := Real.log_le_sub_one_of_pos (show 0 < b / 256 by positivity)
  have h3 := Real.log_two_lt_d9
  rw [h1]
  linarith

theorem log_lower (b : ℝ) (h : 150 ≤ b) : 4.8 ≤ Real.log b := by
  have h1 : Real.log 128 ≤ Real.log b := Real.log_le_log (by norm_num) (by linarith)
  have h2 : Real.log 128 = 7 * Real.log 2 := by
    rw [show (128 : ℝ) = 2 ^ 7 by norm_num, Real.log_pow]
    push_cast
    ring
  have h3 := Real.log_two_gt_d9
  linarith

theorem ds_lower (b : ℝ) (h : 150 ≤ b) : 18 ≤ ds b := by
  have := log_lower b h
  unfold ds
  linarith

/-- the exponent as product of two factors -/
noncomputable def fac (b : ℝ) : ℝ := ds b * (0.81 + 18 / b) / 1.92739
noncomputable def gap (b T : ℝ) : ℝ := (T - b) / (T - c2 b)

theorem vapor_eq (b T : ℝ) (hb : 150 ≤ b) (hT : c2 b < T) : vapor b T = Real.exp (fac b * gap b T) * 101325 := by
  unfold vapor fac gap
  congr 2
  have h1 : 0 < b := by linarith
  have h2 : 0 < b - c2 b := by unfold c2; linarith
  have h3 : 0 < T - c2 b := by linarith
  have h4 : (0.81 + 18 / b) = (b - c2 b) / b := by
    unfold c2
    field_simp
    ring
  rw [h4]
  field_simp
  ring

theorem gap_anti (a b T : ℝ) (hT : 0 < T) (hab : a ≤ b) (h : c2 b < T) : gap b T ≤ gap a T := by
  have h1 : c2 a ≤ c2 b := by unfold c2; linarith
  have h2 : 0 < T - c2 b := by linarith
  have h3 : 0 < T - c2 a := by linarith
  unfold gap
  rw [div_le_div_iff₀ h2 h3]
  unfold c2 at *
  nlinarith

theorem fac_pos (b : ℝ) (h : 150 ≤ b) : 0 < fac b := by
  have := ds_lower b h
  unfold fac
  have : 0 < b := by linarith
  positivity

theorem fac_mono (a b : ℝ) (ha : 250 ≤ a) (hab : a ≤ b) : fac a ≤ fac b := by
  have hA : 0 < a := by linarith
  have hB : 0 < b := by linarith
  have h1 : 1 - a / b ≤ Real.log b - Real.log a := by
    rw [← Real.log_div hB.ne' hA.ne']
    have := Real.one_sub_inv_le_log_of_pos (show 0 < b / a by positivity)
    rwa [inv_div] at this
  have h2 := log_upper a hA
  have hlog : 0 ≤ Real.log a := Real.log_nonneg (by linarith)
  unfold fac
  apply div_le_div_of_nonneg_right _ (by norm_num)
  unfold ds
  set x := 1 / a - 1 / b with hx
  have hx0 : 0 ≤ x := by
    rw [hx, sub_nonneg]
    exact one_div_le_one_div_of_le hA hab
  have e1 : 1 - a / b = a * x := by rw [hx]; field_simp
  have e2 : 18 / a = 18 * (1 / b) + 18 * x := by rw [hx]; ring
  have e3 : 18 / b = 18 * (1 / b) := by ring
  rw [e2, e3]
  rw [e1] at h1
  have hib : 0 < 1 / b := by positivity
  set L := Real.log a with hL
  set M := Real.log b with hM
  have hd : 0 ≤ M - L := le_trans (mul_nonneg hA.le hx0) h1
  have k1 : 0 ≤ (M - L) * (1 / b) := mul_nonneg hd hib.le
  have k2 : (1.987 * L + 8.75) * 18 * x ≤ 1.987 * 0.81 * (a * x) := by
    have : (1.987 * L + 8.75) * 18 ≤ 1.987 * 0.81 * a := by linarith
    calc (1.987 * L + 8.75) * 18 * x ≤ 1.987 * 0.81 * a * x := mul_le_mul_of_nonneg_right this hx0
      _ = 1.987 * 0.81 * (a * x) := by ring
  nlinarith

theorem prod_anti (a b T : ℝ) (ha : 150 ≤ a) (hT : 250 ≤ T) (hT' : T ≤ 1000) (hab : a ≤ b) (h : c2 b < T) : fac b * gap b T ≤ fac a * gap a T := by
  have hA : 0 < a := by linarith
  have hB : 0 < b := by linarith
  have hca : c2 a < T := by unfold c2 at *; linarith
  have hg := gap_anti a b T (by linarith) hab h
  have h2 : 0 < T - c2 b := by linarith
  have h3 : 0 < T - c2 a := by linarith
  have hfa := fac_pos a ha
  have hfb := fac_pos b (by linarith)
  by_cases h4 : T ≤ b
  · have hgb : gap b T ≤ 0 := div_nonpos_of_nonpos_of_nonneg (by linarith) h2.le
    by_cases h5 : T ≤ a
    · have hf := fac_mono a b (by linarith) hab
      have hga : gap a T ≤ 0 := div_nonpos_of_nonpos_of_nonneg (by linarith) h3.le
      nlinarith
    · have hga : 0 ≤ gap a T := div_nonneg (by linarith) h3.le
      exact le_trans (mul_nonpos_of_nonneg_of_nonpos hfb.le hgb) (mul_nonneg hfa.le hga)
  · push Not at h4
    have hdsa := ds_lower a ha
    have hd : 0 ≤ b - a := by linarith
    -- the first factor grows slowly
    have hlog : Real.log b - Real.log a ≤ (b - a) / a := by
      rw [← Real.log_div hB.ne' hA.ne']
      have := Real.log_le_sub_one_of_pos (show 0 < b / a by positivity)
      have e : b / a - 1 = (b - a) / a := by field_simp
      linarith
    have hds : ds b ≤ ds a * (1 + 0.12 * ((b - a) / a)) := by
      have h6 : 0 ≤ (b - a) / a := by positivity
      have : ds b - ds a ≤ 1.987 * ((b - a) / a) := by unfold ds; linarith
      nlinarith
    have h7 : fac b ≤ fac a * (1 + 0.12 * ((b - a) / a)) := by
      unfold fac
      have h8 : 18 / b ≤ 18 / a := div_le_div_of_nonneg_left (by norm_num) hA hab
      have h9 : 0 ≤ 0.81 + 18 / b := by positivity
      have h10 : 0 ≤ ds a * (1 + 0.12 * ((b - a) / a)) := by positivity
      have : ds b * (0.81 + 18 / b) ≤ ds a * (1 + 0.12 * ((b - a) / a)) * (0.81 + 18 / a) :=
        mul_le_mul hds (by linarith) h9 h10
      calc ds b * (0.81 + 18 / b) / 1.92739 ≤ ds a * (1 + 0.12 * ((b - a) / a)) * (0.81 + 18 / a) / 1.92739 :=
            div_le_div_of_nonneg_right this (by norm_num)
        _ = _ := by ring
    have hgb0 : 0 ≤ gap b T := div_nonneg (by linarith) h2.le
    -- the second one falls faster
    have h11 : (1 + 0.12 * ((b - a) / a)) * gap b T ≤ gap a T := by
      unfold gap
      rw [le_div_iff₀ h3]
      have e : (1 + 0.12 * ((b - a) / a)) * ((T - b) / (T - c2 b)) * (T - c2 a) = ((a + 0.12 * (b - a)) * (T - b) * (T - c2 a)) / (a * (T - c2 b)) := by
        field_simp
      rw [e, div_le_iff₀ (by positivity)]
      have key : 0.12 * (T - b) * (T - c2 a) ≤ a * (0.81 * T + 18) := by
        have k1 : 0 ≤ T - b := by linarith
        have k2 : T - c2 a ≤ T := by unfold c2; linarith
        have k3 : 0.12 * (T - b) * (T - c2 a) ≤ 0.12 * (T - b) * T := mul_le_mul_of_nonneg_left k2 (by linarith)
        have k4 : 0.12 * (T - b) ≤ 0.81 * a := by linarith
        have k5 : 0.12 * (T - b) * T ≤ 0.81 * a * T := mul_le_mul_of_nonneg_right k4 (by linarith)
        nlinarith
      have id : (T - a) * (a * (T - c2 b)) - (a + 0.12 * (b - a)) * (T - b) * (T - c2 a) = (b - a) * (a * (0.81 * T + 18) - 0.12 * (T - b) * (T - c2 a)) := by
        unfold c2; ring
      nlinarith [mul_nonneg hd (sub_nonneg.mpr key)]
    calc fac b * gap b T ≤ fac a * (1 + 0.12 * ((b - a) / a)) * gap b T := mul_le_mul_of_nonneg_right h7 hgb0
      _ = fac a * ((1 + 0.12 * ((b - a) / a)) * gap b T) := by ring
      _ ≤ fac a * gap a T := mul_le_mul_of_nonneg_left h11 hfa.le

/-- **lighter components evaporate faster**: a lower boiling point means a higher vapour pressure -/
theorem C219_lighter (a b T : ℝ) (ha : 150 ≤ a) (hT : 250 ≤ T) (hT' : T ≤ 1000) (hab : a ≤ b) (h : c2 b < T) : vapor b T ≤ vapor a T := by
  rw [vapor_eq b T (by linarith) h, vapor_eq a T ha (by unfold c2 at *; linarith)]
  have := Real.exp_le_exp.mpr (prod_anti a b T ha hT hT' hab h)
  linarith

/-- at its boiling point a component has the pressure of the atmosphere -/
theorem C219_boiling (b : ℝ) : vapor b b = 101325 := by
  unfold vapor
  simp

/-- vapour pressure over temperature grows with temperature -/
theorem vapor_div (b T T' : ℝ) (hb : 150 ≤ b) (h0 : 0 < T) (h1 : c2 b < T) (h2 : T ≤ T') (h3 : T' ≤ 6 * b) : vapor b T / T ≤ vapor b T' / T' := by
  have hb0 : 0 < b := by linarith
  have hT' : 0 < T' := by linarith
  have h4 : 0 < T - c2 b := by linarith
  have h5 : 0 < T' - c2 b := by linarith
  unfold vapor
  set B := ds b * (b - c2 b) ^ 2 / (0.97 * 1.987 * b) with hB
  have hBl : 6 * b ≤ B := by
    rw [hB, le_div_iff₀ (by positivity)]
    have := ds_lower b hb
    have e : b - c2 b = 0.81 * b + 18 := by unfold c2; ring
    rw [e]
    have h6 : (0.81 * b) ^ 2 ≤ (0.81 * b + 18) ^ 2 := by nlinarith
    nlinarith [sq_nonneg b]
  rw [div_le_div_iff₀ h0 hT']
  have hratio : T' / T ≤ Real.exp (B * (1 / (b - c2 b) - 1 / (T' - c2 b)) - B * (1 / (b - c2 b) - 1 / (T - c2 b))) := by
    have e : B * (1 / (b - c2 b) - 1 / (T' - c2 b)) - B * (1 / (b - c2 b) - 1 / (T - c2 b)) = B * (T' - T) / ((T - c2 b) * (T' - c2 b)) := by
      field_simp
      ring
    rw [e]
    have h6 : T' / T = 1 + (T' - T) / T := by field_simp; ring
    have h7 : (T' - T) / T ≤ B * (T' - T) / ((T - c2 b) * (T' - c2 b)) := by
      rw [div_le_div_iff₀ h0 (by positivity)]
      have h8 : T - c2 b ≤ T := by unfold c2; linarith
      have h9 : T' - c2 b ≤ B := by
        have : T' - c2 b ≤ T' := by unfold c2; linarith
        linarith
      have h10 : (T - c2 b) * (T' - c2 b) ≤ T * B := mul_le_mul h8 h9 h5.le h0.le
      have h11 : 0 ≤ T' - T := by linarith
      nlinarith [mul_le_mul_of_nonneg_left h10 h11]
    have h12 := Real.add_one_le_exp (B * (T' - T) / ((T - c2 b) * (T' - c2 b)))
    rw [h6]
    linarith
  set x := B * (1 / (b - c2 b) - 1 / (T - c2 b)) with hx
  set y := B * (1 / (b - c2 b) - 1 / (T' - c2 b)) with hy
  have hxy : T' / T * Real.exp x ≤ Real.exp y := by
    have : Real.exp y = Real.exp (y - x) * Real.exp x := by rw [← Real.exp_add]; congr 1; ring
    rw [this]
    exact mul_le_mul_of_nonneg_right hratio (Real.exp_pos x).le
  have h13 : T' * Real.exp x ≤ Real.exp y * T := by
    have := mul_le_mul_of_nonneg_right hxy h0.le
    have e : T' / T * Real.exp x * T = T' * Real.exp x := by field_simp
    linarith
  nlinarith

/-- **vapour pressure grows with temperature** -/
theorem C219_warmer_pressure (b T T' : ℝ) (hb : 150 ≤ b) (h1 : c2 b < T) (h2 : T ≤ T') : vapor b T ≤ vapor b T' := by
  have hb0 : 0 < b := by linarith
  have h4 : 0 < T - c2 b := by linarith
  have hds := ds_lower b hb
  unfold vapor
  have hB : 0 ≤ ds b * (b - c2 b) ^ 2 / (0.97 * 1.987 * b) := by positivity
  have h5 : 1 / (T' - c2 b) ≤ 1 / (T - c2 b) := one_div_le_one_div_of_le h4 (by linarith)
  have := Real.exp_le_exp.mpr (mul_le_mul_of_nonneg_left (show 1 / (b - c2 b) - 1 / (T - c2 b) ≤ 1 / (b - c2 b) - 1 / (T' - c2 b) by linarith) hB)
  linarith

/-! ### what evaporates -/

/-- an element as it is in a run -/
structure OK (e : El) (o : List Raw) : Prop where
  masses : ∀ m ∈ e.comps, 0 ≤ m
  area : 0 ≤ e.area
  water : e.fracWater ≤ 1
  weights : ∀ r ∈ o, 0 < r.mw

/-- what evaporates, component by component -/
theorem evaporated_eq (T : ℝ) (o : List Raw) (dt U : ℝ) (e : El) : evaporated T o dt U e =
    (List.zipWith (fun m l => m - m * Real.exp (l * dt)) e.comps (decay T (compsAt T o) U e)).sum := by
  unfold evaporated evapEl expDecay
  simp only
  congr 1
  generalize decay T (compsAt T o) U e = k
  induction e.comps generalizing k with
  | nil => simp
  | cons m c ih => cases k with
    | nil => simp
    | cons l k => simp [ih]

/-- larger rates, more evaporates -/
theorem sum_mono (c : List ℝ) (k k' : List ℝ) (dt dt' : ℝ) (hc : ∀ m ∈ c, 0 ≤ m) (h : List.Forall₂ (fun l l' => l' * dt' ≤ l * dt) k k') :
    (List.zipWith (fun m l => m - m * Real.exp (l * dt)) c k).sum ≤ (List.zipWith (fun m l => m - m * Real.exp (l * dt')) c k').sum := by
  induction h generalizing c with
  | nil => simp
  | cons h1 _ ih =>
    cases c with
    | nil => simp
    | cons m c =>
      simp only [List.zipWith_cons_cons, List.sum_cons]
      have h2 := ih c (fun x hx => hc x (List.mem_cons_of_mem _ hx))
      have h3 := mul_le_mul_of_nonneg_left (Real.exp_le_exp.mpr h1) (hc m (by simp))
      linarith

/-- the rate of a component -/
noncomputable def rate (T : ℝ) (o : List Raw) (U : ℝ) (e : El) (r : Raw) : ℝ :=
  (-e.area * (1 - e.fracWater) * transport U * puddle e / (8.314 * T * sumMolar (compsAt T o) e.comps)) * vapor r.bp T * (1.380277 * (0.018 / (r.mw / 1000)) ^ (1 / 3 : ℝ))

theorem decay_eq (T : ℝ) (o : List Raw) (U : ℝ) (e : El) : decay T (compsAt T o) U e = o.map (rate T o U e) := by
  unfold decay rate
  conv_lhs => arg 2; unfold compsAt
  rw [List.map_map]
  rfl

theorem forall2_map {β : Type} (o : List β) (f g : β → ℝ) (P : ℝ → ℝ → Prop) (h : ∀ r ∈ o, P (f r) (g r)) : List.Forall₂ P (o.map f) (o.map g) := by
  induction o with
  | nil => exact List.Forall₂.nil
  | cons r o ih => exact List.Forall₂.cons (h r (by simp)) (ih (fun x hx => h x (List.mem_cons_of_mem _ hx)))

theorem molar_indep (T T' : ℝ) (o : List Raw) (c : List ℝ) : sumMolar (compsAt T o) c = sumMolar (compsAt T' o) c := by
  unfold sumMolar
  congr 1
  induction o generalizing c with
  | nil => simp [compsAt]
  | cons r o ih =>
    cases c with
    | nil => simp
    | cons m c =>
      have := ih c
      simp only [compsAt] at this ⊢
      simp [this]

theorem molar_nonneg (T : ℝ) (o : List Raw) (c : List ℝ) (hc : ∀ m ∈ c, 0 ≤ m) (ho : ∀ r ∈ o, 0 < r.mw) : 0 ≤ sumMolar (compsAt T o) c := by
  unfold sumMolar
  induction o generalizing c with
  | nil => simp [compsAt]
  | cons r o ih =>
    cases c with
    | nil => simp
    | cons m c =>
      have h1 := ih c (fun x hx => hc x (List.mem_cons_of_mem _ hx)) (fun x hx => ho x (List.mem_cons_of_mem _ hx))
      have h2 : 0 ≤ m / (r.mw / 1000) := div_nonneg (hc m (by simp)) (div_nonneg (ho r (by simp)).le (by norm_num))
      simp only [compsAt, List.map_cons, List.zipWith_cons_cons, List.sum_cons] at h1 ⊢
      linarith

theorem transport_mono (U U' : ℝ) (h : U ≤ U') : transport U ≤ transport U' := by
  unfold transport
  apply mul_le_mul_of_nonneg_left _ (by norm_num)
  apply Real.rpow_le_rpow _ _ (by norm_num)
  · split_ifs <;> linarith
  · split_ifs <;> linarith

theorem transport_nonneg (U : ℝ) : 0 ≤ transport U := by
  unfold transport
  apply mul_nonneg (by norm_num)
  apply Real.rpow_nonneg
  split_ifs <;> linarith

theorem puddle_nonneg (e : El) : 0 ≤ puddle e := by
  unfold puddle
  apply Real.rpow_nonneg
  exact le_trans zero_le_one (le_max_right _ _)

theorem vapor_pos (b T : ℝ) : 0 < vapor b T := by
  unfold vapor
  positivity

/-- the rate with its sign -/
theorem rate_eq (T : ℝ) (o : List Raw) (U : ℝ) (e : El) (r : Raw) : rate T o U e r =
    -(e.area * (1 - e.fracWater) * puddle e * (1.380277 * (0.018 / (r.mw / 1000)) ^ (1 / 3 : ℝ)) / (8.314 * sumMolar (compsAt T o) e.comps) * transport U * (vapor r.bp T / T)) := by
  unfold rate
  by_cases hT : T = 0
  · subst hT; simp
  by_cases hs : sumMolar (compsAt T o) e.comps = 0
  · rw [hs]; simp
  field_simp

theorem coef_nonneg (T : ℝ) (o : List Raw) (e : El) (h : OK e o) (r : Raw) (hr : r ∈ o) :
    0 ≤ e.area * (1 - e.fracWater) * puddle e * (1.380277 * (0.018 / (r.mw / 1000)) ^ (1 / 3 : ℝ)) / (8.314 * sumMolar (compsAt T o) e.comps) := by
  have h1 := h.area
  have h2 : 0 ≤ 1 - e.fracWater := by linarith [h.water]
  have h3 := puddle_nonneg e
  have h4 := molar_nonneg T o e.comps h.masses h.weights
  have h5 := h.weights r hr
  positivity

/-- **C219, wind**: in more wind no less evaporates -/
theorem C219_wind (T : ℝ) (o : List Raw) (dt U U' : ℝ) (e : El) (h : OK e o) (hT : 0 < T) (hdt : 0 ≤ dt) (hU : U ≤ U') : evaporated T o dt U e ≤ evaporated T o dt U' e := by
  rw [evaporated_eq, evaporated_eq, decay_eq, decay_eq]
  apply sum_mono _ _ _ _ _ h.masses
  apply forall2_map
  intro r hr
  apply mul_le_mul_of_nonneg_right _ hdt
  rw [rate_eq, rate_eq, neg_le_neg_iff]
  have h1 := coef_nonneg T o e h r hr
  have h2 : 0 ≤ vapor r.bp T / T := div_nonneg (vapor_pos _ _).le hT.le
  exact mul_le_mul_of_nonneg_right (mul_le_mul_of_nonneg_left (transport_mono U U' hU) h1) h2

/-- **C219, time**: in a longer time no less evaporates -/
theorem C219_time (T : ℝ) (o : List Raw) (dt dt' U : ℝ) (e : El) (h : OK e o) (hT : 0 < T) (hdt : dt ≤ dt') : evaporated T o dt U e ≤ evaporated T o dt' U e := by
  rw [evaporated_eq, evaporated_eq, decay_eq]
  apply sum_mono _ _ _ _ _ h.masses
  apply forall2_map
  intro r hr
  apply mul_le_mul_of_nonpos_left hdt
  rw [rate_eq, neg_nonpos]
  have h1 := coef_nonneg T o e h r hr
  have h2 : 0 ≤ vapor r.bp T / T := div_nonneg (vapor_pos _ _).le hT.le
  exact mul_nonneg (mul_nonneg h1 (transport_nonneg U)) h2

/-- **C219, temperature**: in warmer water no less evaporates -/
theorem C219_warmer (T T' : ℝ) (o : List Raw) (dt U : ℝ) (e : El) (h : OK e o) (hT : 0 < T) (hTT : T ≤ T') (hdt : 0 ≤ dt)
    (ho : ∀ r ∈ o, 150 ≤ r.bp ∧ c2 r.bp < T ∧ T' ≤ 6 * r.bp) : evaporated T o dt U e ≤ evaporated T' o dt U e := by
  rw [evaporated_eq, evaporated_eq, decay_eq, decay_eq]
  apply sum_mono _ _ _ _ _ h.masses
  apply forall2_map
  intro r hr
  obtain ⟨h1, h2, h3⟩ := ho r hr
  apply mul_le_mul_of_nonneg_right _ hdt
  rw [rate_eq, rate_eq, neg_le_neg_iff, molar_indep T' T]
  have h4 := coef_nonneg T o e h r hr
  exact mul_le_mul_of_nonneg_left (vapor_div r.bp T T' h1 hT h2 hTT h3) (mul_nonneg h4 (transport_nonneg U))

/-- **C219, emulsion**: the more water an emulsion has, the less evaporates -/
theorem C219_emulsion (T : ℝ) (o : List Raw) (dt U : ℝ) (e : El) (f : ℝ) (h : OK e o) (hT : 0 < T) (hdt : 0 ≤ dt) (h1 : e.fracWater ≤ f) :
    evaporated T o dt U { e with fracWater := f } ≤ evaporated T o dt U e := by
  rw [evaporated_eq, evaporated_eq, decay_eq, decay_eq]
  apply sum_mono _ _ _ _ _ h.masses
  apply forall2_map
  intro r hr
  apply mul_le_mul_of_nonneg_right _ hdt
  rw [rate_eq, rate_eq, neg_le_neg_iff]
  have h3 := h.area
  have h4 := puddle_nonneg e
  have h5 := molar_nonneg T o e.comps h.masses h.weights
  have h6 := h.weights r hr
  have h7 : 0 ≤ vapor r.bp T / T := div_nonneg (vapor_pos _ _).le hT.le
  have h8 : puddle { e with fracWater := f } = puddle e := rfl
  rw [h8]
  simp only
  have h9 := transport_nonneg U
  gcongr

theorem evaporated_mono (T : ℝ) (o : List Raw) (dt U : ℝ) (e : El) (a v : ℝ) (h : OK e o) (hT : 0 < T) (hdt : 0 ≤ dt)
    (hp : e.area * puddle e ≤ a * puddle { e with area := a, volFrac := v }) :
    evaporated T o dt U e ≤ evaporated T o dt U { e with area := a, volFrac := v } := by
  rw [evaporated_eq, evaporated_eq, decay_eq, decay_eq]
  apply sum_mono _ _ _ _ _ h.masses
  apply forall2_map
  intro r hr
  apply mul_le_mul_of_nonneg_right _ hdt
  rw [rate_eq, rate_eq, neg_le_neg_iff]
  have h2 : 0 ≤ 1 - e.fracWater := by linarith [h.water]
  have h5 := molar_nonneg T o e.comps h.masses h.weights
  have h6 := h.weights r hr
  have h7 : 0 ≤ vapor r.bp T / T := div_nonneg (vapor_pos _ _).le hT.le
  have h9 := transport_nonneg U
  simp only
  have e1 : ∀ x y : ℝ, x * (1 - e.fracWater) * y = (1 - e.fracWater) * (x * y) := fun x y => by ring
  rw [e1, e1]
  gcongr

/-- **C219, area**: of a larger slick no less evaporates, though the wind has a longer way over it -/
theorem C219_area (T : ℝ) (o : List Raw) (dt U : ℝ) (e : El) (a : ℝ) (h : OK e o) (hT : 0 < T) (hdt : 0 ≤ dt) (hv : 0 < e.volFrac) (ha : e.area ≤ a) :
    evaporated T o dt U e ≤ evaporated T o dt U { e with area := a } := by
  apply evaporated_mono T o dt U e a e.volFrac h hT hdt
  rcases h.area.eq_or_lt with h0 | h0
  · rw [← h0, zero_mul]
    exact mul_nonneg (by linarith) (puddle_nonneg _)
  have hr : 1 ≤ a / e.area := (one_le_div h0).2 ha
  have ha0 : 0 < a := by linarith
  set r := a / e.area with hrd
  set D := max (2 * √(e.area / e.volFrac) / √Real.pi) 1 with hD
  have hD1 : 1 ≤ D := le_max_right _ _
  have hle : max (2 * √(a / e.volFrac) / √Real.pi) 1 ≤ D * r := by
    refine max_le ?_ (by nlinarith)
    have e1 : a / e.volFrac = r * (e.area / e.volFrac) := by rw [hrd]; field_simp
    have e2 : √r ≤ r := Real.sqrt_le_iff.2 ⟨by linarith, by nlinarith⟩
    rw [e1, Real.sqrt_mul (by linarith)]
    have h3 : 2 * √(e.area / e.volFrac) / √Real.pi ≤ D := le_max_left _ _
    have h4 : 0 ≤ 2 * √(e.area / e.volFrac) / √Real.pi := by positivity
    calc 2 * (√r * √(e.area / e.volFrac)) / √Real.pi = √r * (2 * √(e.area / e.volFrac) / √Real.pi) := by ring
      _ ≤ r * D := mul_le_mul e2 h3 h4 (by linarith)
      _ = D * r := by ring
  have h1 : (D * r) ^ (-(1 / 9) : ℝ) ≤ puddle { e with area := a, volFrac := e.volFrac } := by
    unfold puddle
    exact Real.rpow_le_rpow_of_nonpos (lt_of_lt_of_le one_pos (le_max_right _ _)) hle (by norm_num)
  have h2 : r ^ (-1 : ℝ) ≤ r ^ (-(1 / 9) : ℝ) := Real.rpow_le_rpow_of_exponent_le hr (by norm_num)
  rw [Real.mul_rpow (by linarith) (by linarith)] at h1
  have h3 : D ^ (-(1 / 9) : ℝ) * r ^ (-1 : ℝ) ≤ puddle { e with area := a, volFrac := e.volFrac } :=
    le_trans (mul_le_mul_of_nonneg_left h2 (Real.rpow_nonneg (by linarith) _)) h1
  rw [Real.rpow_neg_one] at h3
  have e3 : puddle e = D ^ (-(1 / 9) : ℝ) := rfl
  have e4 : e.area = a * r⁻¹ := by rw [hrd]; field_simp
  calc e.area * puddle e = a * (D ^ (-(1 / 9) : ℝ) * r⁻¹) := by rw [e3]; nth_rewrite 1 [e4]; ring
    _ ≤ _ := mul_le_mul_of_nonneg_left h3 ha0.le

/-- **C219, slick**: with the same area of an element that is a larger part of its slick, so that the slick is smaller, no less evaporates -/
theorem C219_slick (T : ℝ) (o : List Raw) (dt U : ℝ) (e : El) (v : ℝ) (h : OK e o) (hT : 0 < T) (hdt : 0 ≤ dt) (hv : 0 < e.volFrac) (hvv : e.volFrac ≤ v) :
    evaporated T o dt U e ≤ evaporated T o dt U { e with volFrac := v } := by
  apply evaporated_mono T o dt U e e.area v h hT hdt
  refine mul_le_mul_of_nonneg_left ?_ h.area
  unfold puddle
  refine Real.rpow_le_rpow_of_nonpos (lt_of_lt_of_le one_pos (le_max_right _ _)) (max_le_max ?_ (le_refl _)) (by norm_num)
  have h1 := h.area
  have : e.area / v ≤ e.area / e.volFrac := div_le_div_of_nonneg_left h1 hv hvv
  exact div_le_div_of_nonneg_right (mul_le_mul_of_nonneg_left (Real.sqrt_le_sqrt this) (by norm_num)) (Real.sqrt_nonneg _)

/-- nothing evaporates from what is all water, nor in no time -/
theorem C219_none (T : ℝ) (o : List Raw) (dt U : ℝ) (e : El) (h : dt = 0 ∨ e.fracWater = 1) : evaporated T o dt U e = 0 := by
  rw [evaporated_eq, decay_eq]
  have : ∀ r ∈ o, rate T o U e r * dt = 0 := by
    intro r _
    rcases h with h | h
    · rw [h, mul_zero]
    · unfold rate; rw [h]; simp
  generalize e.comps = c
  generalize rate T o U e = f at this ⊢
  induction o generalizing c with
  | nil => simp
  | cons r o ih =>
    cases c with
    | nil => simp
    | cons m c =>
      simp only [List.map_cons, List.zipWith_cons_cons, List.sum_cons]
      rw [ih c (fun x hx => this x (List.mem_cons_of_mem _ hx)), this r (by simp)]
      simp

/-- and never more than there is -/
theorem C219_bounds (T : ℝ) (o : List Raw) (dt U : ℝ) (e : El) (h : OK e o) (hT : 0 < T) (hdt : 0 ≤ dt) : 0 ≤ evaporated T o dt U e ∧ evaporated T o dt U e ≤ e.comps.sum := by
  constructor
  · have := C219_time T o 0 dt U e h hT hdt
    rwa [C219_none T o 0 U e (Or.inl rfl)] at this
  · rw [evaporated_eq]
    generalize decay T (compsAt T o) U e = k
    have hm := h.masses
    generalize e.comps = c at hm
    induction c generalizing k with
    | nil => simp
    | cons m c ih =>
      have h0 := hm m (by simp)
      cases k with
      | nil =>
        simp only [List.zipWith_nil_right, List.sum_nil]
        exact List.sum_nonneg hm
      | cons l k =>
        simp only [List.zipWith_cons_cons, List.sum_cons]
        have h1 := ih k (fun x hx => hm x (List.mem_cons_of_mem _ hx))
        have h2 : 0 ≤ m * Real.exp (l * dt) := mul_nonneg h0 (Real.exp_pos _).le
        linarith

/-- the hypotheses are met by oils and water as they are: boiling points from 250 to 1500 kelvin, water from 270 to 320 kelvin -/
example : ∀ b : ℝ, 250 ≤ b → b ≤ 1500 → ∀ T T' : ℝ, 270 ≤ T → T ≤ T' → T' ≤ 320 → 150 ≤ b ∧ c2 b < T ∧ T' ≤ 6 * b := by
  intro b h1 h2 T T' h3 h4 h5
  unfold c2
  refine ⟨by linarith, by linarith, by linarith⟩

example : OK ⟨(0, 0), [10, 20], 30, 30, 0, 0, 100, 1, 900, 1, 0, 0, 0.2, 0, -1⟩ [⟨400, 100⟩, ⟨600, 250⟩] :=
  ⟨by intro m hm; fin_cases hm <;> norm_num, by norm_num, by norm_num, by intro r hr; fin_cases hr <;> norm_num⟩

/-! ## C220 -/

/-- the speed of a wind at a point -/
def Wind.speed : Wind → ℝ × ℝ → Option ℝ
  | .plain s => s
  | .iceAware s _ => s

/-- **C220 in full**: whatever the wind, evaporation gets a speed for each element, at least that of the wind where there are data and it is not slowed by ice -/
def C220_claim : Prop := ∀ (w : Wind) (ps : List (ℝ × ℝ)), ∃ l, windSpeed w ps = some l ∧ l.length = ps.length ∧
  ∀ s, w = .plain s → ∀ (i : Nat) (p : ℝ × ℝ), ps[i]? = some p → ∃ u : ℝ, l[i]? = some u ∧ 1 ≤ u ∧ (∀ v : ℝ, s p = some v → u = max v 1) ∧ (s p = none → u = 1)

/-- **C220 (partial)**: for winds that do not know of ice. Missing for the full claim: `C220_counterexample`. -/
theorem C220_partial (s : ℝ × ℝ → Option ℝ) (ps : List (ℝ × ℝ)) : ∃ l, windSpeed (.plain s) ps = some l ∧ l.length = ps.length ∧
    ∀ (i : Nat) (p : ℝ × ℝ), ps[i]? = some p → ∃ u : ℝ, l[i]? = some u ∧ 1 ≤ u ∧ (∀ v : ℝ, s p = some v → u = max v 1) ∧ (s p = none → u = 1) := by
  refine ⟨_, rfl, by simp, ?_⟩
  intro i p hp
  refine ⟨floorSpeed (s p), by simp [hp], ?_, ?_, ?_⟩
  · unfold floorSpeed
    cases s p with
    | none => simp
    | some v => simp only; split_ifs <;> linarith
  · intro v hv
    rw [hv]
    unfold floorSpeed
    simp only
    split_ifs with h
    · rw [max_eq_right (by linarith)]
    · rw [max_eq_left (by linarith)]
  · intro h
    rw [h]
    rfl

/-- with a wind that knows of ice evaporation always fails -/
theorem C220_never (s : ℝ × ℝ → Option ℝ) (f : ℝ × ℝ → ℝ) (ps : List (ℝ × ℝ)) : windSpeed (.iceAware s f) ps = none := rfl

theorem C220_counterexample : ¬ C220_claim := by
  intro h
  obtain ⟨l, h1, _⟩ := h (.iceAware (fun _ => some 5) (fun _ => 1)) [(0, 0)]
  rw [C220_never] at h1
  cases h1

end Verif.NatWeath.Evap
