import Verif.Mover.ComponentModel
import Mathlib.Tactic.Linarith
import Mathlib.Tactic.Ring
import Mathlib.Tactic.FieldSimp
import Mathlib.Tactic.NormNum
import Mathlib.Analysis.SpecialFunctions.Complex.Arg
/-!
C211 (currents driven by the wind have the speed given for the reference wind), C212 (they are those of the time asked for, of both patterns).
-/
namespace Verif.Mover.Component

/-- **specification**: the velocity of a wind that comes from the direction `b` (degrees from north, clockwise) at speed `s` -/
noncomputable def windFrom (b s : ℝ) : V := (-s * Real.sin (b * Real.pi / 180), -s * Real.cos (b * Real.pi / 180))

/-- **specification**: how far a direction is from another, in radians -/
noncomputable def off (a b : ℝ) : ℝ := (b - a) * Real.pi / 180

theorem cos_theta (a : ℝ) : Real.cos (theta a) = -Real.sin (a * Real.pi / 180) := by
  have : theta a = -(a * Real.pi / 180 + Real.pi / 2) := by unfold theta; ring
  rw [this, Real.cos_neg, Real.cos_add_pi_div_two]

theorem sin_theta (a : ℝ) : Real.sin (theta a) = -Real.cos (a * Real.pi / 180) := by
  have : theta a = -(a * Real.pi / 180 + Real.pi / 2) := by unfold theta; ring
  rw [this, Real.sin_neg, Real.sin_add_pi_div_two]

theorem along (a b s : ℝ) : (windFrom b s).1 * Real.cos (theta a) + (windFrom b s).2 * Real.sin (theta a) = s * Real.cos (off a b) := by
  rw [cos_theta, sin_theta]
  unfold windFrom off
  have : (b - a) * Real.pi / 180 = b * Real.pi / 180 - a * Real.pi / 180 := by ring
  rw [this, Real.cos_sub]
  simp only
  ring

theorem len_windFrom (b s : ℝ) (h : 0 ≤ s) : len (windFrom b s) = s := by
  unfold len windFrom
  simp only
  have : -s * Real.sin (b * Real.pi / 180) * (-s * Real.sin (b * Real.pi / 180)) +
      -s * Real.cos (b * Real.pi / 180) * (-s * Real.cos (b * Real.pi / 180)) = s ^ 2 := by
    have := Real.sin_sq_add_cos_sq (b * Real.pi / 180)
    linear_combination s ^ 2 * this
  rw [this, Real.sqrt_sq h]

/-- every wind comes from somewhere -/
theorem every_wind (v : V) : ∃ b s, 0 ≤ s ∧ v = windFrom b s := by
  set z : ℂ := ⟨-v.2, -v.1⟩ with hz
  refine ⟨Complex.arg z * 180 / Real.pi, ‖z‖, norm_nonneg _, ?_⟩
  have hpi := Real.pi_ne_zero
  have e : Complex.arg z * 180 / Real.pi * Real.pi / 180 = Complex.arg z := by field_simp
  unfold windFrom
  rw [e]
  have h1 := Complex.norm_mul_cos_arg z
  have h2 := Complex.norm_mul_sin_arg z
  ext
  · show v.1 = -‖z‖ * Real.sin (Complex.arg z)
    have : z.im = -v.1 := rfl
    linarith
  · show v.2 = -‖z‖ * Real.cos (Complex.arg z)
    have : z.re = -v.2 := rfl
    linarith

/-- the speed along its own direction that a pattern has at the reference point -/
noncomputable def refSpeed (p : Pat) (scale : ℝ) : ℝ := scale * len p.atRef

theorem byWind_spec (k : Nat) (p : Pat) (hS : 0 < p.speed) (hr : p.atRef ≠ (0, 0)) (b s : ℝ) (hs : 0 ≤ s) :
    refSpeed p (byWind k p (windFrom b s)) =
      p.scaleTo * (if k = 1 then s / p.speed else (s / p.speed) ^ 2) * Real.cos (off p.angle b) := by
  have hl : len p.atRef ≠ 0 := by
    unfold len
    rw [Real.sqrt_ne_zero']
    by_contra h
    apply hr
    have h1 := mul_self_nonneg p.atRef.1
    have h2 := mul_self_nonneg p.atRef.2
    have e1 : p.atRef.1 = 0 := by have : p.atRef.1 * p.atRef.1 = 0 := by linarith
                                  exact mul_self_eq_zero.1 this
    have e2 : p.atRef.2 = 0 := by have : p.atRef.2 * p.atRef.2 = 0 := by linarith
                                  exact mul_self_eq_zero.1 this
    exact Prod.ext e1 e2
  have ha := along p.angle b s
  unfold refSpeed byWind
  simp only
  have hd : (windFrom b s).1 * (Real.cos (theta p.angle) * p.speed) + (windFrom b s).2 * (Real.sin (theta p.angle) * p.speed) =
      s * Real.cos (off p.angle b) * p.speed := by rw [← ha]; ring
  rw [hd, len_windFrom b s hs]
  split <;> field_simp

/-- **C211, without averaging**: for a wind from `b` with speed `s`, each pattern has at the reference point the speed given for its
reference wind, times the ratio of the wind speeds (or its square), times the cosine of the angle between the winds; elsewhere the two
patterns, each with its scale, add up. -/
theorem C211_speed (c : Cfg) (ha : c.averaged = false) (w : Wind) (t : ℤ) (b s : ℝ) (hs : 0 ≤ s) (hw : w.value t = some (windFrom b s)) :
    ∃ s1 s2, optimize c (some w) t = .ok (s1, s2) ∧
      (0 < c.p1.speed → c.p1.atRef ≠ (0, 0) →
        refSpeed c.p1 s1 = c.p1.scaleTo * (if c.scaleBy = 1 then s / c.p1.speed else (s / c.p1.speed) ^ 2) * Real.cos (off c.p1.angle b)) ∧
      (∀ p, c.p2 = some p → 0 < p.speed → p.atRef ≠ (0, 0) →
        refSpeed p s2 = p.scaleTo * (if c.scaleBy = 1 then s / p.speed else (s / p.speed) ^ 2) * Real.cos (off p.angle b)) ∧
      (c.p2 = none → s2 = 0) ∧
      ∀ x y : V, combine (s1, s2) x y = s1 • x + s2 • y := by
  refine ⟨scale1 c (windFrom b s), scale2 c (windFrom b s), ?_, ?_, ?_, ?_, ?_⟩
  · unfold optimize usedWind
    simp only [ha, Bool.false_eq_true, if_false]
    rw [hw]
  · intro hS hr
    unfold scale1
    rw [ha]
    exact byWind_spec c.scaleBy c.p1 hS hr b s hs
  · intro p hp hS hr
    unfold scale2
    rw [hp]
    simp only [ha, true_or, if_true]
    exact byWind_spec c.scaleBy p hS hr b s hs
  · intro h
    unfold scale2
    rw [h]
  · intro x y
    unfold combine
    ext <;> simp <;> ring

/-- the reference wind gives the speed asked for, the opposite wind the opposite current, a wind across none -/
theorem C211_reference (k : Nat) (p : Pat) (hS : 0 < p.speed) (hr : p.atRef ≠ (0, 0)) :
    refSpeed p (byWind k p (windFrom p.angle p.speed)) = p.scaleTo ∧
    refSpeed p (byWind k p (windFrom (p.angle + 180) p.speed)) = -p.scaleTo ∧
    ∀ s, 0 ≤ s → refSpeed p (byWind k p (windFrom (p.angle + 90) s)) = 0 := by
  refine ⟨?_, ?_, ?_⟩
  · rw [byWind_spec k p hS hr _ _ hS.le, div_self hS.ne']
    unfold off; simp
  · rw [byWind_spec k p hS hr _ _ hS.le, div_self hS.ne']
    have : off p.angle (p.angle + 180) = Real.pi := by unfold off; ring
    rw [this]; simp
  · intro s hs
    rw [byWind_spec k p hS hr _ _ hs]
    have : off p.angle (p.angle + 90) = Real.pi / 2 := by unfold off; ring
    rw [this]; simp

/-! ### averaging -/

/-- **specification**: component of the wind `v` from the direction `a` -/
noncomputable def comp (a : ℝ) (v : V) : ℝ := -(v.1 * Real.sin (a * Real.pi / 180) + v.2 * Real.cos (a * Real.pi / 180))

theorem hourSum_spec (w : Wind) (a : ℝ) (start : ℤ) (n : Nat) (f : ℤ → V) (h : ∀ j : ℕ, j < n → w.value (start + j * 3600) = some (f (start + j * 3600))) :
    (hourSum w (theta a) start n).2 = ((List.range n).map (fun j : ℕ => comp a (f (start + j * 3600)))).sum := by
  induction n with
  | zero => rfl
  | succ n ih =>
    rw [List.range_succ, List.map_append, List.sum_append, ← ih (fun j hj => h j (by omega))]
    rw [hourSum]
    simp only [List.map_cons, List.map_nil, List.sum_cons, List.sum_nil, add_zero]
    unfold fetch
    rw [h n (by omega)]
    simp only
    rw [cos_theta, sin_theta]
    unfold comp
    ring

/-- **C211, averaging**: with a series of winds that has values for all the hours, the wind used is the mean over the past hours of the
component along the first pattern. -/
theorem C211_mean (c : Cfg) (w : Wind) (t first last : ℤ) (f : ℤ → V) (hk : w.kind = .series first last) (hh : 0 < c.hours) (hp : c.power = 1)
    (h1 : first ≤ t - c.hours * 3600) (h2 : t ≤ last) (hv : ∀ u, first ≤ u → u ≤ last → w.value u = some (f u)) :
    averagedWind c w t = .ok (((List.range c.hours).map (fun j : ℕ => comp c.p1.angle (f (t - c.hours * 3600 + j * 3600)))).sum / c.hours) := by
  unfold averagedWind
  simp only [hk]
  rw [if_neg (by intro h; rcases h.1 with h | h <;> omega), if_neg (by omega)]
  rw [hourSum_spec w c.p1.angle _ c.hours f (fun j hj => hv _ (by omega) (by omega))]
  congr 1
  unfold signedPow
  rw [hp]
  split
  · rename_i h
    rw [Real.rpow_one, abs_of_neg h]; ring
  · rw [Real.rpow_one]

/-- **C211, averaging, the scales**: the mean `m` of the component along the first pattern drives the first pattern in proportion; the second pattern gets
`m` as if it were a wind toward the east, whatever the direction of the first pattern is. -/
theorem C211_averaged (c : Cfg) (ha : c.averaged = true) (w : Wind) (t : ℤ) (m : ℝ) (hm : averagedWind c w t = .ok m) :
    ∃ s1 s2, optimize c (some w) t = .ok (s1, s2) ∧
      (c.original = false → s1 = m * c.factor) ∧
      (c.original = true → 0 < c.p1.speed → len c.p1.atRef ≠ 0 → refSpeed c.p1 s1 = c.p1.scaleTo * (m / c.p1.speed)) ∧
      (∀ p, c.p2 = some p → c.original = false → s2 = -(m * Real.sin (p.angle * Real.pi / 180)) * c.factor) ∧
      (∀ p, c.p2 = some p → c.original = true → c.scaleBy = 1 → 0 < p.speed → len p.atRef ≠ 0 →
        refSpeed p s2 = -(p.scaleTo * (m / p.speed) * Real.sin (p.angle * Real.pi / 180))) := by
  refine ⟨scale1 c (m, 0), scale2 c (m, 0), ?_, ?_, ?_, ?_, ?_⟩
  · unfold optimize usedWind
    simp only [ha, if_true, hm]
  · intro ho
    unfold scale1
    simp [ha, ho]
  · intro ho hS hl
    unfold scale1 refSpeed
    simp only [ha, ho, if_true]
    field_simp
  · intro p hp ho
    unfold scale2
    simp only [hp, ha, ho, Bool.true_eq_false, Bool.false_eq_true, or_self, if_false]
    rw [cos_theta]
    ring
  · intro p hp ho hb hS hl
    unfold scale2 refSpeed byWind
    simp only [hp, ho, hb, or_true, if_true]
    rw [cos_theta]
    field_simp
    ring

/-- **C211, gaps**: an hour for which the wind has no value counts with 0 toward the east and with the value of the hour before toward the north. -/
theorem C211_gap (w : Wind) (a : ℝ) (start : ℤ) (n : Nat) (v : V) (h0 : w.value (start + n * 3600) = some v) (h1 : w.value (start + (n + 1 : Nat) * 3600) = none) :
    (hourSum w (theta a) start (n + 2)).2 = (hourSum w (theta a) start n).2 + comp a v + comp a (0, v.2) := by
  have e1 : (hourSum w (theta a) start (n + 1)).1 = v := by
    rw [hourSum]
    simp only [fetch, h0]
  rw [hourSum]
  simp only [fetch, h1, e1]
  rw [hourSum]
  simp only [fetch, h0]
  rw [cos_theta, sin_theta]
  unfold comp
  ring

/-- **the claim in full for steady winds**: averaging makes no difference when the wind is steady -/
def C211_claim : Prop := ∀ (c : Cfg) (w : Wind) (t : ℤ) (v : V), w.kind = .single → (∀ u, w.value u = some v) → c.original = true → c.power = 1 →
  (0 < c.p1.speed ∧ c.p1.atRef ≠ (0, 0)) → (∀ p, c.p2 = some p → 0 < p.speed ∧ p.atRef ≠ (0, 0)) →
  optimize { c with averaged := true } (some w) t = optimize { c with averaged := false } (some w) t

/-- **C211, steady winds (partial)**: this is so for one pattern that is scaled by wind speed. -/
theorem C211_steady_partial (c : Cfg) (w : Wind) (t : ℤ) (v : V) (hk : w.kind = .single) (hv : ∀ u, w.value u = some v) (ho : c.original = true)
    (hp : c.power = 1) (hS : 0 < c.p1.speed) (h2 : c.p2 = none) (hb : c.scaleBy = 1) :
    optimize { c with averaged := true } (some w) t = optimize { c with averaged := false } (some w) t := by
  have hm : averagedWind { c with averaged := true } w t = .ok (v.1 * Real.cos (theta c.p1.angle) + v.2 * Real.sin (theta c.p1.angle)) := by
    unfold averagedWind
    simp only [hk]
    simp only [hourSum, fetch, hv, Nat.cast_one, div_one, zero_add]
    congr 1
    unfold signedPow
    rw [hp]
    split
    · rename_i h
      rw [Real.rpow_one, abs_of_neg h]; ring
    · rw [Real.rpow_one]
  unfold optimize usedWind
  simp only [if_true, hm, Bool.false_eq_true, if_false, hv]
  unfold scale1 scale2
  simp only [h2, ho, if_true, Bool.false_eq_true, if_false]
  unfold byWind
  simp only [hb, if_true]
  congr 2
  have : c.p1.speed ≠ 0 := hS.ne'
  by_cases hl : len c.p1.atRef = 0
  · rw [hl]; simp
  · field_simp

/-- a pattern of unit speed at the reference point, for a wind from `a` of 10 m/s -/
noncomputable def demoPat (a : ℝ) : Pat := ⟨a, 10, 1, (1, 0)⟩

noncomputable def demoCfg (k : Nat) (two : Bool) : Cfg :=
  { p1 := demoPat 0, p2 := if two then some (demoPat 90) else none, scaleBy := k, averaged := false, extrapolate := false, original := true,
    factor := 1, power := 1, hours := 2 }

theorem len_unit : len (1, 0) = 1 := by unfold len; simp

theorem demo_ref (a : ℝ) : 0 < (demoPat a).speed ∧ (demoPat a).atRef ≠ (0, 0) := by
  refine ⟨by simp [demoPat], ?_⟩
  intro h
  have := congrArg Prod.fst h
  simp [demoPat] at this

theorem theta0 : Real.cos (theta 0) = 0 ∧ Real.sin (theta 0) = -1 := by rw [cos_theta, sin_theta]; simp

theorem theta90 : Real.cos (theta 90) = -1 ∧ Real.sin (theta 90) = 0 := by
  have : (90 : ℝ) * Real.pi / 180 = Real.pi / 2 := by ring
  rw [cos_theta, sin_theta, this]; simp

/-- Two patterns, at right angles, and a steady wind for the second: with averaging the second pattern stands still. -/
theorem C211_counterexample : ¬ C211_claim := by
  intro h
  have := h (demoCfg 1 true) ⟨.single, fun _ => some (-10, 0)⟩ 0 (-10, 0) rfl (fun _ => rfl) rfl rfl (demo_ref 0)
    (by intro p hp; simp only [demoCfg, if_true, Option.some.injEq] at hp; subst hp; exact demo_ref 90)
  have e : Real.sqrt (10 * 10) = 10 := by rw [show (10 : ℝ) * 10 = 10 ^ 2 by norm_num, Real.sqrt_sq (by norm_num)]
  simp [optimize, usedWind, averagedWind, hourSum, fetch, demoCfg, demoPat, theta0.1, theta0.2, theta90.1, theta90.2, signedPow, scale1, scale2, byWind, len] at this

/-- A single pattern scaled by wind stress and half the reference wind: with averaging it has half the speed, without a quarter. -/
theorem C211_counterexample_stress :
    optimize { demoCfg 2 false with averaged := true } (some ⟨.single, fun _ => some (0, -5)⟩) 0 = .ok (1 / 2, 0) ∧
    optimize (demoCfg 2 false) (some ⟨.single, fun _ => some (0, -5)⟩) 0 = .ok (1 / 4, 0) := by
  have e : Real.sqrt (5 * 5) = 5 := by rw [show (5 : ℝ) * 5 = 5 ^ 2 by norm_num, Real.sqrt_sq (by norm_num)]
  constructor
  · simp only [optimize, usedWind, averagedWind, hourSum, fetch, demoCfg, demoPat, theta0.1, theta0.2, signedPow, scale1, scale2, len_unit]
    norm_num
  · simp only [optimize, usedWind, demoCfg, demoPat, theta0.1, theta0.2, scale1, scale2, byWind, len]
    norm_num
    rw [show (25 : ℝ) = 5 * 5 by norm_num, e]; norm_num

/-- A wind of 10 m/s from the north that begins an hour ago and a mover that may extrapolate: the hour before counts as calm. -/
theorem C211_counterexample_extrapolate :
    averagedWind ⟨demoPat 0, none, 1, true, true, true, 1, 1, 2⟩
      ⟨.series (-3600) 3600, fun t => if t < -3600 then none else some (0, -10)⟩ 0 = .ok 5 := by
  have h : ∀ w : Wind, w.value (-7200) = none → w.value (-3600) = some (0, -10) → (hourSum w (theta 0) (-7200) 2).2 = 10 := by
    intro w h1 h2
    show (0 : ℝ) + _ + _ = 10
    unfold fetch
    simp only [hourSum, fetch, Nat.cast_zero, zero_mul, add_zero, Nat.cast_one, one_mul, theta0.1, theta0.2, h1]
    rw [show (-7200 : ℤ) + 3600 = -3600 by norm_num, h2]
    norm_num
  unfold averagedWind
  simp only
  rw [if_neg (by simp), if_neg (by simp)]
  have hd : (demoPat 0).angle = 0 := rfl
  rw [hd]
  rw [show (0 : ℤ) - ((2 : ℕ) : ℤ) * 3600 = -7200 by norm_num, h _ (by simp) (by simp)]
  unfold signedPow
  norm_num

/-- a mover that meets the hypotheses of `C211_mean` -/
example : averagedWind { demoCfg 1 false with averaged := true } ⟨.series (-7200) 0, fun t => some (0, (t : ℝ) / 3600)⟩ 0 = .ok (3 / 2) := by
  rw [C211_mean _ _ 0 (-7200) 0 (fun t => (0, (t : ℝ) / 3600)) rfl (by simp [demoCfg]) rfl (by simp [demoCfg]) (le_refl _) (fun _ _ _ => rfl)]
  congr 1
  simp [demoCfg, demoPat, List.range_succ, comp]
  norm_num

/-! ### C212 -/

/-- **specification**: the step that a history of calls is in: from its preparation until it is done -/
def pending (p : Option ℤ) : List Call → Option ℤ
  | [] => p
  | .prepare t :: cs => pending (some t) cs
  | .done :: cs => pending none cs
  | .ask _ :: cs => pending p cs

/-- what is reported for a time: the scales, or zeros if there is no wind for it -/
def shown (f : ℤ → Except Err (ℝ × ℝ)) (t : ℤ) : ℝ × ℝ := match f t with | .ok x => x | .error _ => (0, 0)

/-- **C212 in full**: whatever was called before, the currents reported for a time are those of that time -/
def C212_claim : Prop := ∀ (f : ℤ → Except Err (ℝ × ℝ)) (cs : List Call) (t : ℤ),
  (call f (after f ⟨false, (0, 0)⟩ cs) (.ask t)).2 = some (shown f t)

/-- how the state is related to the step one is in -/
def Rel (f : ℤ → Except Err (ℝ × ℝ)) (s : St) : Option ℤ → Prop
  | some u => s = ⟨true, shown f u⟩
  | none => s.flag = false

theorem after_rel (f : ℤ → Except Err (ℝ × ℝ)) (cs : List Call) (hok : ∀ t, Call.prepare t ∈ cs → ∃ x, f t = .ok x) (s : St) (p : Option ℤ)
    (h : Rel f s p) : Rel f (after f s cs) (pending p cs) := by
  induction cs generalizing s p with
  | nil => exact h
  | cons c cs ih =>
    have hok' : ∀ t, Call.prepare t ∈ cs → ∃ x, f t = .ok x := fun t ht => hok t (List.mem_cons_of_mem _ ht)
    cases c with
    | prepare t =>
      obtain ⟨x, hx⟩ := hok t List.mem_cons_self
      refine ih hok' _ (some t) ?_
      show (call f s (.prepare t)).1 = ⟨true, shown f t⟩
      simp only [call, shown, hx]
    | done => exact ih hok' _ none rfl
    | ask t =>
      refine ih hok' _ p ?_
      cases p with
      | some u =>
        have hs : s = ⟨true, shown f u⟩ := h
        subst hs
        rfl
      | none =>
        have hs : s.flag = false := h
        show ((call f s (.ask t)).1).flag = false
        simp only [call, hs, Bool.false_eq_true, if_false]
        split
        · rfl
        · exact hs

/-- **C212 (partial)**: in a step the currents reported are those of the step, whatever time is asked for; outside of steps they are those of
the time asked for. -/
theorem C212_partial (f : ℤ → Except Err (ℝ × ℝ)) (cs : List Call) (hok : ∀ t, Call.prepare t ∈ cs → ∃ x, f t = .ok x) (t : ℤ) :
    (call f (after f ⟨false, (0, 0)⟩ cs) (.ask t)).2 = some (shown f ((pending none cs).getD t)) := by
  have h := after_rel f cs hok ⟨false, (0, 0)⟩ none rfl
  cases hp : pending none cs with
  | some u =>
    rw [hp] at h
    have hs : after f ⟨false, (0, 0)⟩ cs = ⟨true, shown f u⟩ := h
    rw [hs]; rfl
  | none =>
    rw [hp] at h
    have hs : (after f ⟨false, (0, 0)⟩ cs).flag = false := h
    simp only [call, hs, Bool.false_eq_true, if_false, Option.getD_none, shown]
    cases f t <;> rfl

/-- Asked in a step for another time, the mover answers for the time of the step. -/
theorem C212_counterexample : ¬ C212_claim := by
  intro h
  have := h (fun t => .ok ((t : ℝ), 0)) [.prepare 0] 1
  simp [call, after, shown] at this

/-- **C212, files**: a mover is made only if all its files can be read, and then has all its patterns — unless there are two files and only the
second can be read. -/
theorem C212_files (first : Bool) (second : Option Bool) (h : ¬ (first = false ∧ second = some true)) :
    ((textRead first second).1 = true ↔ first = true ∧ second ≠ some false) ∧
    ((textRead first second).1 = true → (textRead first second).2 = (true, second.isSome)) := by
  rcases first with _ | _ <;> rcases second with _ | _ | _ <;> simp_all [textRead]

/-- The first file cannot be read, the second can: no error, and no first pattern. -/
theorem C212_counterexample_files : textRead false (some true) = (true, false, true) := rfl

/-- a history with two steps and questions between and in them -/
example : pending none [.ask 5, .prepare 0, .ask 7, .done, .ask 9, .prepare 900, .ask 1] = some 900 := rfl

end Verif.Mover.Component
