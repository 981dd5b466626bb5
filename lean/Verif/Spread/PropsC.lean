import Mathlib.Analysis.Convex.SpecificFunctions.Basic
import Verif.Spread.PropsB

/-!
C92: Langmuir circulation, bounds and the effect of the wind. C93: which wind
and which thickness it looks at.
-/

namespace Verif.Spread

theorem clip_bounds (x : ℝ) : 0.1 ≤ clip x ∧ clip x ≤ 1 := by
  unfold clip
  exact ⟨le_min (le_max_right _ _) (by norm_num), min_le_right _ _⟩

theorem clip_mono {x y : ℝ} (h : x ≤ y) : clip x ≤ clip y := by
  unfold clip
  exact min_le_min (max_le_max h le_rfl) le_rfl

theorem coverage_bounds (U rb : ℝ) (th : Thick) : 0.1 ≤ coverage U rb th ∧ coverage U rb th ≤ 1 := by
  unfold coverage
  cases th with
  | nan => norm_num
  | inf => dsimp only; split <;> norm_num
  | fin t =>
    dsimp only
    split
    · norm_num
    · split
      · norm_num
      · split
        · norm_num
        · exact clip_bounds _

theorem expo_neg : expo < 0 := by norm_num [expo]

theorem pow_expo_anti {x y : ℝ} (hx : 0 < x) (h : x ≤ y) : y ^ expo ≤ x ^ expo :=
  Real.rpow_le_rpow_of_nonpos hx h expo_neg.le

/-! ### C92 -/

/-- Langmuir reduces the area of floating oil to no less than a tenth of the
area by spreading and does not enlarge it; it touches nothing else but the
coverage, and only floating oil. -/
theorem C92_bounds (rho : ℝ) (wind : ℝ × ℝ → ℝ) (els : List El) (i : Nat) (e : El)
    (he : els[i]? = some e) :
    (e.surf = false → (langmuir rho wind els)[i]? = some e) ∧
    (e.surf = true → ∃ c, (langmuir rho wind els)[i]? = some { e with cover := c, area := e.fay * c } ∧
      0.1 ≤ c ∧ c ≤ 1) := by
  unfold langmuir
  rw [List.getElem?_map, he]
  refine ⟨fun hs => by simp [hs], fun hs => ⟨_, ?_, coverage_bounds (maxWind wind els)
    ((rho - e.dens) / rho) (thickOf (firstBulk els e.spill) (fayOf els e.spill))⟩⟩
  rw [Option.map_some, if_pos hs]

theorem coverage_wind {U U' rb : ℝ} (th : Thick) (h0 : 0 ≤ U) (h : U ≤ U') :
    coverage U' rb th ≤ coverage U rb th := by
  unfold coverage
  cases th with
  | nan => exact le_rfl
  | inf => exact le_rfl
  | fin t =>
    dsimp only
    by_cases hd : 4 * t * rb * g = 0
    · rw [if_pos hd, if_pos hd]
    · rw [if_neg hd, if_neg hd]
      by_cases hv : U * 0.005 = 0
      · rw [if_pos hv]
        split
        · exact le_rfl
        · split
          · norm_num
          · exact (clip_bounds _).2
      · have hU : 0 < U := by
          rcases h0.lt_or_eq with h1 | h1
          · exact h1
          · exact absurd (by rw [← h1]; norm_num) hv
        have hU' : 0 < U' := by linarith
        rw [if_neg hv, if_neg (by positivity)]
        have hp : (0 : ℝ) < Real.pi ^ 2 := by positivity
        have hs : (U * 0.005) ^ 2 ≤ (U' * 0.005) ^ 2 :=
          pow_le_pow_left₀ (by positivity) (by linarith) 2
        have hs0 : 0 < (U * 0.005) ^ 2 := by positivity
        rcases lt_or_gt_of_ne hd with hneg | hpos
        · rw [if_pos (div_neg_of_pos_of_neg (by positivity) hneg),
            if_pos (div_neg_of_pos_of_neg (by positivity) hneg)]
        · rw [if_neg (not_lt.2 (by positivity)), if_neg (not_lt.2 (by positivity))]
          refine clip_mono (pow_expo_anti (by positivity) ?_)
          exact div_le_div_of_nonneg_right (mul_le_mul_of_nonneg_right hs hp.le) hpos.le

theorem maxWind_nonneg (wind : ℝ × ℝ → ℝ) (els : List El) : 0 ≤ maxWind wind els := by
  unfold maxWind
  generalize (els.filter El.surf).map (fun e => wind e.pos) = l
  induction l with
  | nil => exact le_rfl
  | cons x t ih => exact le_trans ih (le_max_right _ _)

theorem maxWind_mono {wind wind' : ℝ × ℝ → ℝ} (h : ∀ p, wind p ≤ wind' p) (els : List El) :
    maxWind wind els ≤ maxWind wind' els := by
  unfold maxWind
  induction els.filter El.surf with
  | nil => exact le_rfl
  | cons x t ih => exact max_le_max (h _) ih

/-- With more wind no oil covers more of the water. -/
theorem C92_wind {wind wind' : ℝ × ℝ → ℝ} (h : ∀ p, wind p ≤ wind' p) (rho : ℝ) (els : List El)
    (i : Nat) (e e' : El) (he : (langmuir rho wind els)[i]? = some e)
    (he' : (langmuir rho wind' els)[i]? = some e') :
    e.surf = true → e'.cover ≤ e.cover := by
  unfold langmuir at he he'
  rw [List.getElem?_map] at he he'
  cases hx : els[i]? with
  | none => rw [hx] at he; cases he
  | some x =>
    rw [hx] at he he'
    cases he
    cases he'
    intro hs
    beta_reduce at hs ⊢
    by_cases hxs : x.surf = true
    · rw [if_pos hxs, if_pos hxs]
      exact coverage_wind _ (maxWind_nonneg _ _) (maxWind_mono h els)
    · rw [if_neg hxs] at hs
      exact absurd hs hxs

/-- Thicker oil covers no less of its slick. -/
theorem C92_thickness {U rb t t' : ℝ} (hr : 0 < rb) (ht : 0 < t) (h : t ≤ t') :
    coverage U rb (.fin t) ≤ coverage U rb (.fin t') ∧
    coverage U rb (.fin t') ≤ coverage U rb .inf := by
  have ht' : 0 < t' := lt_of_lt_of_le ht h
  have hg : (0 : ℝ) < g := by norm_num [g]
  have hd : 0 < 4 * t * rb * g := by positivity
  have hd' : 0 < 4 * t' * rb * g := by positivity
  constructor
  · unfold coverage
    dsimp only
    rw [if_neg hd.ne', if_neg hd'.ne']
    by_cases hv : U * 0.005 = 0
    · rw [if_pos hv, if_pos hv]
    · rw [if_neg hv, if_neg hv]
      have h2 : 0 < (U * 0.005) ^ 2 := by positivity
      have hp : (0 : ℝ) < Real.pi ^ 2 := by positivity
      rw [if_neg (not_lt.2 (by positivity)), if_neg (not_lt.2 (by positivity))]
      refine clip_mono (pow_expo_anti (by positivity) ?_)
      refine div_le_div_of_nonneg_left (by positivity) hd ?_
      have := mul_le_mul_of_nonneg_right h (mul_pos hr hg).le
      linarith
  · have : coverage U rb .inf = 1 := by
      unfold coverage
      dsimp only
      rw [if_neg hr.ne']
    rw [this]
    exact (coverage_bounds _ _ _).2

/-- In a wind, oil denser than the water, or as dense, covers a tenth. -/
theorem C92_heavy {U rb t : ℝ} (hr : rb ≤ 0) (ht : 0 < t) (hU : 0 < U) :
    coverage U rb (.fin t) = 0.1 := by
  have hg : (0 : ℝ) < g := by norm_num [g]
  have hp : (0 : ℝ) < Real.pi ^ 2 := by positivity
  have hd : 4 * t * rb * g ≤ 0 := by
    have : 0 ≤ 4 * t * g := by positivity
    nlinarith
  unfold coverage
  dsimp only
  rcases hd.lt_or_eq with h | h
  · rw [if_neg h.ne, if_neg (by positivity), if_pos (div_neg_of_pos_of_neg (by positivity) h)]
  · rw [if_pos h]

theorem sqrt_bound {y U c : ℝ} (hy : 0 < y) (hU : 0 ≤ U) (hc : 0 < c) :
    (U ≤ √y / c ↔ (U * c) ^ 2 ≤ y) ∧ (√y / c ≤ U ↔ y ≤ (U * c) ^ 2) := by
  rw [le_div_iff₀ hc, div_le_iff₀ hc, Real.le_sqrt (by positivity) hy.le, Real.sqrt_le_left (by positivity)]
  exact ⟨Iff.rfl, Iff.rfl⟩

theorem coverage_eq {U rb t : ℝ} (hr : 0 < rb) (ht : 0 < t) (hU : 0 < U) :
    coverage U rb (.fin t) = clip (((U * 0.005) ^ 2 * Real.pi ^ 2 / (4 * t * rb * g)) ^ expo) := by
  have hg : (0 : ℝ) < g := by norm_num [g]
  have hd : 0 < 4 * t * rb * g := by positivity
  have hp : (0 : ℝ) < Real.pi ^ 2 := by positivity
  unfold coverage
  dsimp only
  rw [if_neg hd.ne', if_neg (by positivity), if_neg (not_lt.2 (by positivity))]

/-- The bounds of the wind speed given for a slick (`_wind_speed_bound`) are
those of the effect of Langmuir: up to the lower one the oil covers all of its
slick, between them it covers the part given by the formula, not cut off, and
from the upper one on it covers a tenth, up to one part in ten million
millions. -/
theorem C92_wind_bounds {U rb t : ℝ} (hr : 0 < rb) (ht : 0 < t) (hU : 0 ≤ U) :
    (U ≤ (windBounds rb t).1 → coverage U rb (.fin t) = 1) ∧
    ((windBounds rb t).1 ≤ U → U ≤ (windBounds rb t).2 →
      coverage U rb (.fin t) =
        ((U * 0.005) ^ 2 * Real.pi ^ 2 / (4 * t * rb * 9.80665)) ^ (-0.3333333333333333 : ℝ)) ∧
    ((windBounds rb t).1 < U → coverage U rb (.fin t) < 1) ∧
    ((windBounds rb t).2 ≤ U → 0.1 ≤ coverage U rb (.fin t) ∧
      coverage U rb (.fin t) ≤ 0.1 * (1 + 0.0000000000001)) := by
  have hg : (0 : ℝ) < g := by norm_num [g]
  have hp : (0 : ℝ) < Real.pi ^ 2 := by positivity
  have hd : 0 < 4 * t * rb * g := by positivity
  have hq : 0 < 4 * t * rb * g / Real.pi ^ 2 := by positivity
  have hq2 : (1 / 0.1 : ℝ) ^ 3 * 4 * t * rb * g / Real.pi ^ 2 =
      1000 * (4 * t * rb * g / Real.pi ^ 2) := by
    have : (1 / 0.1 : ℝ) ^ 3 = 1000 := by norm_num
    rw [this]
    ring
  have hb1 := sqrt_bound (y := 4 * t * rb * g / Real.pi ^ 2) (c := 0.005) hq hU (by norm_num)
  have hb2 := sqrt_bound (y := 1000 * (4 * t * rb * g / Real.pi ^ 2)) (c := 0.005) (by positivity) hU
    (by norm_num)
  have h1 : (windBounds rb t).1 = √(4 * t * rb * g / Real.pi ^ 2) / 0.005 := rfl
  have h2 : (windBounds rb t).2 = √(1000 * (4 * t * rb * g / Real.pi ^ 2)) / 0.005 := by
    unfold windBounds
    rw [hq2]
  have hpos1 : 0 < √(4 * t * rb * g / Real.pi ^ 2) / 0.005 :=
    div_pos (Real.sqrt_pos.2 hq) (by norm_num)
  have hpos2 : 0 < √(1000 * (4 * t * rb * g / Real.pi ^ 2)) / 0.005 :=
    div_pos (Real.sqrt_pos.2 (by positivity)) (by norm_num)
  set x := (U * 0.005) ^ 2 * Real.pi ^ 2 / (4 * t * rb * g) with hx
  have hle1 : (U * 0.005) ^ 2 ≤ 4 * t * rb * g / Real.pi ^ 2 ↔ x ≤ 1 := by
    rw [hx, div_le_one hd, le_div_iff₀ hp]
  have hge1 : 4 * t * rb * g / Real.pi ^ 2 ≤ (U * 0.005) ^ 2 ↔ 1 ≤ x := by
    rw [hx, one_le_div hd, div_le_iff₀ hp]
  have hle2 : (U * 0.005) ^ 2 ≤ 1000 * (4 * t * rb * g / Real.pi ^ 2) ↔ x ≤ 1000 := by
    rw [hx, div_le_iff₀ hd, ← mul_div_assoc, le_div_iff₀ hp]
  have hge2 : 1000 * (4 * t * rb * g / Real.pi ^ 2) ≤ (U * 0.005) ^ 2 ↔ 1000 ≤ x := by
    rw [hx, le_div_iff₀ hd, ← mul_div_assoc, div_le_iff₀ hp]
  have e1000 : (1000 : ℝ) ^ expo ≤ 0.1 * (1 + 0.0000000000001) := by
    have hsplit : (1000 : ℝ) ^ expo = 1000 ^ (-(1 / 3) : ℝ) * 1000 ^ (expo + 1 / 3) := by
      rw [← Real.rpow_add (by norm_num)]
      congr 1
      ring
    have ha : (1000 : ℝ) ^ (-(1 / 3) : ℝ) = 0.1 := by
      rw [Real.rpow_neg (by norm_num), show (1000 : ℝ) = 10 ^ (3 : ℝ) by norm_num,
        ← Real.rpow_mul (by norm_num)]
      norm_num
    have hb : (1000 : ℝ) ^ (expo + 1 / 3) ≤ 1 + 0.0000000000001 := by
      have := rpow_one_add_le_one_add_mul_self (s := 999) (by norm_num) (p := expo + 1 / 3)
        (by norm_num [expo]) (by norm_num [expo])
      rw [show (1 : ℝ) + 999 = 1000 by norm_num] at this
      refine le_trans this ?_
      norm_num [expo]
    rw [hsplit, ha]
    exact mul_le_mul_of_nonneg_left hb (by norm_num)
  have e1000' : 0.1 ≤ (1000 : ℝ) ^ expo := by
    have ha : (1000 : ℝ) ^ (-(1 / 3) : ℝ) = 0.1 := by
      rw [Real.rpow_neg (by norm_num), show (1000 : ℝ) = 10 ^ (3 : ℝ) by norm_num,
        ← Real.rpow_mul (by norm_num)]
      norm_num
    rw [← ha]
    exact Real.rpow_le_rpow_of_exponent_le (by norm_num) (by norm_num [expo])
  refine ⟨fun hle => ?_, fun hge hle => ?_, fun hlt => ?_, fun hge => ⟨(coverage_bounds _ _ _).1, ?_⟩⟩
  · rcases hU.lt_or_eq with hU' | hU'
    · rw [coverage_eq hr ht hU']
      rw [h1, hb1.1, hle1] at hle
      have hx0 : 0 < x := by rw [hx]; positivity
      have : 1 ≤ x ^ expo := Real.one_le_rpow_of_pos_of_le_one_of_nonpos hx0 hle expo_neg.le
      unfold clip
      exact min_eq_right (le_trans this (le_max_left _ _))
    · subst hU'
      unfold coverage
      dsimp only
      rw [if_neg hd.ne', if_pos (by norm_num)]
  · have hU' : 0 < U := lt_of_lt_of_le (h1 ▸ hpos1) hge
    rw [coverage_eq hr ht hU']
    rw [h1, hb1.2, hge1] at hge
    rw [h2, hb2.1, hle2] at hle
    change clip (x ^ expo) = x ^ expo
    unfold clip
    rw [max_eq_left (le_trans e1000' (pow_expo_anti (by linarith) hle)),
      min_eq_left (Real.rpow_le_one_of_one_le_of_nonpos hge expo_neg.le)]
  · have hU' : 0 < U := lt_trans (h1 ▸ hpos1) hlt
    rw [coverage_eq hr ht hU']
    have h3 : ¬ U ≤ √(4 * t * rb * g / Real.pi ^ 2) / 0.005 := not_le.2 (h1 ▸ hlt)
    rw [hb1.1, hle1] at h3
    unfold clip
    refine lt_of_le_of_lt (min_le_left _ _) (max_lt ?_ (by norm_num))
    exact Real.rpow_lt_one_of_one_lt_of_neg (not_le.1 h3) expo_neg
  · have hU' : 0 < U := lt_of_lt_of_le (h2 ▸ hpos2) hge
    rw [coverage_eq hr ht hU']
    rw [h2, hb2.2, hge2] at hge
    unfold clip
    refine le_trans (min_le_left _ _) (max_le ?_ (by norm_num))
    exact le_trans (pow_expo_anti (by norm_num) hge) e1000

/-- The bounds are in the right order and not zero. -/
example : 0 < (windBounds 0.1 0.0001).1 ∧ (windBounds 0.1 0.0001).1 < (windBounds 0.1 0.0001).2 := by
  have hp : (0 : ℝ) < Real.pi ^ 2 := by positivity
  have hg : (0 : ℝ) < g := by norm_num [g]
  unfold windBounds
  refine ⟨div_pos (Real.sqrt_pos.2 (by positivity)) (by norm_num), ?_⟩
  refine div_lt_div_of_pos_right (Real.sqrt_lt_sqrt (by positivity) ?_) (by norm_num)
  refine div_lt_div_of_pos_right ?_ hp
  norm_num
  linarith

/-! ### C93 -/

/-- In calm air floating oil covers all of its slick. -/
def C93_claim_calm : Prop :=
  ∀ (rho rb lim : ℝ) (els : List El), 0 < rho → 0 < rb → 0 < lim → Run rb lim [] els →
    ∀ (i : Nat) (e : El), (langmuir rho (fun _ => 0) els)[i]? = some e → e.surf = true → e.cover = 1

theorem maxWind_zero (els : List El) : maxWind (fun _ => 0) els = 0 := by
  unfold maxWind
  induction els.filter El.surf with
  | nil => rfl
  | cons x t ih =>
    rw [List.map_cons, List.foldr_cons, ih, max_self]

/-- It does if its density is not that of the water, and there is oil in the
spill. -/
theorem C93_calm_partial {rho : ℝ} (hrho : 0 < rho) {els : List El} (i : Nat) (e : El)
    (he : (langmuir rho (fun _ => 0) els)[i]? = some e) (hs : e.surf = true)
    (hd : e.dens ≠ rho) (hb : firstBulk els e.spill ≠ 0) : e.cover = 1 := by
  unfold langmuir at he
  rw [List.getElem?_map] at he
  cases hx : els[i]? with
  | none => rw [hx] at he; cases he
  | some x =>
    rw [hx] at he
    cases he
    beta_reduce at hs hd hb ⊢
    by_cases hxs : x.surf = true
    · rw [if_pos hxs] at hd hb ⊢
      have hd' : x.dens ≠ rho := hd
      have hb' : firstBulk els x.spill ≠ 0 := hb
      change coverage _ _ _ = 1
      rw [maxWind_zero]
      have hr : (rho - x.dens) / rho ≠ 0 := div_ne_zero (sub_ne_zero.2 hd'.symm) hrho.ne'
      unfold thickOf coverage
      by_cases hA : fayOf els x.spill = 0
      · rw [if_pos hA, if_neg hb']
        dsimp only
        rw [if_neg hr]
      · rw [if_neg hA]
        dsimp only
        rw [if_neg, if_pos (by norm_num)]
        have hg : g ≠ 0 := by norm_num [g]
        exact mul_ne_zero (mul_ne_zero (mul_ne_zero (by norm_num) (div_ne_zero hb' hA)) hr) hg
    · rw [if_neg hxs] at hs
      exact absurd hs hxs

/-- Oil that has become as dense as the water covers a tenth of its slick in
calm air. -/
theorem C93_counterexample_calm : ¬ C93_claim_calm := by
  intro h
  have h1 := h 1000 0.1 0.0001 _ (by norm_num) (by norm_num) (by norm_num) (drop_change 900 1000) 0 _ rfl
    rfl
  have h2 : coverage (maxWind (fun _ => 0) [drop2 900 1000]) ((1000 - 1000) / 1000)
      (thickOf (firstBulk [drop2 900 1000] 0) (fayOf [drop2 900 1000] 0)) = 1 := h1
  rw [show fayOf [drop2 900 1000] 0 = 10000 by simp [fayOf, drop2, drop]] at h2
  norm_num [thickOf, coverage] at h2

/-- How much of its slick the oil of one spill covers does not depend on the
other spills and the wind over them. -/
def C93_claim_spills : Prop :=
  ∀ (rho : ℝ) (wind : ℝ × ℝ → ℝ) (els : List El) (s : Nat),
    langmuir rho wind (els.filter (fun e => e.spill == s)) =
      (langmuir rho wind els).filter (fun e => e.spill == s)

theorem fayOf_filter (els : List El) (s : Nat) :
    fayOf (els.filter (fun e => e.spill == s)) s = fayOf els s := by
  unfold fayOf
  rw [List.filter_filter]
  congr 2
  refine List.filter_congr fun e _ => ?_
  cases e.surf <;> cases e.spill == s <;> rfl

theorem maxWind_const {c : ℝ} (hc : 0 ≤ c) {els : List El} {e : El} (he : e ∈ els)
    (hs : e.surf = true) : maxWind (fun _ => c) els = c := by
  unfold maxWind
  have hm : e ∈ els.filter El.surf := List.mem_filter.2 ⟨he, hs⟩
  generalize els.filter El.surf = l at hm
  have key : ∀ l : List El, (l.map (fun _ => c)).foldr max 0 ≤ c := by
    intro l
    induction l with
    | nil => exact hc
    | cons x t ih => exact max_le le_rfl ih
  cases l with
  | nil => cases hm
  | cons x t => exact max_eq_left (key t)

/-- So it is where the wind is the same everywhere. Missing: winds that are
not, the fastest wind over all floating oil is taken. -/
theorem C93_spills_partial {c : ℝ} (hc : 0 ≤ c) (rho : ℝ) (els : List El) (s : Nat) :
    langmuir rho (fun _ => c) (els.filter (fun e => e.spill == s)) =
      (langmuir rho (fun _ => c) els).filter (fun e => e.spill == s) := by
  unfold langmuir
  rw [List.filter_map]
  have hf : ((fun e : El => e.spill == s) ∘ fun (e : El) =>
      if e.surf then
        let k := coverage (maxWind (fun _ => c) els) ((rho - e.dens) / rho)
          (thickOf (firstBulk els e.spill) (fayOf els e.spill))
        { e with cover := k, area := e.fay * k }
      else e) = fun e => e.spill == s := by
    funext e
    simp only [Function.comp]
    split <;> rfl
  rw [hf]
  refine List.map_congr_left fun e he => ?_
  have hs : e.spill = s := by simpa using (List.mem_filter.1 he).2
  by_cases hsurf : e.surf = true
  · rw [if_pos hsurf, if_pos hsurf, maxWind_const hc he hsurf,
      maxWind_const hc (List.mem_of_mem_filter he) hsurf, hs, firstBulk_filter, fayOf_filter]
  · rw [if_neg hsurf, if_neg hsurf]

/-- A slick in calm air, and another one in a storm far away. -/
noncomputable def calm : El := drop2 900 900
noncomputable def storm : El := { drop2 900 900 with spill := 1, pos := (100, 0) }

theorem coverage_storm : coverage 30 ((1000 - 900) / 1000) (.fin (1 / 10000)) < 1 := by
  refine (C92_wind_bounds (U := 30) (rb := (1000 - 900) / 1000) (t := 1 / 10000) (by norm_num)
    (by norm_num) (by norm_num)).2.2.1 ?_
  unfold windBounds
  have hp : (9 : ℝ) ≤ Real.pi ^ 2 := by nlinarith [Real.pi_gt_three]
  rw [div_lt_iff₀ (by norm_num), Real.sqrt_lt' (by norm_num), div_lt_iff₀ (by positivity)]
  norm_num [g]
  linarith

theorem C93_counterexample_spills : ¬ C93_claim_spills := by
  intro h
  have h1 := h 1000 (fun p => if p = (0, 0) then 0 else 30) [calm, storm] 0
  have h2 : langmuir 1000 (fun p => if p = (0, 0) then 0 else 30) [calm] =
      (langmuir 1000 (fun p => if p = (0, 0) then 0 else 30) [calm, storm]).filter
        (fun e => e.spill == 0) := by
    rw [← h1]
    congr 1
  have hw1 : maxWind (fun p => if p = (0, 0) then 0 else 30) [calm] = 0 := by
    simp [maxWind, calm, drop2, drop]
  have hw2 : maxWind (fun p => if p = (0, 0) then 0 else 30) [calm, storm] = 30 := by
    norm_num [maxWind, calm, storm, drop2, drop]
  have hb1 : firstBulk [calm] 0 = 1 := by simp [firstBulk, calm, drop2, drop]
  have hb2 : firstBulk [calm, storm] 0 = 1 := by simp [firstBulk, calm, drop2, drop]
  have hf1 : fayOf [calm] 0 = 10000 := by simp [fayOf, calm, drop2, drop]
  have hf2 : fayOf [calm, storm] 0 = 10000 := by simp [fayOf, calm, storm, drop2, drop]
  have h3 := congrArg (fun l => l.map El.cover) h2
  have h4 : [coverage (maxWind (fun p => if p = (0, 0) then 0 else 30) [calm]) ((1000 - 900) / 1000)
        (thickOf (firstBulk [calm] 0) (fayOf [calm] 0))] =
      [coverage (maxWind (fun p => if p = (0, 0) then 0 else 30) [calm, storm]) ((1000 - 900) / 1000)
        (thickOf (firstBulk [calm, storm] 0) (fayOf [calm, storm] 0))] := h3
  rw [hw1, hw2, hb1, hb2, hf1, hf2] at h4
  have h5 := (List.cons.inj h4).1
  unfold thickOf at h5
  rw [if_neg (by norm_num)] at h5
  have h6 := coverage_storm
  rw [← h5] at h6
  norm_num [coverage, g] at h6

/-- The thickness that decides on the coverage is that of the floating oil of
the spill: its volume over its area. -/
def C93_claim_thickness : Prop :=
  ∀ (rho rb lim : ℝ) (wind : ℝ × ℝ → ℝ) (els : List El), 0 < rho → 0 < rb → 0 < lim →
    Run rb lim [] els → ∀ (i : Nat) (e : El), els[i]? = some e → e.surf = true →
    ∃ e', (langmuir rho wind els)[i]? = some e' ∧
      e'.cover = coverage (maxWind wind els) ((rho - e.dens) / rho)
        (thickOf ((els.filter (fun x => x.surf && x.spill == e.spill)).map El.vol).sum
          (fayOf els e.spill))

/-- So it is if the volume of the blob is that of the floating oil of the spill
for all of its elements: oil released at once, all of it floating, at the
density of its release. -/
theorem C93_thickness_partial (rho : ℝ) (wind : ℝ × ℝ → ℝ) (els : List El)
    (i : Nat) (e : El) (he : els[i]? = some e) (hs : e.surf = true)
    (hb : ∀ x ∈ els, x.surf = true → x.spill = e.spill →
      x.bulk = ((els.filter (fun x => x.surf && x.spill == e.spill)).map El.vol).sum) :
    ∃ e', (langmuir rho wind els)[i]? = some e' ∧
      e'.cover = coverage (maxWind wind els) ((rho - e.dens) / rho)
        (thickOf ((els.filter (fun x => x.surf && x.spill == e.spill)).map El.vol).sum
          (fayOf els e.spill)) := by
  have h1 := firstBulk_eq hb ⟨e, List.mem_of_getElem? he, hs, rfl⟩
  unfold langmuir
  rw [List.getElem?_map, he]
  refine ⟨_, rfl, ?_⟩
  beta_reduce
  rw [if_pos hs]
  change coverage _ _ _ = _
  rw [h1]

/-- The hypotheses are met just after the release. -/
example : ∀ x ∈ [drop2 900 900], x.surf = true → x.spill = 0 →
    x.bulk = (([drop2 900 900].filter (fun x => x.surf && x.spill == 0)).map El.vol).sum := by
  intro x hx
  rw [List.mem_singleton.1 hx]
  norm_num [drop2, drop, El.vol]

/-- Two elements released at once, the second of them beached later. -/
noncomputable def half (A : ℝ) (b : Bool) : El :=
  { drop 900 900 with surf := b, bulk := 2, frac := 1 / 2, fay := A, area := A }

/-- Half of the oil beached: the coverage of the rest is that of oil twice as
thick. -/
theorem C93_counterexample_thickness : ¬ C93_claim_thickness := by
  intro h
  set A := initArea 0.00001 0.1 2 0.0001 * (1 / 2) with hA
  have hpos : 0 < A := mul_pos (initArea_pos (by norm_num) (by norm_num) (by norm_num) (by norm_num))
    (by norm_num)
  have hrel : (release false true 0.00001 0.1 0.0001 0 [drop 900 900, drop 900 900]).2 =
      [half A true, half A true] := by
    have hv : (drop 900 900).vol = 1 := by norm_num [El.vol, drop]
    have hsum : ([drop 900 900, drop 900 900].map El.vol).sum = 2 := by
      simp only [List.map_cons, List.map_nil, List.sum_cons, List.sum_nil, hv]
      norm_num
    have hone : releaseEl 0.00001 0.1 0.0001 2 (drop 900 900) = half A true := by
      unfold releaseEl
      rw [hv, if_pos (by norm_num), hA]
      rfl
    change [drop 900 900, drop 900 900].map (releaseEl _ _ _ (blob false true 0 _)) = _
    rw [hsum]
    change [releaseEl 0.00001 0.1 0.0001 2 (drop 900 900), releaseEl 0.00001 0.1 0.0001 2 (drop 900 900)] = _
    rw [hone]
  have hrun : Run 0.1 0.0001 [] [half A true, half A false] := by
    refine .step _ _ _ (.step _ _ _ (.refl _)
      (.release false true 0.00001 0 [drop 900 900, drop 900 900] [] (by norm_num) le_rfl ?_)) ?_
    · intro e he
      have : e = drop 900 900 := by simpa using he
      rw [this]
      constructor <;> norm_num [drop]
    · rw [hrel]
      exact .other _ _ (.cons ⟨rfl, rfl, rfl, rfl, rfl⟩ (.cons ⟨rfl, rfl, rfl, rfl, rfl⟩ .nil))
  set U := (windBounds 0.1 (2 / A)).1 with hU
  have hg : (0 : ℝ) < g := by norm_num [g]
  have hU0 : 0 ≤ U := div_nonneg (Real.sqrt_nonneg _) (by norm_num)
  obtain ⟨e', h1, h2⟩ := h 1000 0.1 0.0001 (fun _ => U) _ (by norm_num) (by norm_num) (by norm_num) hrun
    0 (half A true) rfl rfl
  have hb : firstBulk [half A true, half A false] 0 = 2 := by simp [firstBulk, half, drop]
  have hf : fayOf [half A true, half A false] 0 = A := by simp [fayOf, half, drop]
  have hw : maxWind (fun _ => U) [half A true, half A false] = U :=
    maxWind_const hU0 List.mem_cons_self rfl
  have hv : (([half A true, half A false].filter
      (fun x => x.surf && x.spill == (half A true).spill)).map El.vol).sum = 1 := by
    norm_num [half, drop, El.vol]
  have hd : ((1000 : ℝ) - (half A true).dens) / 1000 = 0.1 := by norm_num [half, drop]
  rw [hv, hw, hd, show fayOf [half A true, half A false] (half A true).spill = A from hf] at h2
  have h3 : e'.cover = coverage (maxWind (fun _ => U) [half A true, half A false])
      (((1000 : ℝ) - (half A true).dens) / 1000)
      (thickOf (firstBulk [half A true, half A false] 0) (fayOf [half A true, half A false] 0)) := by
    have : e' = { half A true with
        cover := coverage (maxWind (fun _ => U) [half A true, half A false])
          (((1000 : ℝ) - (half A true).dens) / 1000)
          (thickOf (firstBulk [half A true, half A false] 0) (fayOf [half A true, half A false] 0)),
        area := (half A true).fay * coverage (maxWind (fun _ => U) [half A true, half A false])
          (((1000 : ℝ) - (half A true).dens) / 1000)
          (thickOf (firstBulk [half A true, half A false] 0) (fayOf [half A true, half A false] 0)) } :=
      (Option.some.inj h1).symm
    rw [this]
  rw [hw, hd, hb, hf] at h3
  rw [h3] at h2
  unfold thickOf at h2
  rw [if_neg hpos.ne', if_neg hpos.ne'] at h2
  have c1 := (C92_wind_bounds (U := U) (rb := 0.1) (t := 2 / A) (by norm_num) (by positivity) hU0).1
    le_rfl
  have c2 := (C92_wind_bounds (U := U) (rb := 0.1) (t := 1 / A) (by norm_num) (by positivity) hU0).2.2.1 ?_
  · rw [c1] at h2
    linarith
  · rw [hU]
    unfold windBounds
    dsimp only
    refine div_lt_div_of_pos_right (Real.sqrt_lt_sqrt (by positivity) ?_) (by norm_num)
    refine div_lt_div_of_pos_right ?_ (by positivity)
    have : 1 / A < 2 / A := div_lt_div_of_pos_right (by norm_num) hpos
    have h5 : (0 : ℝ) < 0.1 * g := by positivity
    nlinarith

end Verif.Spread
