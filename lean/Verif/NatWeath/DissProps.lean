import Verif.NatWeath.Props
/-!
# Dissolution: C278, and what holds of C83

Source: `/repo/py_gnome/gnome/weatherers/dissolution.py` 184-259, 342-527, as modelled in `Verif.NatWeath.Model`.
-/
namespace Verif.NatWeath

/-- what would dissolve if there were enough -/
noncomputable def wanted (w : Sea) (o : List Comp) (dt : ℝ) (us : List ℝ) (u : ℝ) (e : El) (m : ℝ) (p : Comp) : ℝ :=
  dropRate w o e m p * timeInWater w o dt u e + slickRate us o e m p * timeCalm dt u (timeInWater w o dt u e)

theorem dissOne_eq (w : Sea) (o : List Comp) (dt : ℝ) (us : List ℝ) (u : ℝ) (e : El) (m : ℝ) (p : Comp) :
    dissOne w o dt us u e m p = min m (wanted w o dt us u e m p) := by
  have e1 : dissOne w o dt us u e m p = wanted w o dt us u e m p + min (m - wanted w o dt us u e m p) 0 := rfl
  rw [e1]
  rcases le_total m (wanted w o dt us u e m p) with h | h
  · rw [min_eq_left (by linarith), min_eq_left h]; ring
  · rw [min_eq_right (by linarith), min_eq_right h]; ring

theorem kow_pos (p : Comp) (h : p.arom = true) : 0 < kow p := by
  unfold kow; rw [if_pos h]; positivity

theorem conc_nonneg (o : List Comp) (ho : ∀ p ∈ o, p.Real) (e : El) (he : Sound e) (m : ℝ) (hm : 0 ≤ m) : 0 ≤ conc o e m :=
  mul_nonneg (div_nonneg hm (sum_nonneg he.2)) (avgRho_nonneg o ho e he)

theorem prod_winds_nonneg (us : List ℝ) (hus : ∀ u ∈ us, 0 ≤ u) : 0 ≤ (us.map (fun u => u / 3600)).prod :=
  List.prod_nonneg (by
    intro x hx
    obtain ⟨v, hv, rfl⟩ := List.mem_map.1 hx
    exact div_nonneg (hus v hv) (by norm_num))

theorem dropPart_nonneg (w : Sea) (hw : w.Real) (o : List Comp) (ho : ∀ p ∈ o, p.Real) (dt : ℝ) (hd : 0 ≤ dt)
    (u : ℝ) (hu : 0 ≤ u) (e : El) (he : e.Real) (m : ℝ) (hm : 0 ≤ m) (p : Comp) :
    0 ≤ dropRate w o e m p * timeInWater w o dt u e := by
  have hc := conc_nonneg o ho e he.sound m hm
  have hk := kow_nonneg p
  have hdr := he.droplet
  have hv : 0 ≤ volume o e := zip_nonneg _ _ _ (fun m hm p hp => div_nonneg (he.sound.2 m hm) (ho p hp).rho.le)
  by_cases hneg : kw w.rhoW o e < 0
  · rw [timeInWater_zero w hw o dt u e hu hneg]; simp
  · refine mul_nonneg ?_ (timeInWater_bounds w o dt u e hd).1
    unfold dropRate
    have h2 : 0 ≤ kw w.rhoW o e := not_lt.1 hneg
    have h3 : 0 ≤ (if p.arom then conc o e m else 0) := by split <;> simp [hc]
    have h4 := Real.pi_pos
    positivity

theorem timeCalm_nonneg (w : Sea) (o : List Comp) (dt u : ℝ) (e : El) (hd : 0 ≤ dt) :
    0 ≤ timeCalm dt u (timeInWater w o dt u e) :=
  le_min (le_max_right _ _) (by linarith [(timeInWater_bounds w o dt u e hd).2])

/-! ## C278: what dissolves more -/

/-- **C278**, only aromatics: of the other components nothing dissolves. -/
theorem C278_aromatic (w : Sea) (o : List Comp) (dt : ℝ) (us : List ℝ) (u : ℝ) (e : El) (m : ℝ) (hm : 0 ≤ m) (p : Comp)
    (h : p.arom = false) : dissOne w o dt us u e m p = 0 := by
  rw [dissOne_eq]
  have e1 : wanted w o dt us u e m p = 0 := by
    unfold wanted dropRate slickRate
    simp [h]
  rw [e1, min_eq_right hm]

/-- **C278**, coefficient: a component that prefers the oil more (with larger molecules for its density) dissolves no faster. -/
theorem C278_kow (w : Sea) (hw : w.Real) (o : List Comp) (ho : ∀ p ∈ o, p.Real) (dt : ℝ) (hd : 0 ≤ dt)
    (us : List ℝ) (hus : ∀ u ∈ us, 0 ≤ u) (u : ℝ) (hu : 0 ≤ u) (e : El) (he : e.Real) (m : ℝ) (hm : 0 ≤ m) (p q : Comp)
    (hp : p.arom = true) (hq : q.arom = true) (h : p.mw / p.rho ≤ q.mw / q.rho) :
    dissOne w o dt us u e m q ≤ dissOne w o dt us u e m p := by
  have hk : kow p ≤ kow q := by
    unfold kow
    rw [if_pos hp, if_pos hq]
    have : 0.059 * 1000 * p.mw / p.rho ≤ 0.059 * 1000 * q.mw / q.rho := by
      rw [mul_div_assoc, mul_div_assoc]
      exact mul_le_mul_of_nonneg_left h (by norm_num)
    exact mul_le_mul_of_nonneg_left (Real.exp_le_exp.2 this) (by norm_num)
  have hkp := kow_pos p hp
  have hkq := kow_pos q hq
  have hc := conc_nonneg o ho e he.sound m hm
  have key : conc o e m / kow q ≤ conc o e m / kow p := div_le_div_of_nonneg_left hc hkp hk
  have hdr := he.droplet
  have har := he.area
  have hv : 0 ≤ volume o e := zip_nonneg _ _ _ (fun m hm p hp => div_nonneg (he.sound.2 m hm) (ho p hp).rho.le)
  have hpi := Real.pi_pos
  have h1 : dropRate w o e m q * timeInWater w o dt u e ≤ dropRate w o e m p * timeInWater w o dt u e := by
    by_cases hneg : kw w.rhoW o e < 0
    · rw [timeInWater_zero w hw o dt u e hu hneg]; simp
    · have h2 : 0 ≤ kw w.rhoW o e := not_lt.1 hneg
      refine mul_le_mul_of_nonneg_right ?_ (timeInWater_bounds w o dt u e hd).1
      unfold dropRate
      rw [if_pos hp, if_pos hq]
      refine mul_le_mul_of_nonneg_right (mul_le_mul_of_nonneg_right key (by positivity)) (by positivity)
  have h2 : slickRate us o e m q ≤ slickRate us o e m p := by
    unfold slickRate
    rw [if_pos hp, if_pos hq]
    have := prod_winds_nonneg us hus
    exact mul_le_mul_of_nonneg_right (mul_le_mul_of_nonneg_left key (by positivity)) har
  rw [dissOne_eq, dissOne_eq]
  refine min_le_min (le_refl _) ?_
  unfold wanted
  have := mul_le_mul_of_nonneg_right h2 (timeCalm_nonneg w o dt u e hd)
  linarith

theorem slickRate_nonneg (us : List ℝ) (hus : ∀ u ∈ us, 0 ≤ u) (o : List Comp) (ho : ∀ p ∈ o, p.Real) (e : El) (he : e.Real)
    (m : ℝ) (hm : 0 ≤ m) (p : Comp) : 0 ≤ slickRate us o e m p := by
  unfold slickRate
  split
  · have h1 := prod_winds_nonneg us hus
    have h2 := conc_nonneg o ho e he.sound m hm
    have h3 := kow_nonneg p
    have h4 := he.area
    positivity
  · exact le_refl _

/-- **C278**, droplets: oil of volume `V` in droplets of diameter `d` touches the water with an area of `6 V / d`; through each square
metre of it, a velocity of `(kw + 0.134)` metres in an hour carries what the oil gives up to the water. -/
theorem C278_droplets (w : Sea) (o : List Comp) (e : El) (hd : 0 < e.droplet) (m : ℝ) (p : Comp) (hp : p.arom = true) :
    dropRate w o e m p * 3600 = conc o e m / kow p * (kw w.rhoW o e + 0.134) * (6 * volume o e / e.droplet) := by
  unfold dropRate
  rw [if_pos hp]
  have hpi := Real.pi_pos
  field_simp
  ring

/-- **C278**, time: in a longer step no less dissolves. -/
theorem C278_time (w : Sea) (hw : w.Real) (o : List Comp) (ho : ∀ p ∈ o, p.Real) (dt dt' : ℝ) (hdt : dt ≤ dt')
    (us : List ℝ) (hus : ∀ u ∈ us, 0 ≤ u) (u : ℝ) (hu : 0 ≤ u) (e : El) (he : e.Real) (m : ℝ) (hm : 0 ≤ m) (p : Comp) :
    dissOne w o dt us u e m p ≤ dissOne w o dt' us u e m p := by
  obtain ⟨f, hf0, hf1, hf⟩ : ∃ f : ℝ, 0 ≤ f ∧ f ≤ 1 ∧ ∀ d, timeInWater w o d u e = f * d := by
    by_cases hz : kw w.rhoW o e = 0
    · exact ⟨1, by norm_num, le_refl _, fun d => by unfold timeInWater; rw [if_pos hz]⟩
    · exact ⟨min (max (0.75 * w.height e.pos / kw w.rhoW o e / calm u) 0) 1, le_min (le_max_right _ _) zero_le_one, min_le_right _ _,
        fun d => by unfold timeInWater; rw [if_neg hz]⟩
  have h1 : dropRate w o e m p * timeInWater w o dt u e ≤ dropRate w o e m p * timeInWater w o dt' u e := by
    have ha := dropPart_nonneg w hw o ho 1 zero_le_one u hu e he m hm p
    rw [hf] at ha
    rw [hf, hf]
    nlinarith
  have h2 : timeCalm dt u (timeInWater w o dt u e) ≤ timeCalm dt' u (timeInWater w o dt' u e) := by
    unfold timeCalm
    refine min_le_min (le_refl _) ?_
    rw [hf, hf]
    nlinarith
  rw [dissOne_eq, dissOne_eq]
  refine min_le_min (le_refl _) ?_
  unfold wanted
  have := mul_le_mul_of_nonneg_left h2 (slickRate_nonneg us hus o ho e he m hm p)
  linarith

/-- **C278**, area: of a slick with a larger area no less dissolves. -/
theorem C278_area (w : Sea) (o : List Comp) (ho : ∀ p ∈ o, p.Real) (dt : ℝ) (hd : 0 ≤ dt)
    (us : List ℝ) (hus : ∀ u ∈ us, 0 ≤ u) (u : ℝ) (e : El) (he : e.Real) (a : ℝ) (ha : e.area ≤ a) (m : ℝ) (hm : 0 ≤ m) (p : Comp) :
    dissOne w o dt us u e m p ≤ dissOne w o dt us u { e with area := a } m p := by
  have h2 : slickRate us o e m p ≤ slickRate us o { e with area := a } m p := by
    unfold slickRate
    split
    · have h1 := prod_winds_nonneg us hus
      have h2 := conc_nonneg o ho e he.sound m hm
      have h3 := kow_nonneg p
      exact mul_le_mul_of_nonneg_left ha (by positivity)
    · exact le_refl _
  rw [dissOne_eq, dissOne_eq]
  refine min_le_min (le_refl _) ?_
  have := mul_le_mul_of_nonneg_right h2 (timeCalm_nonneg w o dt u e hd)
  have e1 : wanted w o dt us u { e with area := a } m p = dropRate w o e m p * timeInWater w o dt u e +
      slickRate us o { e with area := a } m p * timeCalm dt u (timeInWater w o dt u e) := rfl
  rw [e1]
  unfold wanted
  linarith

/-! ## C83: each element dissolves on its own (it does not, `C83_counterexample_dissolution`) -/

/-- **C83** (what holds): besides other elements, with winds below 3600 m/s, no more of an element dissolves than alone. Missing for the claim: less does. -/
theorem C83_dissolution_partial (w : Sea) (o : List Comp) (ho : ∀ p ∈ o, p.Real) (dt : ℝ) (hd : 0 ≤ dt) (u : ℝ) (hu : 0 ≤ u)
    (us : List ℝ) (hus : ∀ u ∈ us, 0 ≤ u ∧ u ≤ 3600) (e : El) (he : e.Real) (m : ℝ) (hm : 0 ≤ m) (p : Comp) :
    dissOne w o dt (u :: us) u e m p ≤ dissOne w o dt [u] u e m p := by
  have hp : (us.map (fun u => u / 3600)).prod ≤ 1 := by
    clear * - hus
    induction us with
    | nil => simp
    | cons a us ih =>
      have h1 := hus a (by simp)
      have h2 := ih (fun u hu => hus u (by simp [hu]))
      have h3 := prod_winds_nonneg us (fun u hu => (hus u (by simp [hu])).1)
      simp only [List.map_cons, List.prod_cons]
      have h4 : a / 3600 ≤ 1 := by rw [div_le_one (by norm_num)]; exact h1.2
      have h5 : 0 ≤ a / 3600 := div_nonneg h1.1 (by norm_num)
      nlinarith
  have h2 : slickRate (u :: us) o e m p ≤ slickRate [u] o e m p := by
    unfold slickRate
    split
    · have h2 := conc_nonneg o ho e he.sound m hm
      have h3 := kow_nonneg p
      have h4 := he.area
      have h5 : (0 : ℝ) ≤ u / 3600 := div_nonneg hu (by norm_num)
      simp only [List.map_cons, List.prod_cons, List.map_nil, List.prod_nil]
      refine mul_le_mul_of_nonneg_right (mul_le_mul_of_nonneg_right (mul_le_mul_of_nonneg_left ?_ (by norm_num)) (by positivity)) h4
      exact mul_le_mul_of_nonneg_left hp h5
    · exact le_refl _
  rw [dissOne_eq, dissOne_eq]
  refine min_le_min (le_refl _) ?_
  unfold wanted
  have := mul_le_mul_of_nonneg_right h2 (timeCalm_nonneg w o dt u e hd)
  linarith

/-- **C83**, in the water: an element that is in the water for all of the step does not depend on the others. -/
theorem C83_dissolution_water (w : Sea) (o : List Comp) (dt : ℝ) (us vs : List ℝ) (u : ℝ) (e : El) (m : ℝ) (p : Comp)
    (h : timeInWater w o dt u e = dt) : dissOne w o dt us u e m p = dissOne w o dt vs u e m p := by
  rw [dissOne_eq, dissOne_eq]
  unfold wanted
  rw [h]
  have : timeCalm dt u dt = 0 := by unfold timeCalm; simp
  simp [this]

/-- **C83**, how much less: at the surface each further element divides what would dissolve by 3600 and multiplies it by the wind there. -/
theorem C83_dissolution_factor (o : List Comp) (u v : ℝ) (us : List ℝ) (e : El) (m : ℝ) (p : Comp) :
    slickRate (u :: v :: us) o e m p = v / 3600 * slickRate (u :: us) o e m p := by
  unfold slickRate
  split
  · simp only [List.map_cons, List.prod_cons]
    ring
  · simp

example : timeInWater sea oil 900 5 (blob 900) = 900 := by
  unfold timeInWater
  rw [if_pos (by simp [kw, blob])]
  ring

end Verif.NatWeath
