import Verif.NatWeath.Spec
import Mathlib.Data.List.Forall2
import Mathlib.Tactic.Linarith
import Mathlib.Tactic.Ring
import Mathlib.Tactic.FieldSimp
import Mathlib.Tactic.NormNum
import Mathlib.Tactic.Positivity

namespace Verif.NatWeath

theorem sum_nonneg {l : List ℝ} (h : ∀ x ∈ l, 0 ≤ x) : 0 ≤ l.sum := List.sum_nonneg h

theorem sum_map_sub {α : Type} (l : List α) (f g : α → ℝ) :
    (l.map f).sum - (l.map g).sum = (l.map (fun a => f a - g a)).sum := by
  induction l with
  | nil => simp
  | cons a l ih => simp only [List.map_cons, List.sum_cons, ← ih]; ring

theorem sum_map_add {α : Type} (l : List α) (f g : α → ℝ) :
    (l.map (fun a => f a + g a)).sum = (l.map f).sum + (l.map g).sum := by
  induction l with
  | nil => simp
  | cons a l ih => simp only [List.map_cons, List.sum_cons, ih]; ring

theorem sum_map_le {α : Type} (l : List α) (f g : α → ℝ) (h : ∀ a ∈ l, f a ≤ g a) :
    (l.map f).sum ≤ (l.map g).sum := by
  induction l with
  | nil => simp
  | cons a l ih =>
    simp only [List.map_cons, List.sum_cons]
    have := ih (fun b hb => h b (by simp [hb]))
    have := h a (by simp)
    linarith

theorem forall₂_map {α : Type} {R : α → α → Prop} (l : List α) (f : α → α) (h : ∀ a ∈ l, R a (f a)) :
    List.Forall₂ R l (l.map f) := by
  induction l with
  | nil => exact .nil
  | cons a l ih => exact .cons (h a (by simp)) (ih (fun b hb => h b (by simp [hb])))

theorem zip_sub_sum (c r : List ℝ) (h : c.length = r.length) :
    (List.zipWith (fun m m' => m - m') c r).sum = c.sum - r.sum := by
  induction c generalizing r with
  | nil => cases r with
    | nil => simp
    | cons => simp at h
  | cons a c ih => cases r with
    | nil => simp at h
    | cons b r =>
      simp only [List.zipWith_cons_cons, List.sum_cons]
      rw [ih r (by simpa using h)]; ring

theorem less_sum {c c' : List ℝ} (h : List.Forall₂ (fun c c' => 0 ≤ c' ∧ c' ≤ c) c c') :
    0 ≤ c'.sum ∧ c'.sum ≤ c.sum := by
  induction h with
  | nil => simp
  | cons h _ ih => simp only [List.sum_cons]; exact ⟨by linarith [h.1, ih.1], by linarith [h.2, ih.2]⟩

theorem less_refl_of {e : El} (h : Sound e) : Less e e := by
  refine ⟨?_, h.1⟩
  have := h.2
  generalize e.comps = c at this
  induction c with
  | nil => exact .nil
  | cons a c ih => exact .cons ⟨this a (by simp), le_refl _⟩ (ih (fun b hb => this b (by simp [hb])))

/-! ### evaporation -/

theorem expDecay_less (c k : List ℝ) (dt : ℝ) (hl : c.length = k.length) (hc : ∀ x ∈ c, 0 ≤ x)
    (hk : ∀ x ∈ k, x ≤ 0) (hd : 0 ≤ dt) :
    List.Forall₂ (fun c c' => 0 ≤ c' ∧ c' ≤ c) c (expDecay c k dt) := by
  induction c generalizing k with
  | nil => cases k <;> simp [expDecay]
  | cons a c ih =>
    cases k with
    | nil => simp at hl
    | cons b k =>
      refine .cons ?_ (ih k (by simpa using hl) (fun x hx => hc x (by simp [hx])) (fun x hx => hk x (by simp [hx])))
      have h0 := hc a (by simp)
      have h1 := hk b (by simp)
      have h2 : Real.exp (b * dt) ≤ 1 := Real.exp_le_one_iff.2 (mul_nonpos_of_nonpos_of_nonneg h1 hd)
      exact ⟨mul_nonneg h0 (Real.exp_pos _).le, by nlinarith [Real.exp_pos (b * dt)]⟩

theorem expDecay_length (c k : List ℝ) (dt : ℝ) (hl : c.length = k.length) : (expDecay c k dt).length = c.length := by
  simp [expDecay, hl]

/-- Evaporation takes from the elements what it adds to 'evaporated', whenever
it does not raise. -/
theorem C82_evaporation (T : ℝ) (o : List Comp) (dt : ℝ) (U : ℝ × ℝ → ℝ) (els els' : List El) (a : ℝ)
    (hd : 0 ≤ dt) (hs : ∀ e ∈ els, Sound e ∧ e.comps.length = o.length)
    (h : evaporate T o dt U els = some (els', a)) : Accounts els els' a := by
  unfold evaporate at h
  split at h
  · exact absurd h (by simp)
  · rename_i hk
    push Not at hk
    simp only [Option.some.injEq, Prod.mk.injEq] at h
    obtain ⟨rfl, rfl⟩ := h
    have hL : ∀ e ∈ els, List.Forall₂ (fun c c' => 0 ≤ c' ∧ c' ≤ c) e.comps
        (expDecay e.comps (decay T o (U e.pos) e) dt) := fun e he =>
      expDecay_less _ _ _ (by simp [decay, (hs e he).2]) (hs e he).1.2 (hk e he) hd
    have ha : ∀ e ∈ els, (evapEl T o dt (U e.pos) e).2 = e.mass - (evapEl T o dt (U e.pos) e).1.mass := by
      intro e he
      simp only [evapEl, El.withComps]
      rw [zip_sub_sum _ _ (List.Forall₂.length_eq (hL e he)), (hs e he).1.1]
    refine ⟨?_, ?_, ?_⟩
    · rw [List.map_congr_left ha, ← sum_map_sub els El.mass]
      simp only [totalMass, List.map_map, Function.comp_def]
      ring
    · rw [List.map_congr_left ha]
      refine sum_nonneg (fun x hx => ?_)
      obtain ⟨e, he, rfl⟩ := List.mem_map.1 hx
      have := (less_sum (hL e he)).2
      rw [← (hs e he).1.1] at this
      simpa [evapEl, El.withComps] using this
    · exact forall₂_map _ _ (fun e he => ⟨hL e he, rfl⟩)

theorem zip_nonneg {α : Type} (f : ℝ → α → ℝ) (c : List ℝ) (o : List α)
    (h : ∀ m ∈ c, ∀ p ∈ o, 0 ≤ f m p) : 0 ≤ (List.zipWith f c o).sum := by
  induction c generalizing o with
  | nil => simp
  | cons a c ih => cases o with
    | nil => simp
    | cons b o =>
      simp only [List.zipWith_cons_cons, List.sum_cons]
      have := h a (by simp) b (by simp)
      have := ih o (fun m hm p hp => h m (by simp [hm]) p (by simp [hp]))
      linarith

/-- With an oil and elements as they can be, evaporation does not raise. -/
theorem C82_evaporation_runs (T : ℝ) (o : List Comp) (dt : ℝ) (U : ℝ × ℝ → ℝ) (els : List El) (hT : 0 ≤ T)
    (ho : ∀ p ∈ o, p.Real) (hs : ∀ e ∈ els, e.Real) : ∃ r, evaporate T o dt U els = some r := by
  unfold evaporate
  rw [if_neg]
  · exact ⟨_, rfl⟩
  · push Not
    intro e he k hk
    simp only [decay, List.mem_map] at hk
    obtain ⟨p, hp, rfl⟩ := hk
    have hp' := ho p hp
    have he' := hs e he
    have h1 : 0 ≤ transport (U e.pos) := by
      unfold transport
      have : 0 ≤ (if U e.pos < 1 then 1 else U e.pos) := by split <;> linarith
      positivity
    have h2 : 0 ≤ puddle e := Real.rpow_nonneg (le_max_of_le_right zero_le_one) _
    have h3 : 0 ≤ sumMolar o e.comps := zip_nonneg _ _ _ (fun m hm p hp =>
      div_nonneg (he'.sound.2 m hm) (by have := (ho p hp).mw; positivity))
    have h4 : 0 ≤ e.area * (1 - e.fracWater) := mul_nonneg he'.area (by linarith [he'.water.2])
    have h5 : 0 ≤ (1.380277 * (0.018 / (p.mw / 1000)) ^ (1 / 3 : ℝ) : ℝ) := by
      have := hp'.mw; positivity
    have h6 := hp'.vp
    have : -e.area * (1 - e.fracWater) * transport (U e.pos) * puddle e / (8.314 * T * sumMolar o e.comps) * p.vp *
      (1.380277 * (0.018 / (p.mw / 1000)) ^ (1 / 3 : ℝ)) =
      -(e.area * (1 - e.fracWater) * transport (U e.pos) * puddle e / (8.314 * T * sumMolar o e.comps) * p.vp *
      (1.380277 * (0.018 / (p.mw / 1000)) ^ (1 / 3 : ℝ))) := by ring
    rw [this, Left.neg_nonpos_iff]
    refine mul_nonneg (mul_nonneg (div_nonneg (mul_nonneg (mul_nonneg h4 h1) h2) ?_) h6) h5
    positivity

/-! ### natural dispersion -/

theorem shrink_mass (f : ℝ) (e : El) (h : Sound e) : (shrink f e).mass = (1 - f) * e.mass := by
  simp only [shrink, El.withComps, h.1]
  rw [List.sum_map_mul_left]; simp

theorem shrink_sound (f : ℝ) (e : El) (h : Sound e) (hf : f ≤ 1) : Sound (shrink f e) := by
  refine ⟨rfl, ?_⟩
  intro c hc
  simp only [shrink, El.withComps, List.mem_map] at hc
  obtain ⟨d, hd, rfl⟩ := hc
  exact mul_nonneg (by linarith) (h.2 d hd)

theorem total_shrink (f : ℝ) (els : List El) (h : ∀ e ∈ els, Sound e) :
    totalMass (els.map (shrink f)) = (1 - f) * totalMass els := by
  simp only [totalMass, List.map_map]
  rw [← List.sum_map_mul_left]
  congr 1
  exact List.map_congr_left (fun e he => shrink_mass f e (h e he))

theorem share_le (x M : ℝ) : share x M ≤ 1 := by
  unfold share
  split
  · split
    · exact le_refl _
    · rename_i h; exact not_lt.1 h
  · exact zero_le_one

theorem share_nonneg (x M : ℝ) (hx : 0 ≤ x) : 0 ≤ share x M := by
  unfold share
  split
  · split
    · exact zero_le_one
    · positivity
  · exact le_refl _

theorem share_mul (x M : ℝ) (hx : 0 ≤ x) (hM : x ≤ M) : share x M * M = x := by
  unfold share
  split
  · rename_i h
    rw [if_neg (not_lt.2 ((div_le_one h).2 hM))]
    field_simp
  · rename_i h
    have : x = 0 := le_antisymm (le_trans hM (not_lt.1 h)) hx
    simp [this]

/-- If no element gives more than it has, what is added to the two entries is
what the elements lose together. -/
theorem takeAway_accounts (f : El → ℝ × ℝ) (els : List El) (hs : ∀ e ∈ els, Sound e)
    (hf : ∀ e ∈ els, 0 ≤ (f e).1 ∧ 0 ≤ (f e).2 ∧ (f e).1 + (f e).2 ≤ e.mass) :
    Accounts els (takeAway f els).1 ((takeAway f els).2.1 + (takeAway f els).2.2) := by
  simp only [takeAway]
  set d := (els.map (fun e => (f e).1)).sum with hd
  set s := (els.map (fun e => (f e).2)).sum with hs'
  have hd0 : 0 ≤ d := sum_nonneg (by
    intro x hx; obtain ⟨e, he, rfl⟩ := List.mem_map.1 hx; exact (hf e he).1)
  have hs0 : 0 ≤ s := sum_nonneg (by
    intro x hx; obtain ⟨e, he, rfl⟩ := List.mem_map.1 hx; exact (hf e he).2.1)
  have hds : d + s ≤ totalMass els := by
    have h1 : d + s = (els.map (fun e => (f e).1 + (f e).2)).sum := (sum_map_add els _ _).symm
    rw [h1]
    exact sum_map_le _ _ _ (fun e he => (hf e he).2.2)
  have e1 := total_shrink (share d (totalMass els)) els hs
  have e2 := share_mul d (totalMass els) hd0 (by linarith)
  have hT1 : totalMass (els.map (shrink (share d (totalMass els)))) = totalMass els - d := by
    rw [e1]; linarith
  have hs1 : ∀ e ∈ els.map (shrink (share d (totalMass els))), Sound e := by
    intro e he
    obtain ⟨e0, he0, rfl⟩ := List.mem_map.1 he
    exact shrink_sound _ _ (hs e0 he0) (share_le _ _)
  have e3 := total_shrink (share s (totalMass (els.map (shrink (share d (totalMass els)))))) _ hs1
  have e4 := share_mul s (totalMass (els.map (shrink (share d (totalMass els))))) hs0 (by rw [hT1]; linarith)
  refine ⟨by rw [e3]; linarith, by linarith, ?_⟩
  rw [List.map_map]
  refine forall₂_map _ _ (fun e he => ⟨?_, rfl⟩)
  simp only [Function.comp, shrink, El.withComps, List.map_map]
  have h2 := (hs e he).2
  have a1 := share_le d (totalMass els)
  have a2 := share_nonneg d (totalMass els) hd0
  have a3 := share_le s (totalMass (els.map (shrink (share d (totalMass els)))))
  have a4 := share_nonneg s (totalMass (els.map (shrink (share d (totalMass els))))) hs0
  refine forall₂_map _ _ (fun c hc => ?_)
  have hc0 := h2 c hc
  simp only [Function.comp]
  refine ⟨mul_nonneg (by linarith) (mul_nonneg (by linarith) hc0), ?_⟩
  have b1 : (1 - share d (totalMass els)) * c ≤ c := by nlinarith
  have b2 : 0 ≤ (1 - share d (totalMass els)) * c := mul_nonneg (by linarith) hc0
  nlinarith

theorem cap_ok (d s m : ℝ) (hd : 0 ≤ d) (hs : 0 ≤ s) (hm : 0 < m) :
    0 ≤ (cap d s m).1 ∧ 0 ≤ (cap d s m).2 ∧ (cap d s m).1 + (cap d s m).2 ≤ m := by
  unfold cap
  split
  · rename_i h
    have hp : 0 < d + s := lt_trans hm h
    have h1 : d / (d + s) ≤ 1 := (div_le_one hp).2 (by linarith)
    have h2 : 0 ≤ d / (d + s) := div_nonneg hd hp.le
    exact ⟨mul_nonneg h2 hm.le, by simp only; nlinarith, by simp⟩
  · rename_i h
    exact ⟨hd, hs, not_lt.1 h⟩

theorem thickness_nonneg (e : El) (h : e.Real) (hw : e.fracWater < 1) : 0 ≤ thickness e := by
  unfold thickness
  split
  · have := h.mass; have := h.density; have h3 : 0 < 1 - e.fracWater := by linarith
    positivity
  · exact le_refl _

theorem roy_nonneg (v : ℝ) : 0 ≤ roy v := by unfold roy; positivity

theorem cDisp_nonneg (w : Sea) (hw : w.Real) (p : ℝ × ℝ) : 0 ≤ cDisp w p :=
  mul_nonneg (Real.rpow_nonneg (hw.energy p) _) (hw.breaking p)

/-- The sedimented mass is not negative if the oil is not heavier than water. -/
theorem qSed_nonneg (w : Sea) (hw : w.Real) (dt : ℝ) (hd : 0 ≤ dt) (e : El) (he : e.Real)
    (hl : e.density ≤ w.rhoW) : 0 ≤ qSed w dt e := by
  have h1 := roy_nonneg e.viscosity
  have h2 := cDisp_nonneg w hw e.pos
  have h3 := he.area
  have h4 := hw.height e.pos
  have h5 := hw.viscW
  have h6 : 0 ≤ 1 - e.density / w.rhoW := by
    have := (div_le_one hw.rhoW).2 hl; linarith
  have h7 : 0 ≤ riseSpeed w e := by
    unfold riseSpeed
    have : 0 ≤ 0.613 * thickness e * (0.613 * thickness e) := mul_self_nonneg _
    positivity
  have h8 := hw.sediment
  unfold qSed
  simp only
  have h9 : 0 ≤ (if 0.588 * (thickness e ^ (1.7 : ℝ) - 5.0e-8) < 0 then 0 else 0.588 * (thickness e ^ (1.7 : ℝ) - 5.0e-8)) := by
    split
    · exact le_refl _
    · rename_i h; exact not_lt.1 h
  positivity

theorem dsEl_ok (w : Sea) (hw : w.Real) (dt : ℝ) (hd : 0 ≤ dt) (e : El) (he : e.Real) (hl : e.density ≤ w.rhoW) :
    0 ≤ (dsEl w dt e).1 ∧ 0 ≤ (dsEl w dt e).2 ∧ (dsEl w dt e).1 + (dsEl w dt e).2 ≤ e.mass := by
  unfold dsEl
  split
  · exact ⟨le_refl _, le_refl _, by simpa using he.mass.le⟩
  · rename_i h
    have h0 : 0 < 1 - e.fracWater := by linarith [not_le.1 h]
    have h1 := roy_nonneg e.viscosity
    have h2 := cDisp_nonneg w hw e.pos
    have h3 := he.area
    refine cap_ok _ _ _ (by positivity) ?_ he.mass
    split
    · have := qSed_nonneg w hw dt hd e he hl; positivity
    · exact le_refl _

theorem liEl_ok (w : Sea) (hw : w.Real) (dt : ℝ) (hd : 0 ≤ dt) (e : El) (he : e.Real) (hl : e.density < w.rhoW)
    (hv : 0 < e.viscosity) (hy : e.fracWater < 1) :
    0 ≤ (liEl w dt e).1 ∧ 0 ≤ (liEl w dt e).2 ∧ (liEl w dt e).1 + (liEl w dt e).2 ≤ e.mass := by
  unfold liEl
  have h0 : 0 < 1 - e.fracWater := by linarith
  have h1 := he.density
  have h2 := hw.rhoW
  have h3 := he.area
  have h4 := hw.height e.pos
  have h5 := hw.breaking e.pos
  have h6 := thickness_nonneg e he hy
  refine cap_ok _ _ _ (by positivity) ?_ he.mass
  split
  · have := qSed_nonneg w hw dt hd e he hl.le; positivity
  · exact le_refl _

theorem accounts_droplets (els els' : List El) (a : ℝ) (g : El → ℝ) (h : Accounts els els' a) :
    Accounts els (List.zipWith (fun e e' => { e' with droplet := g e }) els els') a := by
  obtain ⟨h1, h2, h3⟩ := h
  refine ⟨?_, h2, ?_⟩
  · rw [← h1]
    congr 1
    clear h1 h2
    unfold totalMass
    induction h3 with
    | nil => rfl
    | cons h _ ih => simp only [List.zipWith_cons_cons, List.map_cons, List.sum_cons, ih]
  · clear h1
    induction h3 with
    | nil => exact .nil
    | cons h _ ih => exact .cons h ih

/-- Natural dispersion leaves droplets of 0.613 times the thickness of the slick before it: volume of the emulsion over its area. -/
theorem C82_droplets (w : Sea) (dt : ℝ) (els : List El) :
    ((disperseDS w dt els).1.map El.droplet) =
      els.map fun e => if 1 ≤ e.fracWater then 0 else if 0 < e.area then 0.613 * (e.mass / (e.density * (1 - e.fracWater) * e.area)) else 0 := by
  have hz : ∀ (a b : List El), a.length = b.length →
      (List.zipWith (fun e e' => { e' with droplet := dsDroplet e }) a b).map El.droplet = a.map dsDroplet := by
    intro a
    induction a with
    | nil => intro b _; simp
    | cons x t ih =>
      intro b hb
      cases b with
      | nil => simp at hb
      | cons y u => simp [ih u (by simpa using hb)]
  have hl : els.length = (takeAway (dsEl w dt) els).1.length := by simp [takeAway]
  unfold disperseDS
  simp only
  rw [hz _ _ hl]
  apply List.map_congr_left
  intro e _
  unfold dsDroplet thickness
  by_cases h : 1 ≤ e.fracWater
  · rw [if_pos h, if_pos h]
  · rw [if_neg h, if_neg h]
    by_cases ha : 0 < e.area
    · rw [if_pos ha, if_pos ha, div_div, div_div]
      congr 2
      ring
    · rw [if_neg ha, if_neg ha, mul_zero]

example : (if (1 : ℝ) ≤ 1 / 2 then (0 : ℝ) else if (0 : ℝ) < 100 then 0.613 * (90 / (900 * (1 - 1 / 2) * 100)) else 0) = 0.001226 := by norm_num

/-- Natural dispersion (D&S1988) of oil that is not heavier than water takes
from the elements what it adds to 'natural_dispersion' and 'sedimentation'. -/
theorem C82_dispersion_partial (w : Sea) (hw : w.Real) (dt : ℝ) (hd : 0 ≤ dt) (els : List El)
    (he : ∀ e ∈ els, e.Real ∧ e.density ≤ w.rhoW) :
    Accounts els (disperseDS w dt els).1 ((disperseDS w dt els).2.1 + (disperseDS w dt els).2.2) ∧
    0 ≤ (disperseDS w dt els).2.1 ∧ 0 ≤ (disperseDS w dt els).2.2 := by
  refine ⟨?_, ?_, ?_⟩
  · simp only [disperseDS]
    refine accounts_droplets _ _ _ _ (takeAway_accounts _ _ (fun e h => (he e h).1.sound) ?_)
    exact fun e h => dsEl_ok w hw dt hd e (he e h).1 (he e h).2
  · refine sum_nonneg (fun x hx => ?_)
    obtain ⟨e, h, rfl⟩ := List.mem_map.1 hx
    exact (dsEl_ok w hw dt hd e (he e h).1 (he e h).2).1
  · refine sum_nonneg (fun x hx => ?_)
    obtain ⟨e, h, rfl⟩ := List.mem_map.1 hx
    exact (dsEl_ok w hw dt hd e (he e h).1 (he e h).2).2.1

/-- The same with Li2017, whenever it neither raises nor gives NaN. -/
theorem C82_dispersion_li_partial (w : Sea) (hw : w.Real) (dt : ℝ) (hd : 0 ≤ dt) (els els' : List El) (d s : ℝ)
    (he : ∀ e ∈ els, e.Real) (h : disperseLi w dt els = .ok (els', d, s)) :
    Accounts els els' (d + s) ∧ 0 ≤ d ∧ 0 ≤ s := by
  unfold disperseLi at h
  split at h
  · exact absurd h (by simp)
  split at h
  · exact absurd h (by simp)
  rename_i hA hB
  push Not at hA hB
  simp only [Res.ok.injEq] at h
  have hk := fun e h => liEl_ok w hw dt hd e (he e h) (hB e h).1 (hB e h).2.2.1 (hB e h).2.2.2
  have := takeAway_accounts (liEl w dt) els (fun e h => (he e h).sound) hk
  rw [h] at this
  refine ⟨this, ?_, ?_⟩
  · have hx : d = (els.map (fun e => (liEl w dt e).1)).sum := by
      have := congrArg (fun r => r.2.1) h; exact this.symm
    rw [hx]
    refine sum_nonneg (fun x hx => ?_)
    obtain ⟨e, h, rfl⟩ := List.mem_map.1 hx
    exact (hk e h).1
  · have hx : s = (els.map (fun e => (liEl w dt e).2)).sum := by
      have := congrArg (fun r => r.2.2) h; exact this.symm
    rw [hx]
    refine sum_nonneg (fun x hx => ?_)
    obtain ⟨e, h, rfl⟩ := List.mem_map.1 hx
    exact (hk e h).2.1

theorem cap_neg (d s m : ℝ) (hm : 0 < m) (hs : s < 0) : (cap d s m).2 < 0 := by
  unfold cap
  split
  · rename_i h
    have hp := lt_trans hm h
    have : 1 < d / (d + s) := (one_lt_div hp).2 (by linarith)
    simp only
    nlinarith
  · exact hs

/-- Oil heavier than water has a negative rising velocity, and with it the
sedimented mass is negative: 'sedimentation' falls and oil appears. -/
theorem C82_heavy_sediment_negative (w : Sea) (hw : w.Real) (dt : ℝ) (hd : 0 < dt) (e : El) (he : e.Real)
    (hy : e.fracWater < 1) (ha : 0 < e.area) (hs : 0 < w.sediment) (ht : 1.0e-4 ≤ thickness e)
    (hv : 5.0e-8 < thickness e ^ (1.7 : ℝ))
    (h1 : 0 < w.height e.pos) (h2 : 0 < w.energy e.pos) (h3 : 0 < w.breaking e.pos)
    (hr : riseSpeed w e * dt + 1.5 * w.height e.pos < 0) : (disperseDS w dt [e]).2.2 < 0 := by
  have hq : qSed w dt e < 0 := by
    unfold qSed
    simp only
    have h4 : 0 < roy e.viscosity := by unfold roy; positivity
    have h5 : 0 < cDisp w e.pos := mul_pos (Real.rpow_pos_of_pos h2 _) h3
    have h6 : 0 < 0.588 * (thickness e ^ (1.7 : ℝ) - 5.0e-8) := mul_pos (by norm_num) (by linarith)
    rw [if_neg (not_lt.2 h6.le)]
    have h7 := hw.rhoW
    have h8 := hw.viscW
    have h9 : 0 < √(w.height e.pos * w.energy e.pos * w.breaking e.pos / (w.rhoW * w.viscW)) :=
      Real.sqrt_pos.2 (by positivity)
    have h10 : roy e.viscosity * cDisp w e.pos * (0.588 * (thickness e ^ (1.7 : ℝ) - 5.0e-8)) * e.area * dt /
        (riseSpeed w e * dt + 1.5 * w.height e.pos) < 0 := div_neg_of_pos_of_neg (by positivity) hr
    exact mul_neg_of_neg_of_pos (mul_neg_of_pos_of_neg (by positivity) h10) hs
  have h0 : 0 < 1 - e.fracWater := by linarith
  have hS : (1 - e.fracWater) * qSed w dt e * dt < 0 :=
    mul_neg_of_neg_of_pos (mul_neg_of_pos_of_neg h0 hq) hd
  have : (dsEl w dt e).2 < 0 := by
    unfold dsEl
    rw [if_neg (not_le.2 hy), if_pos ⟨hs, ht⟩]
    exact cap_neg _ _ _ he.mass hS
  simpa [disperseDS, takeAway] using this

/-- Natural dispersion takes from the elements what it reports, and what it
reports is not negative. -/
def C82_claim : Prop := ∀ (w : Sea) (dt : ℝ) (els : List El), w.Real → 0 ≤ dt → (∀ e ∈ els, e.Real) →
  Accounts els (disperseDS w dt els).1 ((disperseDS w dt els).2.1 + (disperseDS w dt els).2.2) ∧
    0 ≤ (disperseDS w dt els).2.1 ∧ 0 ≤ (disperseDS w dt els).2.2

/-- A sea with waves and some sediment. -/
noncomputable def sea : Sea := ⟨fun _ => 1, fun _ => 1, fun _ => 1, 1.0e-6, 1000, 0.01⟩

/-- 1010 kg of an oil on 10 square metres. -/
noncomputable def blob (rho : ℝ) : El :=
  { pos := (0, 0), comps := [600, 410], mass := 1010, init := 1010, fracEvap := 0, fracLost := 0, area := 10,
    volFrac := 1, density := rho, viscosity := 1.0e-4, droplet := 0, age := 0, fracWater := 0, surf := 0,
    bulltime := -1 }

theorem sea_real : sea.Real := by
  constructor <;> simp [sea] <;> norm_num

theorem blob_real (rho : ℝ) (h : 0 < rho) : (blob rho).Real := by
  constructor <;> simp [blob, Sound, h] <;> norm_num

/-- A blob a little heavier than water. -/
theorem C82_counterexample_heavy : ¬ C82_claim := by
  intro h
  have ht : thickness (blob 1010) = 0.1 := by simp [thickness, blob]; norm_num
  have := (h sea 900 [blob 1010] sea_real (by norm_num) (by simpa using blob_real 1010 (by norm_num))).2.2
  refine absurd this (not_le.2 (C82_heavy_sediment_negative sea sea_real 900 (by norm_num) (blob 1010)
    (blob_real _ (by norm_num)) (by simp [blob]) (by simp [blob]) (by simp [sea]; norm_num) (by rw [ht]; norm_num) ?_
    (by simp [sea]) (by simp [sea]) (by simp [sea]) ?_))
  · rw [ht]
    calc (5.0e-8 : ℝ) < 0.1 ^ (2 : ℝ) := by norm_num
      _ ≤ 0.1 ^ (1.7 : ℝ) := Real.rpow_le_rpow_of_exponent_ge (by norm_num) (by norm_num) (by norm_num)
  · simp only [riseSpeed, ht]
    simp only [sea, blob]
    norm_num

/-- The hypotheses of `C82_dispersion_partial` are met. -/
example : ∀ e ∈ [blob 900], e.Real ∧ e.density ≤ sea.rhoW := by
  simp only [List.mem_singleton, forall_eq]
  exact ⟨blob_real _ (by norm_num), by simp [blob, sea]; norm_num⟩

/-- With Li2017, one element as heavy as water makes every mass NaN, and one
element without area (nothing spreads the oil) raises. -/
theorem C82_counterexample_li :
    disperseLi sea 900 [blob 900, blob 1010] = .nan ∧
    disperseLi sea 900 [blob 900, { blob 900 with area := 0 }] = .raised := by
  constructor
  · unfold disperseLi
    rw [if_neg, if_pos]
    · exact ⟨blob 1010, by simp, Or.inl (by simp [blob, sea]; norm_num)⟩
    · simp [blob]
  · unfold disperseLi
    rw [if_pos]
    exact ⟨{ blob 900 with area := 0 }, by simp, by simp⟩

example : ∃ r, disperseLi sea 900 [blob 900] = .ok r := by
  unfold disperseLi
  rw [if_neg, if_neg]
  · exact ⟨_, rfl⟩
  · simp [blob, sea]; norm_num
  · simp [blob]

/-! ### dissolution -/

theorem breaking_bounds (u : ℝ) : 0.01 ≤ breakingFrac u ∧ breakingFrac u ≤ 1 :=
  ⟨le_min (le_max_right _ _) (by norm_num), min_le_right _ _⟩

theorem calm_nonneg (u : ℝ) (h : 0 ≤ u) : 0 ≤ calm u := by
  unfold calm
  have ⟨h1, h2⟩ := breaking_bounds u
  have h3 : 1 ≤ 1 / breakingFrac u := (one_le_div (by linarith)).2 h2
  exact mul_nonneg (by linarith) (by linarith)

theorem timeInWater_bounds (w : Sea) (o : List Comp) (dt u : ℝ) (e : El) (hd : 0 ≤ dt) :
    0 ≤ timeInWater w o dt u e ∧ timeInWater w o dt u e ≤ dt := by
  unfold timeInWater
  split
  · simp [hd]
  · have h1 : 0 ≤ min (max (0.75 * w.height e.pos / kw w.rhoW o e / calm u) 0) 1 :=
      le_min (le_max_right _ _) zero_le_one
    have h2 : min (max (0.75 * w.height e.pos / kw w.rhoW o e / calm u) 0) 1 ≤ 1 := min_le_right _ _
    exact ⟨mul_nonneg h1 hd, by nlinarith⟩

/-- The times in the water and at the surface fit into the step, as the
assertions in the code say (dissolution.py 208-210). -/
theorem C82_dissolution_times (w : Sea) (o : List Comp) (dt u : ℝ) (e : El) (hd : 0 ≤ dt) :
    0 ≤ timeInWater w o dt u e ∧ 0 ≤ timeCalm dt u (timeInWater w o dt u e) ∧
      timeInWater w o dt u e + timeCalm dt u (timeInWater w o dt u e) ≤ dt := by
  have ⟨h1, h2⟩ := timeInWater_bounds w o dt u e hd
  refine ⟨h1, le_min (le_max_right _ _) (by linarith), ?_⟩
  linarith [min_le_right (max (calm u) 0) (dt - timeInWater w o dt u e), show timeCalm dt u (timeInWater w o dt u e) =
    min (max (calm u) 0) (dt - timeInWater w o dt u e) from rfl]

/-- A droplet that does not rise is not in the water. -/
theorem timeInWater_zero (w : Sea) (hw : w.Real) (o : List Comp) (dt u : ℝ) (e : El) (hu : 0 ≤ u)
    (h : kw w.rhoW o e < 0) : timeInWater w o dt u e = 0 := by
  unfold timeInWater
  rw [if_neg h.ne]
  have h1 : 0.75 * w.height e.pos / kw w.rhoW o e / calm u ≤ 0 :=
    div_nonpos_of_nonpos_of_nonneg (div_nonpos_of_nonneg_of_nonpos
      (mul_nonneg (by norm_num) (hw.height e.pos)) h.le) (calm_nonneg u hu)
  rw [max_eq_right h1]
  simp

theorem dissWind_pos (U : ℝ) : 0 < dissWind U := lt_max_of_lt_right (by norm_num)

theorem avgRho_nonneg (o : List Comp) (ho : ∀ p ∈ o, p.Real) (e : El) (he : Sound e) : 0 ≤ avgRho o e :=
  zip_nonneg _ _ _ (fun m hm p hp =>
    mul_nonneg (div_nonneg (he.2 m hm) (sum_nonneg he.2)) (ho p hp).rho.le)

theorem kow_nonneg (p : Comp) : 0 ≤ kow p := by unfold kow; split <;> positivity

theorem dissOne_bounds (w : Sea) (hw : w.Real) (o : List Comp) (ho : ∀ p ∈ o, p.Real) (dt : ℝ) (hd : 0 ≤ dt)
    (us : List ℝ) (hus : ∀ u ∈ us, 0 ≤ u) (u : ℝ) (hu : 0 ≤ u) (e : El) (he : Sound e) (ha : 0 ≤ e.area)
    (hdr : 0 ≤ e.droplet) (m : ℝ) (hm : 0 ≤ m) (p : Comp) :
    0 ≤ dissOne w o dt us u e m p ∧ dissOne w o dt us u e m p ≤ m := by
  have hc : 0 ≤ conc o e m := mul_nonneg (div_nonneg hm (sum_nonneg he.2)) (avgRho_nonneg o ho e he)
  have hk := kow_nonneg p
  have ⟨t1, t2⟩ := timeInWater_bounds w o dt u e hd
  have hv : 0 ≤ volume o e := zip_nonneg _ _ _ (fun m hm p hp => div_nonneg (he.2 m hm) (ho p hp).rho.le)
  have h1 : 0 ≤ dropRate w o e m p * timeInWater w o dt u e := by
    by_cases hneg : kw w.rhoW o e < 0
    · rw [timeInWater_zero w hw o dt u e hu hneg]; simp
    · refine mul_nonneg ?_ t1
      unfold dropRate
      have h2 : 0 ≤ kw w.rhoW o e := not_lt.1 hneg
      have h3 : 0 ≤ (if p.arom then conc o e m else 0) := by split <;> simp [hc]
      have h4 := Real.pi_pos
      positivity
  have h2 : 0 ≤ slickRate us o e m p * timeCalm dt u (timeInWater w o dt u e) := by
    refine mul_nonneg ?_ (le_min (le_max_right _ _) (by linarith))
    unfold slickRate
    split
    · have : 0 ≤ (us.map (fun u => u / 3600)).prod := List.prod_nonneg (by
        intro x hx
        obtain ⟨v, hv, rfl⟩ := List.mem_map.1 hx
        exact div_nonneg (hus v hv) (by norm_num))
      positivity
    · exact le_refl _
  unfold dissOne
  simp only
  constructor
  · rcases min_choice (m - (dropRate w o e m p * timeInWater w o dt u e +
      slickRate us o e m p * timeCalm dt u (timeInWater w o dt u e))) 0 with h | h <;> rw [h] <;> linarith
  · linarith [min_le_left (m - (dropRate w o e m p * timeInWater w o dt u e +
      slickRate us o e m p * timeCalm dt u (timeInWater w o dt u e))) 0]

theorem zip_sub_less (g : ℝ → Comp → ℝ) (c : List ℝ) (o : List Comp) (hl : c.length = o.length)
    (h : ∀ m ∈ c, ∀ p ∈ o, 0 ≤ g m p ∧ g m p ≤ m) :
    List.Forall₂ (fun c c' => 0 ≤ c' ∧ c' ≤ c) c (List.zipWith (fun m d => m - d) c (List.zipWith g c o)) := by
  induction c generalizing o with
  | nil => simp
  | cons a c ih => cases o with
    | nil => simp at hl
    | cons b o =>
      simp only [List.zipWith_cons_cons]
      have := h a (by simp) b (by simp)
      exact .cons ⟨by linarith [this.2], by linarith [this.1]⟩
        (ih o (by simpa using hl) (fun m hm p hp => h m (by simp [hm]) p (by simp [hp])))

/-- Dissolution takes from the elements what it adds to 'dissolution'. -/
theorem C82_dissolution (w : Sea) (hw : w.Real) (o : List Comp) (ho : ∀ p ∈ o, p.Real) (dt : ℝ) (hd : 0 ≤ dt)
    (U : ℝ × ℝ → ℝ) (els : List El) (he : ∀ e ∈ els, e.Real ∧ e.comps.length = o.length) :
    Accounts els (dissolve w o dt U els).1 (dissolve w o dt U els).2 := by
  simp only [dissolve]
  set us := els.map (fun e => dissWind (U e.pos))
  have hus : ∀ u ∈ us, 0 ≤ u := by
    intro u hu
    obtain ⟨e, _, rfl⟩ := List.mem_map.1 hu
    exact (dissWind_pos _).le
  have hb := fun (e : El) (h : e ∈ els) (m : ℝ) (hm : m ∈ e.comps) (p : Comp) =>
    dissOne_bounds w hw o ho dt hd us hus (dissWind (U e.pos)) (dissWind_pos _).le e (he e h).1.sound
      (he e h).1.area (he e h).1.droplet m ((he e h).1.sound.2 m hm) p
  refine ⟨?_, ?_, ?_⟩
  · simp only [totalMass, List.map_map, Function.comp_def, El.withComps]
    rw [← sum_map_add]
    congr 1
    refine List.map_congr_left (fun e h => ?_)
    rw [zip_sub_sum _ _ (by simp [(he e h).2]), (he e h).1.sound.1]
    ring
  · refine sum_nonneg (fun x hx => ?_)
    obtain ⟨e, h, rfl⟩ := List.mem_map.1 hx
    exact zip_nonneg _ _ _ (fun m hm p _ => (hb e h m hm p).1)
  · exact forall₂_map _ _ (fun e h => ⟨zip_sub_less _ _ _ (he e h).2 (fun m hm p _ => hb e h m hm p), rfl⟩)

/-! ### biodegradation -/

theorem bioEl_less (o : List Comp) (ho : ∀ p ∈ o, p.Real) (y : ℝ) (hy : 0 ≤ y) (e : El) (he : Sound e)
    (hl : e.comps.length = o.length) : Less e (bioEl o y e) := by
  refine ⟨?_, rfl⟩
  simp only [bioEl, El.withComps]
  have hc := he.2
  generalize e.comps = c at hl hc
  induction c generalizing o with
  | nil => simp
  | cons a c ih => cases o with
    | nil => simp at hl
    | cons b o =>
      refine .cons ?_ (ih o (fun p hp => ho p (by simp [hp])) (by simpa using hl) (fun x hx => hc x (by simp [hx])))
      have h0 := hc a (by simp)
      have h1 := (ho b (by simp)).K
      have h2 : Real.exp ((0 - y) * (6 * b.K)) ≤ 1 := Real.exp_le_one_iff.2 (by nlinarith)
      exact ⟨mul_nonneg h0 (Real.exp_pos _).le, by nlinarith [Real.exp_pos ((0 - y) * (6 * b.K))]⟩

theorem accounts_map (els : List El) (f : El → El) (h : ∀ e ∈ els, Sound e) (hf : ∀ e ∈ els, Less e (f e)) :
    Accounts els (els.map f) (totalMass els - ((els.map f).map (fun e => e.comps.sum)).sum) := by
  have hm : totalMass (els.map f) = ((els.map f).map (fun e => e.comps.sum)).sum := by
    simp only [totalMass, List.map_map]
    congr 1
    exact List.map_congr_left (fun e he => (hf e he).2)
  refine ⟨by rw [hm]; ring, ?_, forall₂_map _ _ hf⟩
  simp only [totalMass, List.map_map, sub_nonneg]
  refine sum_map_le _ _ _ (fun e he => ?_)
  rw [(h e he).1]
  exact (less_sum (hf e he).1).2

/-- Biodegradation takes from the elements what it adds to 'bio_degradation',
whenever the masses do not become NaN. -/
theorem C82_biodegradation_partial (o : List Comp) (ho : ∀ p ∈ o, p.Real) (els els' : List El) (a : ℝ)
    (he : ∀ e ∈ els, e.Real ∧ e.comps.length = o.length) (h : biodegrade o els = .ok (els', a)) :
    Accounts els els' a := by
  have hS := fun e h => (he e h).1.sound
  have hL : ∀ e ∈ els, Less e (bioEl o (1 / (e.droplet * e.density)) e) := fun e h =>
    bioEl_less o ho _ (by have := (he e h).1.droplet; have := (he e h).1.density; positivity) e (hS e h) (he e h).2
  unfold biodegrade at h
  split at h
  · simp only [Res.ok.injEq, Prod.mk.injEq] at h
    obtain ⟨rfl, rfl⟩ := h
    exact accounts_map _ _ hS (fun e h => bioEl_less o ho 0 (le_refl _) e (hS e h) (he e h).2)
  split at h
  · split at h
    · exact absurd h (by simp)
    · simp only [Res.ok.injEq, Prod.mk.injEq] at h
      obtain ⟨rfl, rfl⟩ := h
      refine accounts_map _ _ hS (fun e h => ?_)
      split
      · refine ⟨?_, rfl⟩
        simp only [El.withComps]
        exact forall₂_map _ _ (fun c hc => ⟨le_refl _, (hS e h).2 c hc⟩)
      · exact hL e h
  · simp only [Res.ok.injEq, Prod.mk.injEq] at h
    obtain ⟨rfl, rfl⟩ := h
    exact accounts_map _ _ hS hL

/-- Two components, the second neither degrades nor is aromatic. -/
noncomputable def oil : List Comp := [⟨1000, 100, 850, true, 0.001⟩, ⟨1, 300, 950, false, 0⟩]

theorem oil_real : ∀ p ∈ oil, p.Real := by
  intro p hp
  simp only [oil, List.mem_cons, List.not_mem_nil, or_false] at hp
  rcases hp with rfl | rfl <;> constructor <;> norm_num

/-- A newly released element beside elements that natural dispersion gave a
droplet size to. -/
theorem C82_counterexample_bio : biodegrade oil [blob 900, { blob 900 with droplet := 0.05 }] = .nan := by
  unfold biodegrade
  rw [if_neg, if_pos, if_pos]
  · exact ⟨⟨1, 300, 950, false, 0⟩, by simp [oil], rfl⟩
  · exact ⟨blob 900, by simp, by simp [blob]⟩
  · intro h
    have := h { blob 900 with droplet := 0.05 } (by simp)
    norm_num at this

example : ∀ e ∈ [blob 900], e.Real ∧ e.comps.length = oil.length := by
  simp only [List.mem_singleton, forall_eq]
  exact ⟨blob_real _ (by norm_num), by simp [blob, oil]⟩

example : ∃ r, biodegrade oil [blob 900] = .ok r := by
  unfold biodegrade
  rw [if_pos (by simp [blob])]
  exact ⟨_, rfl⟩

end Verif.NatWeath
