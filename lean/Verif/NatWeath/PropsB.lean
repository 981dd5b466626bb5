import Verif.NatWeath.Props

namespace Verif.NatWeath

/-! ### what happens to an element depends on that element -/

/-- What a process does to an element does not depend on the other elements. -/
def Local (f : List El → Option (List El)) : Prop :=
  ∃ g : El → El, ∀ els els', f els = some els' → els' = els.map g

/-- The element lists of the outcomes. -/
def Res.fst {α β : Type} : Res (α × β) → Option α
  | .ok a => some a.1
  | _ => none

theorem C83_evaporation (T : ℝ) (o : List Comp) (dt : ℝ) (U : ℝ × ℝ → ℝ) :
    Local (fun els => (evaporate T o dt U els).map Prod.fst) := by
  refine ⟨fun e => (evapEl T o dt (U e.pos) e).1, fun els els' h => ?_⟩
  simp only [evaporate] at h
  split at h
  · exact absurd h (by simp)
  · simpa using h.symm

theorem mapM_local {α : Type} (f : α → Option α) (l l' : List α) (h : l.mapM f = some l') :
    l' = l.map (fun a => (f a).getD a) := by
  induction l generalizing l' with
  | nil => simpa using h.symm
  | cons a l ih =>
    rw [List.mapM_cons] at h
    cases hf : f a with
    | none => simp [hf] at h
    | some b =>
      cases hl : l.mapM f with
      | none => simp [hf, hl] at h
      | some r =>
        simp only [hf, hl, Option.bind_eq_bind, Option.bind_some, Option.pure_def, Option.some.injEq] at h
        rw [← h, List.map_cons, hf, ih r hl]
        rfl

theorem C83_emulsification (m : Emul) (dt : ℝ) (U : ℝ × ℝ → ℝ) : Local (emulsify m dt U) := by
  by_cases hm : m.yMax ≤ 0
  · refine ⟨id, fun els els' h => ?_⟩
    simp only [emulsify, if_pos hm, Option.some.injEq] at h
    simp [h]
  · refine ⟨fun e => (emulEl m (kEmul (U e.pos)) dt e).getD e, fun els els' h => ?_⟩
    simp only [emulsify, if_neg hm] at h
    exact mapM_local _ _ _ h

/-- Natural dispersion reports the sum of what each element gives by itself;
it takes the same fraction of every element. -/
theorem C83_dispersion_partial (w : Sea) (dt : ℝ) (els els' : List El) :
    (disperseDS w dt (els ++ els')).2.1 = (disperseDS w dt els).2.1 + (disperseDS w dt els').2.1 ∧
    (disperseDS w dt (els ++ els')).2.2 = (disperseDS w dt els).2.2 + (disperseDS w dt els').2.2 ∧
    ∃ f, List.Forall₂ (fun e e' : El => e'.comps = e.comps.map (fun c => f * c)) els (disperseDS w dt els).1 := by
  refine ⟨by simp [disperseDS, takeAway], by simp [disperseDS, takeAway], ?_⟩
  simp only [disperseDS, takeAway]
  generalize share (els.map (fun e => (dsEl w dt e).1)).sum (totalMass els) = f
  generalize share (els.map (fun e => (dsEl w dt e).2)).sum (totalMass (els.map (shrink f))) = f'
  refine ⟨(1 - f') * (1 - f), ?_⟩
  induction els with
  | nil => exact .nil
  | cons e els ih =>
    refine .cons ?_ ih
    simp [shrink, El.withComps, List.map_map, Function.comp_def, mul_assoc]

/-- Each of the processes treats an element by itself. -/
def C83_claim : Prop :=
  (∀ w dt, w.Real → 0 ≤ dt → Local (fun els => some (disperseDS w dt els).1)) ∧
  (∀ w o dt U, w.Real → 0 ≤ dt → (∀ p ∈ o, p.Real) → Local (fun els => some (dissolve w o dt U els).1))

theorem cap_pos (d s m : ℝ) (hm : 0 < m) (hd : 0 < d) : 0 < (cap d s m).1 := by
  unfold cap
  split
  · rename_i h
    exact mul_pos (div_pos hd (lt_trans hm h)) hm
  · exact hd

/-- An element without area by itself loses nothing, beside a blob on the
water it loses its share of what the blob gives. -/
theorem C83_counterexample_dispersion : ¬ Local (fun els => some (disperseDS sea 900 els).1) := by
  rintro ⟨g, hg⟩
  let e : El := { blob 900 with area := 0 }
  have h1 := hg [e] _ rfl
  have h2 := hg [e, blob 900] _ rfl
  have d0 : dsEl sea 900 e = (0, 0) := by
    simp [dsEl, thickness, e, blob, cap]
    norm_num
  have hb := dsEl_ok sea sea_real 900 (by norm_num) (blob 900) (blob_real _ (by norm_num)) (by simp [blob, sea]; norm_num)
  have hbp : 0 < (dsEl sea 900 (blob 900)).1 := by
    have hq : 0 ≤ qSed sea 900 (blob 900) := qSed_nonneg sea sea_real 900 (by norm_num) _
      (blob_real _ (by norm_num)) (by simp [blob, sea]; norm_num)
    unfold dsEl
    rw [if_neg (by simp [blob])]
    simp only
    have hr : 0 < roy (blob 900).viscosity := by unfold roy; positivity
    have hc : 0 < cDisp sea (blob 900).pos := by simp [cDisp, sea]
    have hd : 0 < roy (blob 900).viscosity * cDisp sea (blob 900).pos * 3.9e-8 * (1 - (blob 900).fracWater) *
        (blob 900).area * 900 := by
      have : (blob 900).fracWater = 0 := rfl
      have : (blob 900).area = 10 := rfl
      simp only [*]
      positivity
    exact cap_pos _ _ _ (by simp [blob]) hd
  set d := (dsEl sea 900 (blob 900)).1
  set s := (dsEl sea 900 (blob 900)).2
  have m1 : (g e).mass = 1010 := by
    simp only [disperseDS, takeAway, List.map_cons, List.map_nil, d0, List.sum_cons, List.sum_nil, List.zipWith_cons_cons,
      List.zipWith_nil_left, List.cons.injEq, and_true] at h1
    rw [← h1]
    simp [share, shrink, El.withComps, e, blob]
    norm_num
  have m2 : (g e).mass < 1010 := by
    simp only [disperseDS, takeAway, List.map_cons, List.map_nil, d0, List.sum_cons, List.sum_nil, List.zipWith_cons_cons,
      List.zipWith_nil_left, List.cons.injEq, and_true] at h2
    rw [← h2.1]
    have hsh : 0 < share (0 + (d + 0)) (totalMass [e, blob 900]) := by
      have ht : totalMass [e, blob 900] = 2020 := by simp [totalMass, e, blob]; norm_num
      rw [ht]
      unfold share
      rw [if_pos (by norm_num)]
      split
      · norm_num
      · simp only [zero_add, add_zero]; positivity
    have hsh1 := share_le (0 + (d + 0)) (totalMass [e, blob 900])
    generalize share (0 + (d + 0)) (totalMass [e, blob 900]) = f at hsh hsh1
    have hf' := share_le (0 + (s + 0)) (totalMass [shrink f e, shrink f (blob 900)])
    have hf'' := share_nonneg (0 + (s + 0)) (totalMass [shrink f e, shrink f (blob 900)]) (by linarith [hb.2.1])
    generalize share (0 + (s + 0)) (totalMass [shrink f e, shrink f (blob 900)]) = f' at hf' hf''
    simp only [shrink, El.withComps, e, blob, List.map_cons, List.map_nil, List.sum_cons, List.sum_nil]
    have b1 : (1 - f') * (1 - f) ≤ 1 * (1 - f) := mul_le_mul_of_nonneg_right (by linarith) (by linarith)
    have b2 : (1 - f') * ((1 - f) * 600) + ((1 - f') * ((1 - f) * 410) + 0) = (1 - f') * (1 - f) * 1010 := by ring
    rw [b2]
    linarith
  linarith

/-- One heavy aromatic component. -/
noncomputable def tar : List Comp := [⟨0, 100, 1100, true, 0⟩]

/-- A kilogram of it. -/
noncomputable def drop : El := { blob 1100 with comps := [1], mass := 1, init := 1, area := 1, droplet := 0.001 }

/-- The winds at all the elements are multiplied: two drops dissolve almost
nothing where one by itself dissolves. -/
theorem C83_counterexample_dissolution : ¬ Local (fun els => some (dissolve sea tar 1 (fun _ => 3.6) els).1) := by
  rintro ⟨g, hg⟩
  have h1 := hg [drop] _ rfl
  have h2 := hg [drop, drop] _ rfl
  have hW : dissWind 3.6 = 3.6 := by norm_num [dissWind]
  have ha : avgRho tar drop = 1100 := by simp [avgRho, tar, drop]
  have hk : kw sea.rhoW tar drop < 0 := by
    simp only [kw, ha]
    simp only [sea, drop, blob]
    norm_num
  have ht : timeInWater sea tar 1 3.6 drop = 0 := timeInWater_zero sea sea_real tar 1 _ drop (by norm_num) hk
  have hc : 0 < timeCalm 1 3.6 0 := by
    have hb : breakingFrac 3.6 = 0.01 := by norm_num [breakingFrac]
    simp only [timeCalm, calm, hb]
    norm_num
  have hc1 : timeCalm 1 3.6 0 ≤ 1 := le_trans (min_le_right _ _) (by norm_num)
  let p : Comp := ⟨0, 100, 1100, true, 0⟩
  have hK : 1.8 ≤ kow p := by
    have : 1 ≤ Real.exp (0.059 * 1000 * 100 / 1100) := Real.one_le_exp (by norm_num)
    simp only [kow, p, if_true]
    linarith
  have key : ∀ us : List ℝ, 0 ≤ (us.map (fun u => u / 3600)).prod → (us.map (fun u => u / 3600)).prod ≤ 0.001 →
      dissOne sea tar 1 us 3.6 drop 1 p =
        0.01 * (us.map (fun u => u / 3600)).prod * (1100 / kow p) * timeCalm 1 3.6 0 := by
    intro us h0 h1
    have hA : 1100 / kow p ≤ 1000 := (div_le_iff₀ (by linarith)).2 (by linarith)
    have hA0 : 0 ≤ 1100 / kow p := div_nonneg (by norm_num) (by linarith)
    have hco : conc tar drop 1 = 1100 := by simp [conc, ha]; simp [drop]
    have hsl : slickRate us tar drop 1 p = 0.01 * (us.map (fun u => u / 3600)).prod * (1100 / kow p) := by
      unfold slickRate
      rw [hco, if_pos rfl]
      exact mul_one _
    unfold dissOne
    simp only [ht, hsl, mul_zero, zero_add]
    have hle : 0.01 * (us.map (fun u => u / 3600)).prod * (1100 / kow p) * timeCalm 1 3.6 0 ≤ 1 := by
      have b1 : (us.map (fun u => u / 3600)).prod * (1100 / kow p) ≤ 0.001 * 1000 :=
        mul_le_mul h1 hA hA0 (by norm_num)
      have b2 : 0 ≤ (us.map (fun u => u / 3600)).prod * (1100 / kow p) := mul_nonneg h0 hA0
      have b3 : (us.map (fun u => u / 3600)).prod * (1100 / kow p) * timeCalm 1 3.6 0 ≤ 1 * 1 :=
        mul_le_mul (by linarith) hc1 hc.le (by norm_num)
      linarith
    rw [min_eq_right (by linarith), add_zero]
  have k1 := key [3.6] (by norm_num) (by norm_num)
  have k2 := key [3.6, 3.6] (by norm_num) (by norm_num)
  have e1 : (g drop).mass = 1 - dissOne sea tar 1 [3.6] 3.6 drop 1 p := by
    simp only [dissolve, List.map_cons, List.map_nil, hW, List.cons.injEq, and_true] at h1
    rw [← h1]
    simp [El.withComps, drop, tar, p]
  have e2 : (g drop).mass = 1 - dissOne sea tar 1 [3.6, 3.6] 3.6 drop 1 p := by
    simp only [dissolve, List.map_cons, List.map_nil, hW, List.cons.injEq, and_true] at h2
    rw [← h2.1]
    simp [El.withComps, drop, tar, p]
  have hlt : dissOne sea tar 1 [3.6, 3.6] 3.6 drop 1 p < dissOne sea tar 1 [3.6] 3.6 drop 1 p := by
    rw [k1, k2]
    have : 0 < 1100 / kow p := div_pos (by norm_num) (by linarith)
    have : 0 < 1100 / kow p * timeCalm 1 3.6 0 := mul_pos this hc
    norm_num
    nlinarith
  linarith

/-- An element without droplets is left alone by biodegradation when it is
alone, and loses all that degrades beside one with droplets. -/
theorem C83_counterexample_bio :
    ¬ Local (fun els => (biodegrade [⟨1000, 100, 850, true, 0.001⟩, ⟨1, 300, 950, false, 0.001⟩] els).fst) := by
  rintro ⟨g, hg⟩
  have h1 := hg [blob 900] _ (by beta_reduce; unfold biodegrade; rw [if_pos (by simp [blob])]; rfl)
  have h2 := hg [blob 900, { blob 900 with droplet := 0.05 }] _ (by
    beta_reduce
    unfold biodegrade
    rw [if_neg, if_pos, if_neg]
    · rfl
    · intro ⟨p, hp, h⟩
      simp only [List.mem_cons, List.not_mem_nil, or_false] at hp
      rcases hp with rfl | rfl <;> norm_num at h
    · exact ⟨blob 900, by simp, by simp [blob]⟩
    · intro h
      have := h { blob 900 with droplet := 0.05 } (by simp)
      norm_num at this)
  simp only [List.map_cons, List.map_nil, List.cons.injEq, and_true] at h1 h2
  have e := h1.trans h2.1.symm
  have := congrArg El.mass e
  rw [if_pos (by simp [blob])] at this
  simp [bioEl, El.withComps, blob] at this
  norm_num at this

theorem C83_not : ¬ C83_claim := fun h => C83_counterexample_dispersion (h.1 sea 900 sea_real (by norm_num))

end Verif.NatWeath
