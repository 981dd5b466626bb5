import Verif.NatWeath.PartsProps
/-!
# C368: a share of the oil of a slick weathers as the slick does

Of every element only the `k`-th part is looked at: the `k`-th part of its mass, its initial mass, its area and its share of the slick.
-/
namespace Verif.NatWeath

/-- The `k`-th part of every element. -/
noncomputable def shareOf (k : Nat) (els : List El) : List El := els.map (part k)

theorem share_el (k : Nat) (g h : El → El) (els : List El) (hg : ∀ e ∈ els, g (part k e) = part k (h e)) :
    (shareOf k els).map g = shareOf k (els.map h) := by
  simp only [shareOf, List.map_map]
  exact List.map_congr_left fun e he => hg e he

theorem share_sum (k : Nat) (g h : El → ℝ) (els : List El) (hg : ∀ e ∈ els, g (part k e) = h e / k) :
    ((shareOf k els).map g).sum = (els.map h).sum / k := by
  rw [← sum_parts]
  congr 1
  simp only [shareOf, List.map_map]
  exact List.map_congr_left fun e he => hg e he

theorem share_mass (k : Nat) (els : List El) : totalMass (shareOf k els) = totalMass els / k := share_sum k _ _ els fun _ _ => rfl

section
variable (k : Nat) (hk : 1 ≤ k)
include hk

omit hk in
theorem exists_share (P : El → Prop) (hP : ∀ e, P (part k e) ↔ P e) (els : List El) : (∃ e ∈ shareOf k els, P e) ↔ ∃ e ∈ els, P e := by
  simp only [shareOf, List.mem_map, exists_exists_and_eq_and, hP]

/-- **C368** evaporation: the same shares are left, and the share of the amount evaporates. -/
theorem C368_evaporation (T : ℝ) (o : List Comp) (dt : ℝ) (U : ℝ × ℝ → ℝ) (els : List El) :
    evaporate T o dt U (shareOf k els) = (evaporate T o dt U els).map (fun r => (shareOf k r.1, r.2 / (k : ℝ))) := by
  have hc := exists_share k (fun e => ∃ l ∈ decay T o (U e.pos) e, 0 < l)
    (fun e => by simp only [decay_part k hk, show (part k e).pos = e.pos from rfl]) els
  unfold evaporate
  by_cases h : ∃ e ∈ els, ∃ l ∈ decay T o (U e.pos) e, 0 < l
  · rw [if_pos h, if_pos (hc.2 h), Option.map_none]
  · rw [if_neg h, if_neg (fun x => h (hc.1 x)), Option.map_some]
    rw [share_el k _ (fun e => (evapEl T o dt (U e.pos) e).1) els (fun e _ => (evapEl_part k hk T o dt _ e).1),
      share_sum k _ (fun e => (evapEl T o dt (U e.pos) e).2) els (fun e _ => (evapEl_part k hk T o dt _ e).2)]

theorem takeAway_share (f : El → ℝ × ℝ) (hf : ∀ e, f (part k e) = ((f e).1 / k, (f e).2 / k)) (els : List El) :
    takeAway f (shareOf k els) = (shareOf k (takeAway f els).1, (takeAway f els).2.1 / k, (takeAway f els).2.2 / k) := by
  have hk0 := k0 k hk
  unfold takeAway
  simp only
  rw [share_sum k (fun e => (f e).1) (fun e => (f e).1) els (fun e _ => by rw [hf]),
    share_sum k (fun e => (f e).2) (fun e => (f e).2) els (fun e _ => by rw [hf]), share_mass, share_el k _ _ els (fun e _ => shrink_part k hk _ e),
    share_mass, share_el k _ _ _ (fun e _ => shrink_part k hk _ e)]
  have hs : ∀ a b : ℝ, share (a / k) (b / k) = share a b := fun a b => by
    unfold share
    simp only [div_div_div_cancel_right₀ hk0, gt_iff_lt, div_pos_iff_of_pos_right (kpos k hk)]
  simp only [hs]

/-- **C368** natural dispersion and sedimentation (Delvigne and Sweeney). -/
theorem C368_dispersion (w : Sea) (dt : ℝ) (els : List El) :
    disperseDS w dt (shareOf k els) = (shareOf k (disperseDS w dt els).1, (disperseDS w dt els).2.1 / k, (disperseDS w dt els).2.2 / k) := by
  unfold disperseDS
  rw [takeAway_share k hk _ (dsEl_part k hk w dt)]
  simp only [shareOf, List.zipWith_map, List.map_zipWith]
  congr 2
  funext e e'
  simp only [dsDroplet, thickness_part k hk]
  rfl

/-- **C368** natural dispersion (Li), with its errors. -/
theorem C368_dispersion_Li (w : Sea) (dt : ℝ) (els : List El) :
    disperseLi w dt (shareOf k els) = match disperseLi w dt els with
      | .ok r => .ok (shareOf k r.1, r.2.1 / k, r.2.2 / k)
      | .nan => .nan
      | .raised => .raised := by
  have hkp := kpos k hk
  have h1 := exists_share k (fun e => ¬ e.area > 0) (fun e => not_congr (div_pos_iff_of_pos_right hkp)) els
  have h2 := exists_share k (fun e => e.density ≥ w.rhoW ∨ e.density ≤ 0 ∨ e.viscosity ≤ 0 ∨ e.fracWater ≥ 1) (fun _ => Iff.rfl) els
  unfold disperseLi
  by_cases a : ∃ e ∈ els, ¬ e.area > 0
  · rw [if_pos a, if_pos (h1.2 a)]
  · rw [if_neg a, if_neg (fun x => a (h1.1 x))]
    by_cases b : ∃ e ∈ els, e.density ≥ w.rhoW ∨ e.density ≤ 0 ∨ e.viscosity ≤ 0 ∨ e.fracWater ≥ 1
    · rw [if_pos b, if_pos (h2.2 b)]
    · rw [if_neg b, if_neg (fun x => b (h2.1 x)), takeAway_share k hk _ (liEl_part k hk w dt)]

/-- **C368** emulsification: the share of the water. -/
theorem C368_emulsification (m : Emul) (dt : ℝ) (U : ℝ × ℝ → ℝ) (els : List El) :
    emulsify m dt U (shareOf k els) = (emulsify m dt U els).map (shareOf k) := by
  unfold emulsify
  by_cases h : m.yMax ≤ 0
  · rw [if_pos h, if_pos h]; rfl
  · rw [if_neg h, if_neg h]
    induction els with
    | nil => rfl
    | cons e els ih =>
      simp only [shareOf, List.map_cons, List.mapM_cons] at ih ⊢
      rw [ih, show (part k e).pos = e.pos from rfl, emulEl_part k hk]
      cases emulEl m (kEmul (U e.pos)) dt e with
      | none => rfl
      | some b =>
        cases els.mapM (fun e => emulEl m (kEmul (U e.pos)) dt e) with
        | none => rfl
        | some r => rfl

/-- **C368** dissolution, from droplets and slicks. -/
theorem C368_dissolution (w : Sea) (o : List Comp) (dt : ℝ) (U : ℝ × ℝ → ℝ) (els : List El) :
    dissolve w o dt U (shareOf k els) = (shareOf k (dissolve w o dt U els).1, (dissolve w o dt U els).2 / k) := by
  have hus : (shareOf k els).map (fun e => dissWind (U e.pos)) = els.map (fun e => dissWind (U e.pos)) := by
    simp only [shareOf, List.map_map]; rfl
  have key : ∀ us, ∀ e ∈ els, List.zipWith (dissOne w o dt us (dissWind (U (part k e).pos)) (part k e)) (part k e).comps o =
      (List.zipWith (dissOne w o dt us (dissWind (U e.pos)) e) e.comps o).map (fun x => x / (k : ℝ)) := by
    intro us e _
    refine zip_parts (k : ℝ) _ _ _ _ (fun x _ p _ => ?_)
    rw [show (part k e).pos = e.pos from rfl, dissOne_part k hk]
  unfold dissolve
  simp only [hus]
  ext1
  · refine share_el k _ _ els fun e he => ?_
    rw [key _ e he, ← part_withComps]
    congr 1
    generalize List.zipWith (dissOne w o dt (els.map (fun e => dissWind (U e.pos))) (dissWind (U e.pos)) e) e.comps o = r
    simp only [part, List.zipWith_map, List.map_zipWith]
    congr 1
    funext a b
    exact (sub_div a b k).symm
  · refine share_sum k _ _ els fun e he => ?_
    rw [key _ e he, sum_parts]

/-- **C368** biodegradation, with its NaNs. -/
theorem C368_biodegradation (o : List Comp) (els : List El) :
    biodegrade o (shareOf k els) = match biodegrade o els with
      | .ok r => .ok (shareOf k r.1, r.2 / k)
      | .nan => .nan
      | .raised => .raised := by
  have h1 : (∀ e ∈ shareOf k els, e.droplet = 0) ↔ ∀ e ∈ els, e.droplet = 0 := by
    simp only [shareOf, List.forall_mem_map]; rfl
  have h2 := exists_share k (fun e => e.droplet * e.density = 0) (fun _ => Iff.rfl) els
  have left : ∀ (g : El → El), (∀ e, g (part k e) = part k (g e)) → (shareOf k els).map g = shareOf k (els.map g) ∧
      totalMass (shareOf k els) - (((shareOf k els).map g).map (fun e => e.comps.sum)).sum = (totalMass els - ((els.map g).map (fun e => e.comps.sum)).sum) / k := by
    intro g hg
    have h := share_el k g g els (fun e _ => hg e)
    refine ⟨h, ?_⟩
    rw [h, share_mass, share_sum k _ (fun e => e.comps.sum) _ (fun e _ => by simp [part, sum_parts]), sub_div]
  unfold biodegrade
  by_cases a : ∀ e ∈ els, e.droplet = 0
  · rw [if_pos a, if_pos (h1.2 a)]
    obtain ⟨l1, l2⟩ := left (bioEl o 0) (fun e => bioEl_part k hk o 0 e)
    simp only
    rw [l2, l1]
  · rw [if_neg a, if_neg (fun x => a (h1.1 x))]
    by_cases b : ∃ e ∈ els, e.droplet * e.density = 0
    · rw [if_pos b, if_pos (h2.2 b)]
      by_cases c : ∃ p ∈ o, p.K = 0
      · rw [if_pos c, if_pos c]
      · rw [if_neg c, if_neg c]
        obtain ⟨l1, l2⟩ := left (fun e => if e.droplet * e.density = 0 then e.withComps (e.comps.map (fun _ => 0))
          else bioEl o (1 / (e.droplet * e.density)) e) (fun e => by
            simp only [show (part k e).droplet = e.droplet from rfl, show (part k e).density = e.density from rfl]
            split
            · rw [← part_withComps]; congr 1; simp [part, Function.comp_def]
            · exact bioEl_part k hk o _ e)
        simp only
        rw [l2, l1]
    · rw [if_neg b, if_neg (fun x => b (h2.1 x))]
      obtain ⟨l1, l2⟩ := left (fun e => bioEl o (1 / (e.droplet * e.density)) e) (fun e => bioEl_part k hk o _ e)
      simp only
      rw [l2, l1]

end

/-- Half of the drop that dissolves in the example of C360. -/
example : dissolve sea tar 1 (fun _ => 3) (shareOf 2 [drop]) = (shareOf 2 (dissolve sea tar 1 (fun _ => 3) [drop]).1, (dissolve sea tar 1 (fun _ => 3) [drop]).2 / (2 : Nat)) :=
  C368_dissolution 2 (by norm_num) sea tar 1 (fun _ => 3) [drop]

end Verif.NatWeath
