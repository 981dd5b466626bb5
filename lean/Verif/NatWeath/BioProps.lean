import Verif.NatWeath.BioModel
import Mathlib.Tactic.NormNum
import Mathlib.Tactic.Positivity
import Mathlib.Tactic.Linarith
import Mathlib.Tactic.Ring
import Mathlib.Tactic.FieldSimp
/-!
# C313: oil biodegrades by the kind of its components
-/
namespace Verif.NatWeath.Bio

/-! ## what is expected -/

/-- components that bacteria do not eat: heavy saturates, resins, asphaltenes -/
def Immune (k : Kind) (bp : ℝ) : Prop := k = .resins ∨ k = .asphaltenes ∨ (k = .saturates ∧ 722.85 ≤ bp)

/-- C313 in full: an oil with the kinds of its components given biodegrades and dissolves, and what is set for biodegradation is saved. -/
def C313_claim : Prop :=
  (∀ (d : OilData) (ks : List Kind) (arctic : Bool) (dt : ℝ) (els : List El), d.saraType = some ks → ks.length = d.boilingPoint.length → 0 < dt →
    (∀ e ∈ els, 0 < e.droplet ∧ 0 < e.density ∧ e.comps.length = ks.length) →
    (∃ r, weather arctic (.make d) dt els = .ok r) ∧ aromMask (.make d) = .ok (ks.map (· == .aromatics))) ∧
  ∀ b : Biodeg, b.save.load = b

/-- C313. No oil that is made from its data can be biodegraded or dissolved: the run fails as soon as there is an element. -/
theorem C313_never (d : OilData) (arctic : Bool) (dt : ℝ) (els : List El) (h : els ≠ []) :
    weather arctic (.make d) dt els = .error .attribute ∧ aromMask (.make d) = .error .attribute := by
  constructor
  · unfold weather
    rw [if_neg h]
    rfl
  · rfl

/-- C313 fails for an oil of one component. -/
theorem C313_counterexample : ¬ C313_claim := by
  intro h
  obtain ⟨r, hr⟩ := (h.1 ⟨some [.saturates], [500]⟩ [.saturates] false 900 [⟨1, 1, [1]⟩] rfl rfl (by norm_num) (by simp)).1
  rw [(C313_never ⟨some [.saturates], [500]⟩ false 900 [⟨1, 1, [1]⟩] (by simp)).1] at hr
  cases hr

/-- C313. Arctic conditions are lost in a save file, and nothing else is. -/
theorem C313_saved (b : Biodeg) : b.save.load = b ↔ b.arctic = false := by
  constructor
  · intro h; rw [← h]; rfl
  · intro h
    cases b with
    | mk on arctic => simp only at h; subst h; rfl

theorem rate_nonneg (arctic : Bool) (k : Kind) (bp : ℝ) : 0 ≤ rate arctic k bp := by
  cases k <;> simp only [rate] <;> first | rfl | (split_ifs <;> norm_num)

theorem rate_arctic (k : Kind) (bp : ℝ) : rate true k bp ≤ rate false k bp := by
  cases k <;> simp only [rate, if_true, Bool.false_eq_true, if_false] <;> first | rfl | (split_ifs <;> norm_num)

theorem rate_zero (arctic : Bool) (k : Kind) (bp : ℝ) : rate arctic k bp = 0 ↔ Immune k bp := by
  unfold Immune
  cases k <;> cases arctic <;> simp only [rate, if_true, Bool.false_eq_true, if_false, reduceCtorEq, false_or, or_false, true_and, false_and, or_self, or_true] <;>
    split_ifs with h <;> first
      | (constructor
         · intro h0; exfalso; norm_num at h0
         · intro h0; linarith)
      | (simp only [true_iff]; exact not_lt.1 h)
      | norm_num

theorem rate_strict (k : Kind) (bp : ℝ) (h : ¬ Immune k bp) : rate true k bp < rate false k bp := by
  unfold Immune at h
  cases k with
  | saturates =>
    have : bp < 722.85 := by
      by_contra hb
      exact h (Or.inr (Or.inr ⟨rfl, not_lt.1 hb⟩))
    simp only [rate, if_pos this, if_true, Bool.false_eq_true, if_false]
    norm_num
  | aromatics =>
    simp only [rate, if_true, Bool.false_eq_true, if_false]
    split_ifs <;> norm_num
  | resins => exact absurd (Or.inl rfl) h
  | asphaltenes => exact absurd (Or.inr (Or.inl rfl)) h

/-- elements that fit an oil with `n` components -/
def Fit (n : Nat) (els : List El) : Prop := ∀ e ∈ els, 0 < e.droplet ∧ 0 < e.density ∧ e.comps.length = n

theorem stepRates_set (arctic : Bool) (o : Oil) (ks : List Kind) (dt : ℝ) :
    stepRates arctic (o.setKinds ks) dt = some ((List.zipWith (rate arctic) ks o.boilingPoint).map fun K => K / (60 * 60 * 24) * dt) := rfl

theorem stepRates_get (arctic : Bool) (ks : List Kind) (bps : List ℝ) (dt : ℝ) (i : Nat) (k : Kind) (bp : ℝ) (hk : ks[i]? = some k) (hb : bps[i]? = some bp) :
    ((List.zipWith (rate arctic) ks bps).map fun K => K / (60 * 60 * 24) * dt)[i]? = some (rate arctic k bp / (60 * 60 * 24) * dt) := by
  simp [List.getElem?_zipWith, hk, hb]

theorem weather_set (arctic : Bool) (o : Oil) (ks : List Kind) (dt : ℝ) (els : List El) (hl : ks.length = o.boilingPoint.length) (hf : Fit ks.length els) :
    weather arctic (o.setKinds ks) dt els = .ok (els.map (degrade ((List.zipWith (rate arctic) ks o.boilingPoint).map fun K => K / (60 * 60 * 24) * dt))) := by
  unfold weather
  split_ifs with h
  · subst h; rfl
  · rw [stepRates_set]
    simp only
    rw [if_pos]
    intro e he
    rw [(hf e he).2.2]
    simp [hl]

/-- C313. With the kinds of the components set by hand an oil biodegrades: a component of kind `k` with boiling point `bp` keeps the fraction `exp (-6 K t / (d rho))`, where `K` is its rate per day and `t` the step in days; droplets stay as they are. -/
theorem C313_partial (arctic : Bool) (o : Oil) (ks : List Kind) (dt : ℝ) (els : List El) (hl : ks.length = o.boilingPoint.length) (hf : Fit ks.length els) :
    ∃ r, weather arctic (o.setKinds ks) dt els = .ok r ∧ r.length = els.length ∧
      ∀ (j : Nat) (e e' : El), els[j]? = some e → r[j]? = some e' → e'.droplet = e.droplet ∧ e'.density = e.density ∧ e'.comps.length = e.comps.length ∧
        ∀ (i : Nat) (k : Kind) (bp m : ℝ), ks[i]? = some k → o.boilingPoint[i]? = some bp → e.comps[i]? = some m →
          e'.comps[i]? = some (m * Real.exp (- (6 * rate arctic k bp * (dt / 86400) / (e.droplet * e.density)))) := by
  refine ⟨_, weather_set arctic o ks dt els hl hf, by simp, fun j e e' he he' => ?_⟩
  rw [List.getElem?_map, he] at he'
  simp only [Option.map_some, Option.some.injEq] at he'
  subst he'
  have hm := hf e (List.mem_of_getElem? he)
  refine ⟨rfl, rfl, by simp [degrade, hm.2.2, hl], fun i k bp m hk hb hm' => ?_⟩
  simp only [degrade, List.getElem?_zipWith, hm', stepRates_get arctic ks o.boilingPoint dt i k bp hk hb]
  congr 3
  ring

/-- C313. Heavy saturates, resins and asphaltenes keep their mass; everything else loses some, but never all, and less in arctic conditions. -/
theorem C313_kinds (o : Oil) (ks : List Kind) (dt : ℝ) (hdt : 0 < dt) (els : List El) (hl : ks.length = o.boilingPoint.length) (hf : Fit ks.length els)
    (r ra : List El) (hr : weather false (o.setKinds ks) dt els = .ok r) (hra : weather true (o.setKinds ks) dt els = .ok ra)
    (j : Nat) (e e' ea : El) (he : els[j]? = some e) (he' : r[j]? = some e') (hea : ra[j]? = some ea)
    (i : Nat) (k : Kind) (bp m m' ma : ℝ) (hk : ks[i]? = some k) (hb : o.boilingPoint[i]? = some bp) (hm : e.comps[i]? = some m) (h0 : 0 < m)
    (hm' : e'.comps[i]? = some m') (hma : ea.comps[i]? = some ma) :
    (Immune k bp → m' = m ∧ ma = m) ∧ (¬ Immune k bp → 0 < m' ∧ m' < ma ∧ ma < m) := by
  obtain ⟨r1, h1, -, g1⟩ := C313_partial false o ks dt els hl hf
  obtain ⟨r2, h2, -, g2⟩ := C313_partial true o ks dt els hl hf
  rw [hr] at h1
  rw [hra] at h2
  cases h1; cases h2
  have e1 := (g1 j e e' he he').2.2.2 i k bp m hk hb hm
  have e2 := (g2 j e ea he hea).2.2.2 i k bp m hk hb hm
  rw [hm'] at e1
  rw [hma] at e2
  cases e1; cases e2
  have hp := hf e (List.mem_of_getElem? he)
  have hD : 0 < e.droplet * e.density := mul_pos hp.1 hp.2.1
  constructor
  · intro hi
    rw [(rate_zero false k bp).2 hi, (rate_zero true k bp).2 hi]
    simp
  · intro hi
    have hs := rate_strict k bp hi
    have ht : 0 < rate true k bp := lt_of_le_of_ne (rate_nonneg _ _ _) (fun h => hi ((rate_zero true k bp).1 h.symm))
    have hdt' : 0 < dt / 86400 := by positivity
    refine ⟨by positivity, mul_lt_mul_of_pos_left (Real.exp_lt_exp.2 (neg_lt_neg ?_)) h0, mul_lt_of_lt_one_right h0 (Real.exp_lt_one_iff.2 ?_)⟩
    · apply div_lt_div_of_pos_right _ hD
      exact mul_lt_mul_of_pos_right (by linarith) hdt'
    · rw [neg_lt_zero]
      positivity

/-- C313. What degrades in two steps degrades in one as long as both. -/
theorem C313_steps (arctic : Bool) (o : Oil) (ks : List Kind) (s t : ℝ) (els r1 r2 : List El) (hl : ks.length = o.boilingPoint.length) (hf : Fit ks.length els)
    (h1 : weather arctic (o.setKinds ks) s els = .ok r1) (h2 : weather arctic (o.setKinds ks) t r1 = .ok r2) :
    weather arctic (o.setKinds ks) (s + t) els = .ok r2 := by
  rw [weather_set arctic o ks s els hl hf] at h1
  cases h1
  have hf' : Fit ks.length (els.map (degrade ((List.zipWith (rate arctic) ks o.boilingPoint).map fun K => K / (60 * 60 * 24) * s))) := by
    intro e he
    obtain ⟨x, hx, rfl⟩ := List.mem_map.1 he
    have := hf x hx
    exact ⟨this.1, this.2.1, by simp [degrade, this.2.2, hl]⟩
  rw [weather_set arctic o ks t _ hl hf'] at h2
  cases h2
  rw [weather_set arctic o ks _ els hl hf, List.map_map]
  congr 1
  refine List.map_congr_left fun e he => ?_
  have hx := hf e he
  unfold degrade
  simp only [Function.comp, El.mk.injEq, true_and]
  apply List.ext_getElem?
  intro i
  simp only [List.getElem?_zipWith, List.getElem?_map]
  cases hc : e.comps[i]? with
  | none => simp
  | some m =>
    cases hk : ks[i]? with
    | none => simp
    | some k =>
      cases hb : o.boilingPoint[i]? with
      | none => simp
      | some bp =>
        simp only [Option.map_some, Option.some.injEq]
        rw [mul_assoc m, ← Real.exp_add]
        congr 2
        ring

/-- an oil of a light saturate, an aromatic and a resin, and two elements -/
example : Fit [Kind.saturates, .aromatics, .resins].length [⟨0.0002, 900, [5, 3, 2]⟩, ⟨0.0001, 850, [50, 30, 20]⟩] ∧ [Kind.saturates, .aromatics, .resins].length = (Oil.mk none [500, 600, 1000]).boilingPoint.length ∧
    ¬ Immune .saturates 500 ∧ ¬ Immune .aromatics 600 ∧ Immune .resins 1000 := by
  refine ⟨?_, rfl, ?_, ?_, Or.inl rfl⟩
  · intro e he
    simp only [List.mem_cons, List.not_mem_nil, or_false] at he
    rcases he with rfl | rfl <;> norm_num
  · rintro (h | h | ⟨-, h⟩)
    · cases h
    · cases h
    · norm_num at h
  · rintro (h | h | ⟨h, -⟩) <;> cases h

/-- The components that dissolve are the aromatics, if the kinds are set, and it is an error if they are not. -/
theorem C313_aromatics (o : Oil) (ks : List Kind) :
    (∃ mask, aromMask (o.setKinds ks) = .ok mask ∧ mask.length = ks.length ∧ ∀ (i : Nat) (k : Kind), ks[i]? = some k → (mask[i]? = some true ↔ k = .aromatics)) ∧
    ∀ d, aromMask (Oil.make d) = .error .attribute := by
  refine ⟨⟨ks.map (· == .aromatics), rfl, by simp, fun i k hk => ?_⟩, fun d => rfl⟩
  rw [List.getElem?_map, hk]
  simp

example : [Kind.saturates, .aromatics][1]? = some .aromatics := rfl

end Verif.NatWeath.Bio
