import Verif.NatWeath.PropsB

namespace Verif.NatWeath

/-! ### emulsification -/

/-- The element has begun to emulsify: after the hours given for the oil, or
without them when the given fraction has evaporated. -/
def Onset (m : Emul) (e : El) : Prop :=
  (0 ≤ m.hours ∧ m.hours * 3600 ≤ e.age) ∨ (m.hours < 0 ∧ 0 ≤ m.C ∧ m.C ≤ e.fracEvap)

/-- The fraction of water in an emulsion whose droplets of diameter `dropMax`
have the surface `s` per volume, at most the largest. -/
noncomputable def waterOf (m : Emul) (s : ℝ) : ℝ := min (s * dropMax / (6 + s * dropMax)) m.yMax

theorem dropMax_pos : 0 < dropMax := by norm_num [dropMax]
theorem dropMin_pos : 0 < dropMin := by norm_num [dropMin]

theorem sMax_pos (m : Emul) (h : 0 < m.yMax ∧ m.yMax < 1) : 0 < sMax m := by
  unfold sMax
  have := dropMin_pos
  have h1 := h.1
  have h2 : 0 < 1 - m.yMax := by linarith [h.2]
  positivity

/-- The branch of the code is the minimum. -/
theorem water_branch (m : Emul) (h : 0 < m.yMax ∧ m.yMax < 1) (s : ℝ) (hs : 0 ≤ s) :
    (if s < (6 / dropMax) * (m.yMax / (1 - m.yMax)) then s * dropMax / (6 + s * dropMax) else m.yMax) = waterOf m s := by
  have hd := dropMax_pos
  have hy : 0 < 1 - m.yMax := by linarith [h.2]
  have hp : 0 < 6 + s * dropMax := by positivity
  have e : (6 / dropMax) * (m.yMax / (1 - m.yMax)) = 6 * m.yMax / (dropMax * (1 - m.yMax)) := by field_simp
  unfold waterOf
  rw [e]
  split
  · rename_i hl
    rw [lt_div_iff₀ (by positivity)] at hl
    rw [min_eq_left]
    rw [div_le_iff₀ hp]
    nlinarith
  · rename_i hl
    rw [not_lt, div_le_iff₀ (by positivity)] at hl
    rw [min_eq_right]
    rw [le_div_iff₀ hp]
    nlinarith

theorem waterOf_bounds (m : Emul) (h : 0 < m.yMax ∧ m.yMax < 1) (s : ℝ) (hs : 0 ≤ s) :
    0 ≤ waterOf m s ∧ waterOf m s ≤ m.yMax := by
  have hd := dropMax_pos
  exact ⟨le_min (by positivity) h.1.le, min_le_right _ _⟩

theorem waterOf_mono (m : Emul) (s t : ℝ) (hs : 0 ≤ s) (ht : s ≤ t) : waterOf m s ≤ waterOf m t := by
  have hd := dropMax_pos
  unfold waterOf
  refine min_le_min_right _ ?_
  have h0 : 0 ≤ t := le_trans hs ht
  rw [div_le_div_iff₀ (by positivity) (by positivity)]
  nlinarith

/-- What one step does. -/
theorem emulEl_eq (m : Emul) (hm : 0 < m.yMax ∧ m.yMax < 1) (k dt : ℝ) (hk : 0 ≤ k) (hd : 0 ≤ dt) (e : El)
    (hs : 0 ≤ e.surf) :
    ∃ g bt, 0 ≤ g ∧ (0 < k → 0 < dt → 0 < g) ∧
      ((Onset m e ∧ emulEl m k dt e =
        some { e with fracWater := waterOf m (min (e.surf + g) (sMax m)), surf := min (e.surf + g) (sMax m), bulltime := bt }) ∨
       (¬ Onset m e ∧ emulEl m k dt e = some { e with fracWater := waterOf m 0, surf := 0, bulltime := bt })) := by
  have hS := sMax_pos m hm
  have ho : Onset m e ↔
      ((e.age ≥ (if m.hours > 0 then m.hours * 3600 else m.hours) ∧ (if m.hours > 0 then m.hours * 3600 else m.hours) ≥ 0) ∨
        ((e.fracEvap ≥ m.C ∧ m.C ≥ 0) ∧ (if m.hours > 0 then m.hours * 3600 else m.hours) < 0)) := by
    unfold Onset
    by_cases h : m.hours > 0
    · simp only [if_pos h]
      constructor
      · rintro (⟨h1, h2⟩ | ⟨h1, _⟩)
        · exact Or.inl ⟨h2, by linarith⟩
        · linarith
      · rintro (⟨h1, h2⟩ | ⟨_, h2⟩)
        · exact Or.inl ⟨h.le, h1⟩
        · linarith
    · simp only [if_neg h]
      have h' := not_lt.1 h
      constructor
      · rintro (⟨h1, h2⟩ | ⟨h1, h2, h3⟩)
        · have h0 : m.hours = 0 := le_antisymm h' h1
          exact Or.inl ⟨by rw [h0] at h2 ⊢; linarith, h1⟩
        · exact Or.inr ⟨⟨h3, h2⟩, h1⟩
      · rintro (⟨h1, h2⟩ | ⟨⟨h1, h2⟩, h3⟩)
        · have h0 : m.hours = 0 := le_antisymm h' h2
          exact Or.inl ⟨h2, by rw [h0] at h1 ⊢; linarith⟩
        · exact Or.inr ⟨h3, h2, h1⟩
  by_cases hon : Onset m e
  · have hc := ho.1 hon
    unfold emulEl
    simp only [if_pos hc]
    have hmin : ∀ x, (if x > sMax m then sMax m else x) = min x (sMax m) := by
      intro x
      split
      · rename_i h; exact (min_eq_right h.le).symm
      · rename_i h; exact (min_eq_left (not_lt.1 h)).symm
    generalize hp : (if (if m.hours > 0 then m.hours * 3600 else m.hours) > 0 then
      ((if m.hours > 0 then m.hours * 3600 else m.hours), e.bulltime)
        else if e.bulltime < 0 then (e.age, e.age) else (e.bulltime, e.bulltime)) = q
    refine ⟨k * dt * Real.exp ((-k / sMax m) * (e.age - q.1)), q.2, by positivity, fun h1 h2 => by positivity, Or.inl ⟨hon, ?_⟩⟩
    have hn : 0 ≤ min (e.surf + k * dt * Real.exp ((-k / sMax m) * (e.age - q.1))) (sMax m) :=
      le_min (by positivity) hS.le
    simp only [hmin]
    rw [water_branch m hm _ hn, if_neg (not_lt.2 (waterOf_bounds m hm _ hn).1)]
  · have hc := fun h => hon (ho.2 h)
    refine ⟨k * dt * Real.exp 0, e.bulltime, by positivity, fun h1 h2 => by positivity, Or.inr ⟨hon, ?_⟩⟩
    unfold emulEl
    simp only [if_neg hc]
    rw [water_branch m hm _ (le_refl _), if_neg (not_lt.2 (waterOf_bounds m hm _ (le_refl _)).1)]

/-- What an element that was emulsified step by step looks like. -/
structure Emulsified (m : Emul) (e : El) : Prop where
  surf : 0 ≤ e.surf ∧ e.surf ≤ sMax m
  water : e.fracWater = waterOf m e.surf
  before : ¬ Onset m e → e.surf = 0

/-- A newly released element. -/
theorem fresh_emulsified (m : Emul) (hm : 0 < m.yMax ∧ m.yMax < 1) (e : El) (h1 : e.surf = 0) (h2 : e.fracWater = 0) :
    Emulsified m e := by
  refine ⟨⟨h1.ge, h1 ▸ (sMax_pos m hm).le⟩, ?_, fun _ => h1⟩
  rw [h1, h2]
  simp [waterOf, hm.1.le]

/-- Between two calls an element grows older and more of it evaporates. -/
structure Later (e e' : El) : Prop where
  age : e.age ≤ e'.age
  evap : e.fracEvap ≤ e'.fracEvap
  surf : e'.surf = e.surf
  water : e'.fracWater = e.fracWater

theorem onset_later (m : Emul) (e e' : El) (h : Later e e') (ho : Onset m e) : Onset m e' := by
  rcases ho with ⟨a, b⟩ | ⟨a, b, c⟩
  · exact Or.inl ⟨a, le_trans b h.age⟩
  · exact Or.inr ⟨a, b, le_trans c h.evap⟩

/-- A life of an element: it ages, and is emulsified. -/
inductive Life (m : Emul) : El → El → Prop where
  | refl (e) : Life m e e
  | later (e e' e'') : Life m e e' → Later e' e'' → Life m e e''
  | emul (e e' e'') (k dt : ℝ) : Life m e e' → 0 ≤ k → 0 ≤ dt → emulEl m k dt e' = some e'' → Life m e e''

/-- Weaker than `Emulsified`: between calls the onset may have come. -/
theorem life_emulsified (m : Emul) (hm : 0 < m.yMax ∧ m.yMax < 1) (e e' : El) (h : Emulsified m e) (hl : Life m e e') :
    Emulsified m e' ∧ e.fracWater ≤ e'.fracWater := by
  induction hl with
  | refl => exact ⟨h, le_refl _⟩
  | later e1 e2 _ hlat ih =>
    refine ⟨⟨by rw [hlat.surf]; exact ih.1.surf, by rw [hlat.water, hlat.surf]; exact ih.1.water, ?_⟩,
      by rw [hlat.water]; exact ih.2⟩
    intro hn
    rw [hlat.surf]
    exact ih.1.before (fun ho => hn (onset_later m _ _ hlat ho))
  | emul e1 e2 k dt _ hk hd he ih =>
    obtain ⟨hi, hw⟩ := ih
    have hS := sMax_pos m hm
    obtain ⟨g, bt, hg, _, ⟨ho, hq⟩ | ⟨ho, hq⟩⟩ := emulEl_eq m hm k dt hk hd e1 hi.surf.1
    · rw [hq, Option.some.injEq] at he
      subst he
      have hn : 0 ≤ min (e1.surf + g) (sMax m) := le_min (by linarith [hi.surf.1]) hS.le
      refine ⟨⟨⟨hn, min_le_right _ _⟩, rfl, fun h => absurd ho h⟩, ?_⟩
      refine le_trans hw ?_
      rw [hi.water]
      exact waterOf_mono m _ _ hi.surf.1 (le_min (by linarith) hi.surf.2)
    · rw [hq, Option.some.injEq] at he
      subst he
      refine ⟨⟨⟨le_refl _, hS.le⟩, rfl, fun _ => rfl⟩, ?_⟩
      refine le_trans hw ?_
      rw [hi.water, hi.before ho]

/-- The water content of an element stays between 0 and the largest fraction
of the oil, through any life. -/
theorem C84_bounds (m : Emul) (hm : 0 < m.yMax ∧ m.yMax < 1) (e e' : El) (h1 : e.surf = 0) (h2 : e.fracWater = 0)
    (hl : Life m e e') : 0 ≤ e'.fracWater ∧ e'.fracWater ≤ m.yMax := by
  have h := (life_emulsified m hm e e' (fresh_emulsified m hm e h1 h2) hl).1
  rw [h.water]
  exact waterOf_bounds m hm _ h.surf.1

/-- The water content never falls. -/
theorem C84_never_falls (m : Emul) (hm : 0 < m.yMax ∧ m.yMax < 1) (e e1 e2 : El) (h1 : e.surf = 0) (h2 : e.fracWater = 0)
    (hl : Life m e e1) (hl' : Life m e1 e2) : e1.fracWater ≤ e2.fracWater :=
  (life_emulsified m hm e1 e2 (life_emulsified m hm e e1 (fresh_emulsified m hm e h1 h2) hl).1 hl').2

/-- With wind, an element has taken up water after a step exactly if the
emulsion has begun; the step does not raise, and changes nothing but the
emulsion. -/
theorem C84_onset (m : Emul) (hm : 0 < m.yMax ∧ m.yMax < 1) (e e1 : El) (h1 : e.surf = 0) (h2 : e.fracWater = 0)
    (hl : Life m e e1) (k dt : ℝ) (hk : 0 < k) (hd : 0 < dt) :
    ∃ e2, emulEl m k dt e1 = some e2 ∧ (0 < e2.fracWater ↔ Onset m e1) ∧
      e2 = { e1 with fracWater := e2.fracWater, surf := e2.surf, bulltime := e2.bulltime } := by
  have hi := (life_emulsified m hm e e1 (fresh_emulsified m hm e h1 h2) hl).1
  have hS := sMax_pos m hm
  have hD := dropMax_pos
  obtain ⟨g, bt, _, hg, ⟨ho, hq⟩ | ⟨ho, hq⟩⟩ := emulEl_eq m hm k dt hk.le hd.le e1 hi.surf.1
  · refine ⟨_, hq, ⟨fun _ => ho, fun _ => ?_⟩, rfl⟩
    have hp : 0 < min (e1.surf + g) (sMax m) := lt_min (by linarith [hi.surf.1, hg hk hd]) hS
    exact lt_min (by positivity) hm.1
  · refine ⟨_, hq, ⟨fun h => absurd h ?_, fun h => absurd h ho⟩, rfl⟩
    simp [waterOf, hm.1.le]

/-- More wind gives no less water: the new surface is larger by the uptake
rate times the time as long as the emulsion has just begun. -/
theorem C84_first_uptake (m : Emul) (hm : 0 < m.yMax ∧ m.yMax < 1) (k dt : ℝ) (hk : 0 ≤ k) (hd : 0 ≤ dt) (e : El)
    (hh : m.hours < 0) (hs : e.surf = 0) (hb : e.bulltime < 0) (ho : Onset m e) :
    ∃ e', emulEl m k dt e = some e' ∧ e'.surf = min (k * dt) (sMax m) ∧ e'.fracWater = waterOf m (min (k * dt) (sMax m)) ∧
      e'.bulltime = e.age := by
  have hS := sMax_pos m hm
  have hc : (e.age ≥ m.hours ∧ m.hours ≥ 0) ∨ ((e.fracEvap ≥ m.C ∧ m.C ≥ 0) ∧ m.hours < 0) := by
    rcases ho with ⟨a, _⟩ | ⟨_, b, c⟩
    · linarith
    · exact Or.inr ⟨⟨c, b⟩, hh⟩
  have hn : 0 ≤ min (k * dt) (sMax m) := le_min (by positivity) hS.le
  have e1 : (if k * dt > sMax m then sMax m else k * dt) = min (k * dt) (sMax m) := by
    split
    · rename_i h; exact (min_eq_right h.le).symm
    · rename_i h; exact (min_eq_left (not_lt.1 h)).symm
  unfold emulEl
  simp only [if_neg (not_lt.2 hh.le), if_pos hc, if_pos hb, hs, sub_self, mul_zero, Real.exp_zero, mul_one, zero_add, e1,
    water_branch m hm _ hn, if_neg (not_lt.2 (waterOf_bounds m hm _ hn).1)]
  exact ⟨_, rfl, rfl, rfl, rfl⟩

/-- 'water_content' is the mass-weighted mean of the water fractions, also
between 0 and the largest. -/
theorem C84_content (y : ℝ) (els : List El) (hm : ∀ e ∈ els, 0 < e.mass) (hne : els ≠ [])
    (hw : ∀ e ∈ els, 0 ≤ e.fracWater ∧ e.fracWater ≤ y) :
    0 ≤ waterContent els ∧ waterContent els ≤ y ∧
      waterContent els * totalMass els = (els.map (fun e => e.mass * e.fracWater)).sum := by
  have hT : 0 < totalMass els := by
    cases els with
    | nil => exact absurd rfl hne
    | cons a l =>
      simp only [totalMass, List.map_cons, List.sum_cons]
      have := hm a (by simp)
      have : 0 ≤ (l.map El.mass).sum := sum_nonneg (fun x hx => by
        obtain ⟨e, he, rfl⟩ := List.mem_map.1 hx
        exact (hm e (by simp [he])).le)
      linarith
  have hEq : waterContent els * totalMass els = (els.map (fun e => e.mass * e.fracWater)).sum := by
    unfold waterContent
    rw [← List.sum_map_mul_right]
    congr 1
    refine List.map_congr_left (fun e _ => ?_)
    field_simp
  have h0 : 0 ≤ (els.map (fun e => e.mass * e.fracWater)).sum := sum_nonneg (fun x hx => by
    obtain ⟨e, he, rfl⟩ := List.mem_map.1 hx
    exact mul_nonneg (hm e he).le (hw e he).1)
  have h1 : (els.map (fun e => e.mass * e.fracWater)).sum ≤ totalMass els * y := by
    unfold totalMass
    rw [← List.sum_map_mul_right]
    exact sum_map_le _ _ _ (fun e he => mul_le_mul_of_nonneg_left (hw e he).2 (hm e he).le)
  refine ⟨?_, ?_, hEq⟩
  · by_contra hc
    have := mul_neg_of_neg_of_pos (not_le.1 hc) hT
    linarith
  · by_contra hc
    have := mul_lt_mul_of_pos_right (not_le.1 hc) hT
    linarith

/-- An oil that emulsifies when a tenth has evaporated, and an element of
which a fifth has. -/
example : Onset ⟨-999, 0.1, 0.9⟩ { blob 900 with fracEvap := 0.2 } := Or.inr ⟨by norm_num, by norm_num, by norm_num⟩

example : ∃ e, Life ⟨-999, 0.1, 0.9⟩ (blob 900) e ∧ 0 < e.fracWater := by
  have hl : Life ⟨-999, 0.1, 0.9⟩ (blob 900) { blob 900 with fracEvap := 0.2, age := 900 } :=
    .later _ _ _ (.refl _) ⟨by simp [blob], by simp [blob]; norm_num, rfl, rfl⟩
  obtain ⟨e2, h1, h2, _⟩ := C84_onset ⟨-999, 0.1, 0.9⟩ ⟨by norm_num, by norm_num⟩ _ _ rfl rfl hl 1 900 (by norm_num)
    (by norm_num)
  exact ⟨e2, .emul _ _ _ 1 900 hl (by norm_num) (by norm_num) h1, h2.2 (Or.inr ⟨by norm_num, by norm_num, by norm_num⟩)⟩

/-! ### the fractions evaporated and lost -/

/-- A process other than evaporation takes mass and leaves the records. -/
def Other (e e' : El) : Prop :=
  Less e e' ∧ e'.init = e.init ∧ e'.fracEvap = e.fracEvap ∧ e'.fracLost = e.fracLost

/-- One after the other: evaporation, or another process. -/
inductive Weathered : List El → List El → ℝ → Prop where
  | refl (els) : Weathered els els 0
  | evap (els els' els'' : List El) (T : ℝ) (o : List Comp) (dt : ℝ) (U : ℝ × ℝ → ℝ) (a b : ℝ) :
      Weathered els els' a → 0 ≤ dt → (∀ e ∈ els', e.comps.length = o.length) →
      evaporate T o dt U els' = some (els'', b) → Weathered els els'' (a + b)
  | other (els els' els'' : List El) (a : ℝ) : Weathered els els' a → List.Forall₂ Other els' els'' → Weathered els els'' a

/-- What the records of an element mean. -/
structure Records (e : El) : Prop where
  sound : Sound e
  init : 0 < e.init
  evap : 0 ≤ e.fracEvap
  lost : e.fracEvap * e.init + e.mass ≤ e.init

theorem records_bounds (e : El) (h : Records e) :
    e.fracEvap ≤ 1 - e.mass / e.init ∧ 0 ≤ e.fracEvap ∧ 1 - e.mass / e.init ≤ 1 := by
  have h1 : 0 ≤ e.mass := by rw [h.sound.1]; exact sum_nonneg h.sound.2
  refine ⟨?_, h.evap, ?_⟩
  · have := h.lost
    rw [le_sub_iff_add_le, ← le_sub_iff_add_le', div_le_iff₀ h.init]
    linarith
  · have := div_nonneg h1 h.init.le
    linarith

theorem less_sound {e e' : El} (h : Less e e') : Sound e' := by
  refine ⟨h.2, ?_⟩
  have := h.1
  generalize e.comps = c, e'.comps = c' at this
  induction this with
  | nil => simp
  | cons h _ ih =>
    intro x hx
    rcases List.mem_cons.1 hx with rfl | hx
    · exact h.1
    · exact ih x hx

theorem evap_records (T : ℝ) (o : List Comp) (dt : ℝ) (U : ℝ × ℝ → ℝ) (els els' : List El) (b : ℝ) (hd : 0 ≤ dt)
    (hl : ∀ e ∈ els, e.comps.length = o.length) (hr : ∀ e ∈ els, Records e)
    (h : evaporate T o dt U els = some (els', b)) :
    (∀ e ∈ els', Records e ∧ e.fracLost = 1 - e.mass / e.init) ∧
    (els'.map (fun e => e.fracEvap * e.init)).sum = (els.map (fun e => e.fracEvap * e.init)).sum + b := by
  have hacc := C82_evaporation T o dt U els els' b hd (fun e he => ⟨(hr e he).sound, hl e he⟩) h
  unfold evaporate at h
  split at h
  · exact absurd h (by simp)
  rename_i hk
  push Not at hk
  simp only [Option.some.injEq, Prod.mk.injEq] at h
  obtain ⟨rfl, rfl⟩ := h
  have hL : ∀ e ∈ els, List.Forall₂ (fun c c' => 0 ≤ c' ∧ c' ≤ c) e.comps
      (expDecay e.comps (decay T o (U e.pos) e) dt) := fun e he =>
    expDecay_less _ _ _ (by simp [decay, hl e he]) (hr e he).sound.2 (hk e he) hd
  have ha : ∀ e ∈ els, (evapEl T o dt (U e.pos) e).2 = e.mass - (evapEl T o dt (U e.pos) e).1.mass := by
    intro e he
    simp only [evapEl, El.withComps]
    rw [zip_sub_sum _ _ (List.Forall₂.length_eq (hL e he)), (hr e he).sound.1]
  have hfe : ∀ e ∈ els, (evapEl T o dt (U e.pos) e).1.fracEvap * e.init =
      e.fracEvap * e.init + (evapEl T o dt (U e.pos) e).2 := by
    intro e he
    have := (hr e he).init.ne'
    simp only [evapEl]
    field_simp
  constructor
  · intro e he
    obtain ⟨e0, h0, rfl⟩ := List.mem_map.1 he
    have hless : Less e0 (evapEl T o dt (U e0.pos) e0).1 := ⟨hL e0 h0, rfl⟩
    have hrec := hr e0 h0
    have h1 := hfe e0 h0
    have h2 := ha e0 h0
    have h3 : (evapEl T o dt (U e0.pos) e0).1.mass ≤ e0.mass := by
      rw [hless.2, hrec.sound.1]; exact (less_sum hless.1).2
    refine ⟨⟨less_sound hless, hrec.init, ?_, ?_⟩, rfl⟩
    · by_contra hc
      have := mul_neg_of_neg_of_pos (not_le.1 hc) hrec.init
      have := mul_nonneg hrec.evap hrec.init.le
      linarith
    · have : (evapEl T o dt (U e0.pos) e0).1.init = e0.init := rfl
      rw [this, h1, h2]
      linarith [hrec.lost]
  · rw [List.map_map, ← sum_map_add]
    congr 1
    exact List.map_congr_left (fun e he => hfe e he)

theorem other_records (els els' : List El) (hr : ∀ e ∈ els, Records e) (h : List.Forall₂ Other els els') :
    (∀ e ∈ els', Records e) ∧
    (els'.map (fun e => e.fracEvap * e.init)).sum = (els.map (fun e => e.fracEvap * e.init)).sum := by
  induction h with
  | nil => exact ⟨by simp, rfl⟩
  | @cons e e' l l' h _ ih =>
    have hrec := hr e (by simp)
    have := ih (fun x hx => hr x (by simp [hx]))
    obtain ⟨h1, h2, h3, h4⟩ := h
    constructor
    · intro x hx
      rcases List.mem_cons.1 hx with rfl | hx
      · refine ⟨less_sound h1, by rw [h2]; exact hrec.init, by rw [h3]; exact hrec.evap, ?_⟩
        have hm : x.mass ≤ e.mass := by rw [h1.2, hrec.sound.1]; exact (less_sum h1.1).2
        rw [h2, h3]
        linarith [hrec.lost]
      · exact this.1 x hx
    · simp only [List.map_cons, List.sum_cons, this.2, h2, h3]

theorem weathered_records (els els' : List El) (a : ℝ) (h : Weathered els els' a) (hr : ∀ e ∈ els, Records e) :
    (∀ e ∈ els', Records e) ∧
    (els'.map (fun e => e.fracEvap * e.init)).sum = (els.map (fun e => e.fracEvap * e.init)).sum + a := by
  induction h with
  | refl => exact ⟨hr, by simp⟩
  | evap e1 e2 T o dt U a b _ hd hl he ih =>
    have := evap_records T o dt U e1 e2 b hd hl ih.1 he
    exact ⟨fun e he => (this.1 e he).1, by rw [this.2, ih.2]; ring⟩
  | other e1 e2 a _ ho ih =>
    have := other_records e1 e2 ih.1 ho
    exact ⟨this.1, by rw [this.2, ih.2]⟩

/-- Whatever else takes oil away, 'frac_evap' of an element is between 0 and
the fraction that is gone, and the evaporated fractions of the initial masses
add up to what was reported as evaporated. -/
theorem C85_evaporated (els els' : List El) (a : ℝ) (h : Weathered els els' a)
    (hn : ∀ e ∈ els, Sound e ∧ 0 < e.mass ∧ e.init = e.mass ∧ e.fracEvap = 0) :
    (∀ e ∈ els', 0 ≤ e.fracEvap ∧ e.fracEvap ≤ 1 - e.mass / e.init ∧ 1 - e.mass / e.init ≤ 1) ∧
    (els'.map (fun e => e.fracEvap * e.init)).sum = a := by
  have hr : ∀ e ∈ els, Records e := fun e he => by
    obtain ⟨h1, h2, h3, h4⟩ := hn e he
    exact ⟨h1, h3 ▸ h2, h4.ge, by rw [h4, h3]; simp⟩
  have := weathered_records els els' a h hr
  refine ⟨fun e he => ?_, ?_⟩
  · have := records_bounds e (this.1 e he)
    exact ⟨this.2.1, this.1, this.2.2⟩
  · rw [this.2]
    have : (els.map (fun e => e.fracEvap * e.init)).sum = 0 := by
      have : els.map (fun e => e.fracEvap * e.init) = els.map (fun _ => (0 : ℝ)) :=
        List.map_congr_left (fun e he => by simp [(hn e he).2.2.2])
      rw [this]; simp
    rw [this]; simp

/-- The other natural processes leave the records alone. -/
theorem dispersion_other (w : Sea) (hw : w.Real) (dt : ℝ) (hd : 0 ≤ dt) (els : List El)
    (he : ∀ e ∈ els, e.Real ∧ e.density ≤ w.rhoW) : List.Forall₂ Other els (disperseDS w dt els).1 := by
  have h := (C82_dispersion_partial w hw dt hd els he).1.2.2
  have h2 : List.Forall₂ (fun e e' : El => e'.init = e.init ∧ e'.fracEvap = e.fracEvap ∧ e'.fracLost = e.fracLost)
      els (disperseDS w dt els).1 := by
    simp only [disperseDS, takeAway]
    generalize share (els.map (fun e => (dsEl w dt e).1)).sum (totalMass els) = f
    generalize share (els.map (fun e => (dsEl w dt e).2)).sum (totalMass (els.map (shrink f))) = f'
    clear h he
    induction els with
    | nil => exact .nil
    | cons e els ih => exact .cons ⟨rfl, rfl, rfl⟩ ih
  revert h h2
  generalize (disperseDS w dt els).1 = r
  intro h
  clear he
  induction h with
  | nil => intro _; exact .nil
  | cons h _ ih =>
    intro h2
    cases h2 with
    | cons a b => exact .cons ⟨h, a⟩ (ih b)

/-- 'frac_lost' is the fraction of the initial mass that is gone. -/
def C85_claim : Prop := ∀ els els' a, Weathered els els' a →
  (∀ e ∈ els, Sound e ∧ 0 < e.mass ∧ e.init = e.mass ∧ e.fracEvap = 0 ∧ e.fracLost = 0) →
    ∀ e ∈ els', e.fracLost = 1 - e.mass / e.init

/-- It is, right after evaporation. -/
theorem C85_lost_partial (els els' els'' : List El) (T : ℝ) (o : List Comp) (dt : ℝ) (U : ℝ × ℝ → ℝ) (a b : ℝ)
    (hd : 0 ≤ dt) (h : Weathered els els' a)
    (hn : ∀ e ∈ els, Sound e ∧ 0 < e.mass ∧ e.init = e.mass ∧ e.fracEvap = 0)
    (hl : ∀ e ∈ els', e.comps.length = o.length) (he : evaporate T o dt U els' = some (els'', b)) :
    ∀ e ∈ els'', e.fracLost = 1 - e.mass / e.init := by
  have hr : ∀ e ∈ els, Records e := fun e he => by
    obtain ⟨h1, h2, h3, h4⟩ := hn e he
    exact ⟨h1, h3 ▸ h2, h4.ge, by rw [h4, h3]; simp⟩
  intro e hm
  exact ((evap_records T o dt U els' els'' b hd hl (weathered_records els els' a h hr).1 he).1 e hm).2

/-- Natural dispersion, which comes after evaporation, does not record what it
takes. -/
theorem C85_counterexample : ¬ C85_claim := by
  intro h
  have ho := dispersion_other sea sea_real 900 (by norm_num) [blob 900] (by
    simp only [List.mem_singleton, forall_eq]
    exact ⟨blob_real _ (by norm_num), by simp [blob, sea]; norm_num⟩)
  have hc := (C82_dispersion_partial sea sea_real 900 (by norm_num) [blob 900] (by
    simp only [List.mem_singleton, forall_eq]
    exact ⟨blob_real _ (by norm_num), by simp [blob, sea]; norm_num⟩))
  have := h [blob 900] _ 0 (.other _ _ _ _ (.refl _) ho) (by
    simp only [List.mem_singleton, forall_eq]
    exact ⟨(blob_real 900 (by norm_num)).sound, (blob_real 900 (by norm_num)).mass, rfl, rfl, rfl⟩)
  have hp : 0 < (disperseDS sea 900 [blob 900]).2.1 := by
    have hd : 0 < (dsEl sea 900 (blob 900)).1 := by
      unfold dsEl
      rw [if_neg (by simp [blob])]
      have hr : 0 < roy (blob 900).viscosity := by unfold roy; positivity
      have hc : 0 < cDisp sea (blob 900).pos := by simp [cDisp, sea]
      refine cap_pos _ _ _ (by simp [blob]) ?_
      have : (blob 900).fracWater = 0 := rfl
      have : (blob 900).area = 10 := rfl
      simp only [*]
      positivity
    simpa [disperseDS, takeAway] using hd
  obtain ⟨e', he'⟩ : ∃ e', (disperseDS sea 900 [blob 900]).1 = [e'] := ⟨_, rfl⟩
  rw [he'] at ho this
  have hacc := hc.1.1
  rw [he'] at hacc
  have e1 := this e' (by simp)
  cases ho with
  | cons ho _ =>
    obtain ⟨_, h2, _, h4⟩ := ho
    rw [h4, h2] at e1
    simp only [totalMass, List.map_cons, List.map_nil, List.sum_cons, List.sum_nil, blob] at e1 hacc
    have hs := hc.2.2
    have : e'.mass = 1010 := by linarith
    rw [this] at hacc
    change _ + (((disperseDS sea 900 [blob 900]).2.1) + ((disperseDS sea 900 [blob 900]).2.2)) = _ at hacc
    linarith

end Verif.NatWeath
