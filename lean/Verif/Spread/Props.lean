import Mathlib.Analysis.SpecialFunctions.Pow.Deriv
import Mathlib.Analysis.SpecialFunctions.Sqrt
import Mathlib.Analysis.Real.Pi.Bounds
import Mathlib.Tactic.Linarith
import Mathlib.Tactic.FieldSimp
import Mathlib.Tactic.Positivity
import Verif.Spread.Spec

/-!
C86: the area of oil never shrinks by spreading. C87: the thickness limit.
C88: a step of spreading is a step along Fay's law and the diffusive law.
-/

namespace Verif.Spread

theorem coefK_pos : 0 < coefK := by
  have := Real.pi_pos
  unfold coefK
  positivity

/-- What holds of every element of a run. -/
structure Inv (e : El) : Prop where
  fay : 0 ≤ e.fay
  frac : 0 ≤ e.frac
  pos : 0 < e.fay → 0 < e.frac

theorem gain_nonneg {rb dt : ℝ} {e : El} (h : Inv e) (hf : 0 < e.fay) (hd : 0 ≤ dt) :
    0 ≤ gain rb dt e := by
  have hk := coefK_pos
  have hfr := h.pos hf
  unfold gain
  have h1 : 0 < e.fay / e.frac := div_pos hf hfr
  have h2 : 0 < (e.fay / e.frac / coefK) ^ (1 / 7 : ℝ) := Real.rpow_pos_of_pos (div_pos h1 hk) _
  positivity

theorem gain_pos {rb dt : ℝ} {e : El} (h : Inv e) (hf : 0 < e.fay) (hd : 0 < dt) :
    0 < gain rb dt e := by
  have hk := coefK_pos
  have hfr := h.pos hf
  unfold gain
  have h1 : 0 < e.fay / e.frac := div_pos hf hfr
  have h2 : 0 < (e.fay / e.frac / coefK) ^ (1 / 7 : ℝ) := Real.rpow_pos_of_pos (div_pos h1 hk) _
  have h3 : 0 ≤ 0.5 * (coefC rb e.bulk ^ 2 / (e.fay / e.frac)) * dt := by positivity
  have h4 : 0 < ((7 / 6) * coefK * ((e.fay / e.frac) / coefK) ^ (1 / 7 : ℝ)) * dt := by positivity
  exact mul_pos hfr (by linarith)

theorem updateArea_ge {rb V dt m : ℝ} {e : El} (h : Inv e) (hd : 0 ≤ dt) :
    e.fay ≤ updateArea rb V dt m e := by
  unfold updateArea
  split
  · rename_i hc
    have := gain_nonneg (rb := rb) h hc.2.2.2 hd
    exact le_min (by linarith) hc.2.2.1.le
  · exact le_rfl

theorem updateArea_le (rb V dt m : ℝ) (e : El) : updateArea rb V dt m e ≤ max e.fay m := by
  unfold updateArea
  split
  · exact le_trans (min_le_right _ _) (le_max_right _ _)
  · exact le_max_left _ _

theorem sum_vol_nonneg {new : List El} (h : ∀ e ∈ new, Fresh e) : 0 ≤ (new.map El.vol).sum := by
  apply List.sum_nonneg
  intro x hx
  obtain ⟨e, he, rfl⟩ := List.mem_map.1 hx
  exact (div_pos (h e he).1 (h e he).2).le

theorem initArea_nonneg {nu rb V lim : ℝ} (hr : 0 ≤ rb) (hl : 0 < lim) (hV : 0 ≤ V) :
    0 ≤ initArea nu rb V lim := by
  have := Real.pi_pos
  unfold initArea g k1 k2
  refine le_min ?_ (div_nonneg hV hl.le)
  have : 0 ≤ ((V ^ 5 * 9.80665 * rb) / nu ^ 2) := by positivity
  have := Real.rpow_nonneg this (1 / 6 : ℝ)
  positivity

theorem blob_nonneg {cont within : Bool} {prev : ℝ} {new : List El} (hp : 0 ≤ prev)
    (h : ∀ e ∈ new, Fresh e) : 0 ≤ blob cont within prev (new.map El.vol).sum := by
  have := sum_vol_nonneg h
  unfold blob released
  split
  · split <;> linarith
  · exact this

theorem releaseEl_inv {nu rb lim b : ℝ} {e : El} (hr : 0 ≤ rb) (hl : 0 < lim) (hb : 0 ≤ b)
    (h : Fresh e) : Inv (releaseEl nu rb lim b e) := by
  have hv : 0 < e.vol := div_pos h.1 h.2
  have hA := initArea_nonneg (nu := nu) hr hl hb
  have hf : 0 ≤ (if 0 < b then e.vol / b else 0) := by
    split
    · exact div_nonneg hv.le hb
    · exact le_rfl
  refine ⟨mul_nonneg hA hf, hf, fun hpos => ?_⟩
  rcases hf.lt_or_eq with h1 | h1
  · exact h1
  · exfalso
    have : initArea nu rb b lim * (if 0 < b then e.vol / b else 0) = 0 := by rw [← h1, mul_zero]
    exact absurd this (ne_of_gt hpos)

theorem release_inv {cont within : Bool} {nu rb lim prev : ℝ} {new : List El} (hr : 0 ≤ rb)
    (hl : 0 < lim) (hp : 0 ≤ prev) (h : ∀ e ∈ new, Fresh e) :
    ∀ e ∈ (release cont within nu rb lim prev new).2, Inv e := by
  intro e he
  obtain ⟨e0, h0, rfl⟩ := List.mem_map.1 he
  exact releaseEl_inv hr hl (blob_nonneg hp h) (h e0 h0)

theorem fayStep_some {rb lim dt : ℝ} {els els' : List El} (h : fayStep rb lim dt els = some els') :
    els' = els.map (fun e => if e.surf then spreadEl rb lim dt els e else e) := by
  unfold fayStep at h
  split at h
  · cases h
  · exact (Option.some.inj h).symm

theorem same_get {a b : List El} (h : List.Forall₂ Same a b) (i : Nat) (e : El)
    (he : a[i]? = some e) : ∃ e', b[i]? = some e' ∧ Same e e' := by
  induction h generalizing i with
  | nil => simp at he
  | cons hs _ ih =>
    cases i with
    | zero => simp at he; subst he; exact ⟨_, rfl, hs⟩
    | succ n => simpa using ih n (by simpa using he)

theorem same_mem {a b : List El} (h : List.Forall₂ Same a b) {e' : El} (he : e' ∈ b) :
    ∃ e ∈ a, Same e e' := by
  induction h with
  | nil => simp at he
  | cons hs _ ih =>
    rcases List.mem_cons.1 he with rfl | h'
    · exact ⟨_, List.mem_cons_self, hs⟩
    · obtain ⟨e, h1, h2⟩ := ih h'
      exact ⟨e, List.mem_cons_of_mem _ h1, h2⟩

theorem step_inv {rb lim : ℝ} (hr : 0 ≤ rb) (hl : 0 < lim) {a b : List El} (h : Step rb lim a b)
    (ha : ∀ e ∈ a, Inv e) : ∀ e ∈ b, Inv e := by
  cases h with
  | release cont within nu prev new _ _ hp hn =>
    intro e he
    rcases List.mem_append.1 he with h1 | h1
    · exact ha e h1
    · exact release_inv hr hl hp hn e h1
  | spread dt _ _ hd hs =>
    rw [fayStep_some hs]
    intro e he
    obtain ⟨e0, h0, rfl⟩ := List.mem_map.1 he
    have hi := ha e0 h0
    split
    · have := updateArea_ge (rb := rb) (V := firstBulk a e0.spill) (m := maxAreaOf lim e0) hi hd
      refine ⟨le_trans hi.fay this, hi.frac, fun hpos => ?_⟩
      by_cases hz : 0 < e0.fay
      · exact hi.pos hz
      · exfalso
        have hpos : 0 < updateArea rb (firstBulk a e0.spill) dt (maxAreaOf lim e0) e0 := hpos
        unfold updateArea at hpos
        rw [if_neg (fun hc => hz hc.2.2.2)] at hpos
        exact hz hpos
    · exact hi
  | langmuir rho wind _ =>
    intro e he
    obtain ⟨e0, h0, rfl⟩ := List.mem_map.1 he
    have hi := ha e0 h0
    split
    · exact ⟨hi.fay, hi.frac, hi.pos⟩
    · exact hi
  | other _ _ hs =>
    intro e' he
    obtain ⟨e, h0, h1⟩ := same_mem hs he
    have hi := ha e h0
    exact ⟨h1.fay ▸ hi.fay, h1.frac ▸ hi.frac, fun hp => h1.frac ▸ hi.pos (h1.fay ▸ hp)⟩

theorem run_inv {rb lim : ℝ} (hr : 0 ≤ rb) (hl : 0 < lim) {a b : List El} (h : Run rb lim a b)
    (ha : ∀ e ∈ a, Inv e) : ∀ e ∈ b, Inv e := by
  induction h with
  | refl => exact ha
  | step b c _ hs ih => exact step_inv hr hl hs ih

theorem step_grows {rb lim : ℝ} {a b : List El} (h : Step rb lim a b)
    (ha : ∀ e ∈ a, Inv e) (i : Nat) (e : El) (he : a[i]? = some e) :
    ∃ e', b[i]? = some e' ∧ e.fay ≤ e'.fay := by
  cases h with
  | release cont within nu prev new _ _ hp hn =>
    refine ⟨e, ?_, le_rfl⟩
    rw [List.getElem?_append_left (List.getElem?_eq_some_iff.1 he).1]
    exact he
  | spread dt _ _ hd hs =>
    rw [fayStep_some hs]
    refine ⟨_, by rw [List.getElem?_map, he]; rfl, ?_⟩
    beta_reduce
    split
    · exact updateArea_ge (ha e (List.mem_of_getElem? he)) hd
    · exact le_rfl
  | langmuir rho wind _ =>
    refine ⟨_, by unfold langmuir; rw [List.getElem?_map, he]; rfl, ?_⟩
    beta_reduce
    split <;> exact le_rfl
  | other _ _ hs =>
    obtain ⟨e', h1, h2⟩ := same_get hs i e he
    exact ⟨e', h1, h2.fay.ge⟩

/-! ### C86 -/

/-- In a run of any length, from its beginning, the area that an element covers
by spreading never shrinks, however densities, masses, ages and fates change
and whatever is released beside it. -/
theorem C86_never_shrinks {rb lim : ℝ} (hr : 0 ≤ rb) (hl : 0 < lim) {a b : List El}
    (h0 : Run rb lim [] a) (h : Run rb lim a b) (i : Nat) (e : El) (he : a[i]? = some e) :
    ∃ e', b[i]? = some e' ∧ e.fay ≤ e'.fay := by
  have ha := run_inv hr hl h0 (by simp)
  induction h with
  | refl => exact ⟨e, he, le_rfl⟩
  | step b c hrun hs ih =>
    obtain ⟨e1, h1, h2⟩ := ih
    obtain ⟨e2, h3, h4⟩ := step_grows hs (run_inv hr hl hrun ha) i e1 h1
    exact ⟨e2, h3, le_trans h2 h4⟩

/-- A step of spreading leaves an area below what it was or the maximal area of
the element at its present density, changes nothing else but the area used by
the weatherers and the maximal area, and leaves elements alone that are not on
the surface. -/
theorem C86_step {rb lim dt : ℝ} {els els' : List El} (h : fayStep rb lim dt els = some els')
    (i : Nat) (e : El) (he : els[i]? = some e) :
    (e.surf = false → els'[i]? = some e) ∧
    (e.surf = true → ∃ a,
      els'[i]? = some { e with fay := a, area := a, maxArea := e.init / e.dens / lim } ∧
      a ≤ max e.fay (e.init / e.dens / lim)) := by
  rw [fayStep_some h, List.getElem?_map, he]
  refine ⟨fun hs => by simp [hs], fun hs => ?_⟩
  refine ⟨updateArea rb (firstBulk els e.spill) dt (maxAreaOf lim e) e, ?_,
    updateArea_le _ _ _ _ _⟩
  rw [Option.map_some, if_pos hs]
  rfl

/-- Floating oil past the first phase of spreading, thicker than the limit,
spreads in every step: its area becomes larger. -/
theorem C86_spreads {rb lim dt : ℝ} (hr : 0 < rb) (hl : 0 < lim) {els els' : List El}
    (h0 : Run rb lim [] els) (hd : 0 < dt) (h : fayStep rb lim dt els = some els')
    (i : Nat) (e : El) (he : els[i]? = some e) (hs : e.surf = true) (hf : 0 < e.fay)
    (hm : e.fay < e.init / e.dens / lim)
    (ht : t0 waterVisc rb (firstBulk els e.spill) < e.age + dt) :
    ∃ e', els'[i]? = some e' ∧ e.fay < e'.fay := by
  have hi := run_inv hr.le hl h0 (by simp) e (List.mem_of_getElem? he)
  rw [fayStep_some h, List.getElem?_map, he]
  refine ⟨_, by simp only [Option.map_some, hs, if_true]; rfl, ?_⟩
  change e.fay < updateArea rb (firstBulk els e.spill) dt (maxAreaOf lim e) e
  unfold updateArea
  rw [if_pos ⟨hr.ne', ht, hm, hf⟩]
  exact lt_min (by linarith [gain_pos (rb := rb) hi hf hd]) hm

/-- In the first phase, at the thickness limit, and under water or on land,
the area stays what it is. -/
theorem C86_stays {rb lim dt : ℝ} {els els' : List El} (h : fayStep rb lim dt els = some els')
    (i : Nat) (e : El) (he : els[i]? = some e)
    (hs : e.surf = false ∨ e.age + dt ≤ t0 waterVisc rb (firstBulk els e.spill) ∨
      e.init / e.dens / lim ≤ e.fay) :
    ∃ e', els'[i]? = some e' ∧ e'.fay = e.fay := by
  rw [fayStep_some h, List.getElem?_map, he]
  refine ⟨_, rfl, ?_⟩
  beta_reduce
  split
  · rename_i hsurf
    change updateArea rb (firstBulk els e.spill) dt (maxAreaOf lim e) e = _
    unfold updateArea
    rw [if_neg]
    rintro ⟨_, h1, h2, _⟩
    rcases hs with h3 | h3 | h3
    · rw [hsurf] at h3; cases h3
    · linarith
    · exact absurd (show e.fay < e.init / e.dens / lim from h2) (not_lt.2 h3)
  · rfl

/-! ### C87 -/

/-- What holds of every element of a run in which densities do not rise. -/
structure Thick' (lim : ℝ) (e : El) : Prop where
  init : 0 < e.init
  dens : 0 < e.dens
  thick : e.fay ≤ e.init / e.dens / lim

theorem releaseEl_thick {nu rb lim b : ℝ} {e : El} (hl : 0 < lim) (h : Fresh e) :
    Thick' lim (releaseEl nu rb lim b e) := by
  obtain ⟨hi, hd⟩ := h
  refine ⟨hi, hd, ?_⟩
  have hv : 0 < e.vol := div_pos hi hd
  change initArea nu rb b lim * (if 0 < b then e.vol / b else 0) ≤ e.vol / lim
  split
  · rename_i hb
    have : initArea nu rb b lim ≤ b / lim := min_le_right _ _
    refine le_trans (mul_le_mul_of_nonneg_right this (div_pos hv hb).le) (le_of_eq ?_)
    field_simp
  · rw [mul_zero]
    exact (div_pos hv hl).le

theorem release_thick {cont within : Bool} {nu rb lim prev : ℝ} {new : List El}
    (hl : 0 < lim) (h : ∀ e ∈ new, Fresh e) :
    ∀ e ∈ (release cont within nu rb lim prev new).2, Thick' lim e := by
  intro e he
  obtain ⟨e0, h0, rfl⟩ := List.mem_map.1 he
  exact releaseEl_thick hl (h e0 h0)

theorem step_thick {rb lim : ℝ} (hl : 0 < lim) {a b : List El} (h : Step rb lim a b)
    (hd : DensOk a b) (ha : ∀ e ∈ a, Thick' lim e) : ∀ e ∈ b, Thick' lim e := by
  cases h with
  | release cont within nu prev new _ _ hp hn =>
    intro e he
    rcases List.mem_append.1 he with h1 | h1
    · exact ha e h1
    · exact release_thick hl hn e h1
  | spread dt _ _ hdt hs =>
    rw [fayStep_some hs]
    intro e he
    obtain ⟨e0, h0, rfl⟩ := List.mem_map.1 he
    have hi := ha e0 h0
    split
    · exact ⟨hi.init, hi.dens, le_trans (updateArea_le _ _ _ _ _) (max_le hi.thick le_rfl)⟩
    · exact hi
  | langmuir rho wind _ =>
    intro e he
    obtain ⟨e0, h0, rfl⟩ := List.mem_map.1 he
    have hi := ha e0 h0
    split
    · exact ⟨hi.init, hi.dens, hi.thick⟩
    · exact hi
  | other _ _ hs =>
    intro e' he
    obtain ⟨i, hi⟩ := List.mem_iff_getElem?.1 he
    have hlen := hs.length_eq
    have hia : i < a.length := by
      rw [hlen]; exact (List.getElem?_eq_some_iff.1 hi).1
    obtain ⟨e'', h1, h2⟩ := same_get hs i a[i] (List.getElem?_eq_getElem hia)
    rw [hi] at h1
    cases h1
    obtain ⟨h3, h4⟩ := hd i a[i] e' (List.getElem?_eq_getElem hia) hi
    have h5 := ha a[i] (List.getElem_mem hia)
    refine ⟨h2.init ▸ h5.init, h3, ?_⟩
    rw [h2.fay, h2.init]
    refine le_trans h5.thick ?_
    have := h5.init
    exact div_le_div_of_nonneg_right (div_le_div_of_nonneg_left this.le h3 h4) hl.le

/-- Oil never gets thinner than the thickness limit. -/
def C87_claim : Prop :=
  ∀ rb lim : ℝ, 0 < rb → 0 < lim → ∀ els, Run rb lim [] els →
    ∀ e ∈ els, e.surf = true → 0 < e.fay → lim ≤ e.mass / e.dens / e.fay

/-- The same with the mass the oil had when it was released. -/
def C87_claim_initial : Prop :=
  ∀ rb lim : ℝ, 0 < rb → 0 < lim → ∀ els, Run rb lim [] els →
    ∀ e ∈ els, e.surf = true → 0 < e.fay → lim ≤ e.init / e.dens / e.fay

/-- As long as the density of an element never rises, its initial mass over
the area is never thinner than the limit: it is so when it is released, and
spreading stops there. Missing for the claim: densities that rise and masses
that fall, as with all weathering. -/
theorem C87_partial {rb lim : ℝ} (hl : 0 < lim) {els : List El} (h : LightRun rb lim [] els)
    (e : El) (he : e ∈ els) (hf : 0 < e.fay) : lim ≤ e.init / e.dens / e.fay := by
  have key : ∀ a b : List El, LightRun rb lim a b → (∀ e ∈ a, Thick' lim e) →
      ∀ e ∈ b, Thick' lim e := by
    intro a b hab
    induction hab with
    | refl => exact fun h => h
    | step b c _ hs hd ih => exact fun h => step_thick hl hs hd (ih h)
  have ht := (key [] els h (by simp) e he).thick
  rw [le_div_iff₀ hf]
  rw [le_div_iff₀ hl] at ht
  linarith

/-- One cubic metre of oil. -/
noncomputable def drop (m d : ℝ) : El :=
  { spill := 0, pos := (0, 0), surf := true, mass := m, init := 900, dens := d, age := 0,
    bulk := 0, frac := 0, fay := 0, area := 0, cover := 1, maxArea := 0 }

theorem initArea_pos {nu rb V lim : ℝ} (hn : 0 < nu) (hr : 0 < rb) (hl : 0 < lim) (hV : 0 < V) :
    0 < initArea nu rb V lim := by
  have := Real.pi_pos
  unfold initArea g k1 k2
  refine lt_min ?_ (div_pos hV hl)
  have : 0 < ((V ^ 5 * 9.80665 * rb) / nu ^ 2) := by positivity
  have := Real.rpow_pos_of_pos this (1 / 6 : ℝ)
  positivity

/-- The drop after its release. -/
noncomputable def drop1 : El :=
  { drop 900 900 with
    bulk := 1, frac := 1, fay := initArea 0.00001 0.1 1 0.0001,
    area := initArea 0.00001 0.1 1 0.0001 }

theorem drop_release : (release false true 0.00001 0.1 0.0001 0 [drop 900 900]).2 = [drop1] := by
  norm_num [release, releaseEl, blob, El.vol, drop, drop1]

theorem cbrt_le {x y : ℝ} (hx : 0 ≤ x) (hy : 0 ≤ y) (h : x ≤ y ^ 3) : x ^ (1 / 3 : ℝ) ≤ y := by
  rw [one_div, Real.rpow_inv_le_iff_of_pos hx hy (by norm_num)]
  exact_mod_cast h

theorem le_cbrt {x y : ℝ} (hx : 0 ≤ x) (hy : 0 ≤ y) (h : y ^ 3 ≤ x) : y ≤ x ^ (1 / 3 : ℝ) := by
  rw [one_div, Real.le_rpow_inv_iff_of_pos hy hx (by norm_num)]
  exact_mod_cast h

theorem drop_t0 : t0 waterVisc 0.1 1 < 86400 := by
  unfold t0 waterVisc g k1 k2
  have h : ((1 : ℝ) / (0.000001 * 9.80665 * 0.1)) ^ (1 / 3 : ℝ) ≤ 102 :=
    cbrt_le (by norm_num) (by norm_num) (by norm_num)
  have : ((1.21 : ℝ) / 1.53) ^ 4 ≤ 1 := by norm_num
  nlinarith [Real.rpow_nonneg (show (0 : ℝ) ≤ 1 / (0.000001 * 9.80665 * 0.1) by norm_num) (1 / 3 : ℝ)]

theorem drop_C : 56 ≤ coefC 0.1 1 := by
  have hs : √(0.000001 : ℝ) = 0.001 := by
    rw [show (0.000001 : ℝ) = 0.001 ^ 2 by norm_num]
    exact Real.sqrt_sq (by norm_num)
  have h : (9 : ℝ) ≤ ((1 : ℝ) ^ 2 * 9.80665 * 0.1 / 0.001) ^ (1 / 3 : ℝ) :=
    le_cbrt (by norm_num) (by norm_num) (by norm_num)
  have h2 : (6.3 : ℝ) ≤ Real.pi * 1.45 ^ 2 := by nlinarith [Real.pi_gt_three]
  unfold coefC waterVisc g k3
  rw [hs]
  nlinarith

/-- After a day the drop has spread to the limit. -/
noncomputable def drop2 (m d : ℝ) : El :=
  { drop m d with bulk := 1, frac := 1, fay := 10000, area := 10000, maxArea := 10000 }

theorem drop_spread : fayStep 0.1 0.0001 86400 [drop1] = some [drop2 900 900] := by
  have h1 : drop1.fay ≤ 10000 := by
    refine le_trans (min_le_right _ _) (by norm_num)
  have h0 : 0 < drop1.fay := initArea_pos (by norm_num) (by norm_num) (by norm_num) (by norm_num)
  have hm : maxAreaOf 0.0001 drop1 = 10000 := by norm_num [maxAreaOf, El.vol, drop1, drop]
  have hv : firstBulk [drop1] 0 = 1 := by simp [firstBulk, drop1, drop]
  have hu : updateArea 0.1 1 86400 10000 drop1 = 10000 := by
    rcases h1.lt_or_eq with hlt | heq
    · unfold updateArea
      rw [if_pos ⟨by norm_num, lt_of_lt_of_le drop_t0 (by norm_num [drop1, drop]), hlt, h0⟩]
      refine min_eq_right ?_
      have hg : 10000 ≤ gain 0.1 86400 drop1 := by
        unfold gain
        have hk := coefK_pos
        have hfr : drop1.frac = 1 := rfl
        have hb : drop1.bulk = 1 := rfl
        rw [hfr, hb, div_one, one_mul]
        have h2 : 0 ≤ (7 / 6) * coefK * (drop1.fay / coefK) ^ (1 / 7 : ℝ) * 86400 := by positivity
        have h3 : (56 : ℝ) ^ 2 / 10000 ≤ coefC 0.1 1 ^ 2 / drop1.fay :=
          div_le_div₀ (by positivity) (pow_le_pow_left₀ (by norm_num) drop_C 2) h0 h1
        norm_num at h3
        linarith
      linarith
    · unfold updateArea
      rw [if_neg (by rw [heq]; exact fun hc => absurd hc.2.2.1 (lt_irrefl _)), heq]
  have hs : fayStep 0.1 0.0001 86400 [drop1] =
      some [spreadEl 0.1 0.0001 86400 [drop1] drop1] := by
    unfold fayStep
    norm_num [drop1, drop]
  rw [hs]
  unfold spreadEl
  rw [hm, show firstBulk [drop1] drop1.spill = 1 from hv, hu]
  rfl

theorem drop_run : Run 0.1 0.0001 [] [drop2 900 900] := by
  refine .step _ _ _ (.step _ _ _ (.refl _)
    (.release false true 0.00001 0 [drop 900 900] [] (by norm_num) le_rfl ?_)) ?_
  · intro e he
    rw [List.mem_singleton.1 he]
    constructor <;> norm_num [drop]
  · rw [drop_release]
    exact .spread 86400 _ _ (by norm_num) drop_spread

theorem drop_change (m d : ℝ) : Run 0.1 0.0001 [] [drop2 m d] :=
  .step _ _ _ drop_run (.other _ _ (.cons ⟨rfl, rfl, rfl, rfl, rfl⟩ .nil))

/-- A cubic metre of oil (900 kg/m³), spread to the limit of 0.1 mm in a day,
is half as thick after half of it has evaporated. -/
theorem C87_counterexample : ¬ C87_claim := by
  intro h
  have := h 0.1 0.0001 (by norm_num) (by norm_num) _ (drop_change 450 900) _
    (List.mem_singleton.2 rfl) rfl (by norm_num [drop2])
  norm_num [drop2, drop] at this

/-- Counted with the mass released it is thinner than the limit once its
density has risen to 950 kg/m³. -/
theorem C87_counterexample_density : ¬ C87_claim_initial := by
  intro h
  have := h 0.1 0.0001 (by norm_num) (by norm_num) _ (drop_change 900 950) _
    (List.mem_singleton.2 rfl) rfl (by norm_num [drop2])
  norm_num [drop2, drop] at this

/-- The hypotheses of `C87_partial` are met by the drop, which is exactly as
thick as the limit. -/
example : LightRun 0.1 0.0001 [] [drop2 900 900] ∧ 0 < (drop2 900 900).fay ∧
    (drop2 900 900).init / (drop2 900 900).dens / (drop2 900 900).fay = 0.0001 := by
  refine ⟨?_, by norm_num [drop2], by norm_num [drop2, drop]⟩
  refine .step _ _ _ (.step _ _ _ (.refl _)
    (.release false true 0.00001 0 [drop 900 900] [] (by norm_num) le_rfl ?_) ?_) ?_ ?_
  · intro e he
    rw [List.mem_singleton.1 he]
    constructor <;> norm_num [drop]
  · intro i e e' h
    simp at h
  · rw [drop_release]
    exact .spread 86400 _ _ (by norm_num) drop_spread
  · rw [drop_release]
    intro i e e' h h'
    cases i with
    | zero =>
      simp at h h'
      subst h; subst h'
      norm_num [drop1, drop2, drop]
    | succ n => simp at h

/-- The hypotheses of C86 are met by a run in which the area does grow. -/
example : ∃ a b : List El, Run 0.1 0.0001 [] a ∧ Run 0.1 0.0001 a b ∧ a = [drop1] ∧
    b = [drop2 900 900] := by
  refine ⟨_, _, ?_, .step _ _ _ (.refl _) (.spread 86400 _ _ (by norm_num) drop_spread), rfl, rfl⟩
  rw [← drop_release]
  refine .step _ _ _ (.refl _)
    (.release false true 0.00001 0 [drop 900 900] [] (by norm_num) le_rfl ?_)
  intro e he
  rw [List.mem_singleton.1 he]
  constructor <;> norm_num [drop]

/-! ### C88 -/

/-- For oil that spreads and does not reach the limit in the step, the step is
one along two laws of spreading: with `A` the area of the whole blob (the area
of the element over its share of the volume), `tF` the time at which Fay's law
for the blob's volume gives `A` and `tD` the time at which the diffusive law
gives `A`, the element gains its share of the time step times the sum of the
rates of growth of the two laws at these times. -/
theorem C88_rate {rb lim dt : ℝ} {els els' : List El}
    (h : fayStep rb lim dt els = some els') (i : Nat) (e : El) (he : els[i]? = some e)
    (hr : 0 < rb) (hs : e.surf = true) (hfr : 0 < e.frac) (hf : 0 < e.fay)
    (ht : t0 waterVisc rb (firstBulk els e.spill) < e.age + dt)
    (C K tF tD : ℝ)
    (hC : C = Real.pi * 1.45 ^ 2 * (e.bulk ^ 2 * 9.80665 * rb / √0.000001) ^ (1 / 3 : ℝ))
    (hK : K = 4 * Real.pi * 2 * 0.033)
    (hF : 0 < tF) (hFa : fayLaw C tF = e.fay / e.frac)
    (hD : 0 < tD) (hDa : diffLaw K tD = e.fay / e.frac)
    (hm : e.fay + e.frac * (deriv (fayLaw C) tF + deriv (diffLaw K) tD) * dt <
      e.init / e.dens / lim) (hdt : 0 ≤ dt) :
    ∃ e', els'[i]? = some e' ∧
      e'.fay = e.fay + e.frac * (deriv (fayLaw C) tF + deriv (diffLaw K) tD) * dt := by
  have hCd : C = coefC rb e.bulk := hC
  have hKd : K = coefK := hK
  have hKp : 0 < K := hKd ▸ coefK_pos
  have hA : 0 < e.fay / e.frac := div_pos hf hfr
  have hsq : 0 < √tF := Real.sqrt_pos.2 hF
  have h1 : deriv (fayLaw C) tF = 0.5 * (C ^ 2 / (e.fay / e.frac)) := by
    have hd : HasDerivAt (fayLaw C) (C * (1 / (2 * √tF))) tF :=
      (Real.hasDerivAt_sqrt hF.ne').const_mul C
    rw [hd.deriv, ← hFa]
    unfold fayLaw at hFa ⊢
    have hC0 : C ≠ 0 := by
      rintro rfl
      rw [zero_mul] at hFa
      exact hA.ne hFa
    field_simp
    norm_num
  have h2 : deriv (diffLaw K) tD = (7 / 6) * K * ((e.fay / e.frac) / K) ^ (1 / 7 : ℝ) := by
    have hd : HasDerivAt (diffLaw K) (K * ((7 / 6) * tD ^ ((7 / 6 : ℝ) - 1))) tD :=
      (Real.hasDerivAt_rpow_const (Or.inl hD.ne')).const_mul K
    rw [hd.deriv, ← hDa]
    unfold diffLaw
    rw [mul_div_cancel_left₀ _ hKp.ne', ← Real.rpow_mul hD.le]
    norm_num
    ring
  have hg : e.frac * (deriv (fayLaw C) tF + deriv (diffLaw K) tD) * dt = gain rb dt e := by
    rw [h1, h2, hCd, hKd]
    unfold gain
    ring
  rw [hg] at hm ⊢
  rw [fayStep_some h, List.getElem?_map, he]
  refine ⟨_, by simp only [Option.map_some, hs, if_true]; rfl, ?_⟩
  change updateArea rb (firstBulk els e.spill) dt (maxAreaOf lim e) e = _
  unfold updateArea
  have hg0 : 0 ≤ gain rb dt e := gain_nonneg ⟨hf.le, hfr.le, fun _ => hfr⟩ hf hdt
  have hm' : e.fay + gain rb dt e < maxAreaOf lim e := hm
  rw [if_pos ⟨hr.ne', ht, by linarith, hf⟩, min_eq_left hm'.le]

theorem drop_C_le : coefC 0.1 1 ≤ 67 := by
  have hs : √(0.000001 : ℝ) = 0.001 := by
    rw [show (0.000001 : ℝ) = 0.001 ^ 2 by norm_num]
    exact Real.sqrt_sq (by norm_num)
  have h : ((1 : ℝ) ^ 2 * 9.80665 * 0.1 / 0.001) ^ (1 / 3 : ℝ) ≤ 10 :=
    cbrt_le (by norm_num) (by norm_num) (by norm_num)
  have h0 : 0 ≤ ((1 : ℝ) ^ 2 * 9.80665 * 0.1 / 0.001) ^ (1 / 3 : ℝ) := by positivity
  have h2 : Real.pi * 1.45 ^ 2 ≤ 6.7 := by nlinarith [Real.pi_lt_d2]
  unfold coefC waterVisc g k3
  rw [hs]
  nlinarith

/-- An hour after its release, covering little. -/
noncomputable def drop3 : El :=
  { drop 900 900 with age := 3600, bulk := 1, frac := 1, fay := coefK, area := coefK }

/-- The hypotheses of `C88_rate` can be met. -/
example : ∃ (e : El) (C tF : ℝ), e = drop3 ∧ C = coefC 0.1 e.bulk ∧ 0 < tF ∧
    fayLaw C tF = e.fay / e.frac ∧ diffLaw coefK 1 = e.fay / e.frac ∧
    t0 waterVisc 0.1 (firstBulk [e] e.spill) < e.age + 1 ∧
    e.fay + e.frac * (deriv (fayLaw C) tF + deriv (diffLaw coefK) 1) * 1 <
      e.init / e.dens / 0.0001 := by
  have hC := drop_C
  have hC' := drop_C_le
  have hK := coefK_pos
  have hK1 : coefK ≤ 1 := by
    unfold coefK
    linarith [Real.pi_lt_d2]
  have hK2 : 0.7 ≤ coefK := by
    unfold coefK
    linarith [Real.pi_gt_three]
  have ht : 0 < (coefK / coefC 0.1 1) ^ 2 := by positivity
  refine ⟨drop3, coefC 0.1 1, (coefK / coefC 0.1 1) ^ 2, rfl, rfl, ht, ?_, ?_, ?_, ?_⟩
  · unfold fayLaw drop3
    rw [Real.sqrt_sq (by positivity)]
    field_simp
  · simp [diffLaw, drop3]
  · have hv : firstBulk [drop3] drop3.spill = 1 := by simp [firstBulk, drop3, drop]
    rw [hv]
    unfold t0 waterVisc g k1 k2
    have h : ((1 : ℝ) / (0.000001 * 9.80665 * 0.1)) ^ (1 / 3 : ℝ) ≤ 102 :=
      cbrt_le (by norm_num) (by norm_num) (by norm_num)
    have h0 : 0 ≤ ((1 : ℝ) / (0.000001 * 9.80665 * 0.1)) ^ (1 / 3 : ℝ) := by positivity
    have : ((1.21 : ℝ) / 1.53) ^ 4 ≤ 1 := by norm_num
    have : (3600 : ℝ) = drop3.age := rfl
    nlinarith
  · have h1 : deriv (fayLaw (coefC 0.1 1)) ((coefK / coefC 0.1 1) ^ 2) =
        coefC 0.1 1 * (1 / (2 * (coefK / coefC 0.1 1))) := by
      have hd := (Real.hasDerivAt_sqrt ht.ne').const_mul (coefC 0.1 1)
      rw [Real.sqrt_sq (by positivity)] at hd
      exact hd.deriv
    have h2 : deriv (diffLaw coefK) 1 = coefK * (7 / 6) := by
      have hd := (Real.hasDerivAt_rpow_const (x := 1) (p := (7 / 6 : ℝ))
        (Or.inl one_ne_zero)).const_mul coefK
      rw [Real.one_rpow, mul_one] at hd
      exact hd.deriv
    have h3 : coefC 0.1 1 * (1 / (2 * (coefK / coefC 0.1 1))) = coefC 0.1 1 ^ 2 / (2 * coefK) := by
      field_simp
    rw [h1, h2, h3]
    have h4 : coefC 0.1 1 ^ 2 / (2 * coefK) ≤ 67 ^ 2 / (2 * 0.7) :=
      div_le_div₀ (by norm_num) (pow_le_pow_left₀ (by linarith) hC' 2) (by norm_num) (by linarith)
    norm_num [drop3, drop] at h4 ⊢
    linarith

/-- The gravity-inertial law of the first phase: the area after a time. -/
noncomputable def inertialLaw (rb V t : ℝ) : ℝ := Real.pi * 1.53 ^ 2 * √(V * 9.80665 * rb) * t

/-- The gravity-viscous law with the constant of the first phase. -/
noncomputable def viscousLaw (nu rb V t : ℝ) : ℝ :=
  Real.pi * 1.21 ^ 2 * (V ^ 2 * 9.80665 * rb / √nu) ^ (1 / 3 : ℝ) * √t

theorem sixth {x : ℝ} (hx : 0 < x) : ∃ a : ℝ, 0 < a ∧ x = a ^ 6 := by
  refine ⟨x ^ (1 / 6 : ℝ), Real.rpow_pos_of_pos hx _, ?_⟩
  rw [← Real.rpow_natCast, ← Real.rpow_mul hx.le]
  norm_num

theorem root3 {x : ℝ} (hx : 0 ≤ x) : (x ^ 3) ^ (1 / 3 : ℝ) = x := by
  rw [← Real.rpow_natCast, ← Real.rpow_mul hx]
  norm_num

theorem root6 {x : ℝ} (hx : 0 ≤ x) : (x ^ 6) ^ (1 / 6 : ℝ) = x := by
  rw [← Real.rpow_natCast, ← Real.rpow_mul hx]
  norm_num

/-- The length of the first phase is the time at which the law of the first
phase and that of the second agree, and the area there is the initial area
given to oil, if not limited by the thickness. -/
theorem C88_first_phase {nu rb V lim : ℝ} (hn : 0 < nu) (hr : 0 < rb) (hV : 0 < V)
    (hl : inertialLaw rb V (t0 nu rb V) ≤ V / lim) :
    inertialLaw rb V (t0 nu rb V) = viscousLaw nu rb V (t0 nu rb V) ∧
    initArea nu rb V lim = inertialLaw rb V (t0 nu rb V) := by
  obtain ⟨a, ha, hVa⟩ := sixth hV
  obtain ⟨b, hb, hGb⟩ := sixth (show 0 < 9.80665 * rb by positivity)
  obtain ⟨c, hc, hnc⟩ := sixth hn
  have e1 : V * 9.80665 * rb = (a ^ 3 * b ^ 3) ^ 2 := by
    rw [mul_assoc, hGb, hVa]
    ring
  have e2 : V / (nu * 9.80665 * rb) = (a ^ 2 / (c ^ 2 * b ^ 2)) ^ 3 := by
    rw [mul_assoc, hGb, hVa, hnc]
    field_simp
  have e3 : √nu = c ^ 3 := by
    rw [hnc, show c ^ 6 = (c ^ 3) ^ 2 by ring, Real.sqrt_sq (by positivity)]
  have e4 : V ^ 2 * 9.80665 * rb / √nu = (a ^ 4 * b ^ 2 / c) ^ 3 := by
    rw [mul_assoc, hGb, hVa, e3]
    field_simp
  have e5 : V ^ 5 * 9.80665 * rb / nu ^ 2 = (a ^ 5 * b / c ^ 2) ^ 6 := by
    rw [mul_assoc, hGb, hVa, hnc]
    field_simp
  have ht : t0 nu rb V = ((1.21 / 1.53) ^ 2 * (a / (c * b))) ^ 2 := by
    unfold t0 g k1 k2
    rw [e2, root3 (by positivity)]
    ring
  have hi : inertialLaw rb V (t0 nu rb V) = Real.pi * (1.21 ^ 4 / 1.53 ^ 2) * (a ^ 5 * b / c ^ 2) := by
    unfold inertialLaw
    rw [ht, e1, Real.sqrt_sq (by positivity)]
    field_simp
  refine ⟨?_, ?_⟩
  · rw [hi]
    unfold viscousLaw
    rw [ht, e4, root3 (by positivity), Real.sqrt_sq (by positivity)]
    field_simp
    try norm_num
  · rw [hi] at hl ⊢
    unfold initArea g k1 k2
    rw [e5, root6 (by positivity)]
    exact min_eq_left hl

/-- The hypothesis is met by a thick enough slick: for every volume there are
such limits. -/
example (nu rb V : ℝ) (hV : 0 < V) (hi : 0 < inertialLaw rb V (t0 nu rb V)) :
    ∃ lim : ℝ, 0 < lim ∧ inertialLaw rb V (t0 nu rb V) ≤ V / lim :=
  ⟨V / inertialLaw rb V (t0 nu rb V), by positivity, by
    rw [div_div_cancel₀ hV.ne']⟩

end Verif.Spread
