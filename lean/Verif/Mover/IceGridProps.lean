import Verif.Mover.IceGridModel
import Mathlib.Tactic.Ring
import Mathlib.Tactic.Linarith
import Mathlib.Tactic.FieldSimp

/-!
# C214, C215: ice
-/
namespace Verif.Mover.Ice

/-! ## Specification -/

/-- linear in time between the two records; the only record otherwise -/
def between (s : Span) (t : ℚ) (g : Raw → ℚ) (i : Nat) : ℚ :=
  match s.last with
  | none => g (s.first i)
  | some (t1, b) => g (s.first i) + (t - s.t0) / (t1 - s.t0) * (g (b i) - g (s.first i))

/-- indices with their weights -/
def weights : Place → List (ℚ × Nat)
  | .off => []
  | .cell i => [(1, i)]
  | .nodes cs _ => cs

/-- a quantity of the file at a place and time -/
def quantity (s : Span) (t : ℚ) (p : Place) (g : Raw → ℚ) : ℚ := ((weights p).map fun c => c.1 * between s t g c.2).sum

/-- what the file says, each variable with its own unit and scale; nothing where it is missing -/
def coverOf (a : Attrs) (r : Raw) : ℚ := match r.field with
  | some f => a.scaleFrac * f.2
  | none => 0

def thickOf (a : Attrs) (r : Raw) : ℚ := match r.field with
  | some f => a.scaleThick * f.1 / (if a.thickCm then 100 else 1)
  | none => 0

def iceOf (a : Attrs) (k : Vel → ℚ) (r : Raw) : ℚ := match r.ice with
  | some w => a.scaleIce * (a.unitIce * k w)
  | none => 0

def curOf (a : Attrs) (k : Vel → ℚ) (r : Raw) : ℚ := match r.cur with
  | some w => a.scaleCur * (a.unitCur * k w)
  | none => 0

/-- from coverage 1/5 to coverage 4/5 the part of the ice grows evenly from nothing to all -/
structure Mix (c ice cur x : ℚ) : Prop where
  full : 4/5 ≤ c → x = ice
  openWater : c ≤ 1/5 → x = cur
  part : 1/5 < c → c < 4/5 → x = cur + (c - 1/5) / (3/5) * (ice - cur)

/-- the earlier record is before the later one -/
def Ordered (s : Span) : Prop := ∀ q ∈ s.last, s.t0 < q.1

/-- **C214 in full**: an element moves with the ice where coverage is at least four fifths, with the current where it is at most one fifth, with a mix between; all as the file gives them. -/
def C214_claim : Prop := ∀ (a : Attrs) (s : Span) (t : ℚ) (p : Place), Ordered s →
  Mix (quantity s t p (coverOf a)) (quantity s t p (iceOf a Vel.u)) (quantity s t p (curOf a Vel.u)) (velocity a s t p).u ∧
  Mix (quantity s t p (coverOf a)) (quantity s t p (iceOf a Vel.v)) (quantity s t p (curOf a Vel.v)) (velocity a s t p).v

/-! ## Lemmas -/

theorem alpha_eq {t0 t1 t : ℚ} (h : t0 < t1) : alpha t0 t1 t = 1 - (t - t0) / (t1 - t0) := by
  unfold alpha
  have : t1 - t0 ≠ 0 := by linarith [sub_pos.mpr h]
  field_simp
  ring

/-- a number of the records in memory is `k` times a quantity of the file, if it is so record by record -/
theorem atTime_eq (a : Attrs) (s : Span) (hs : Ordered s) (t : ℚ) (g : Rec → ℚ) (g' : Raw → ℚ) (k : ℚ)
    (h : ∀ r, k * g (load a r) = g' r) (i : Nat) : k * atTime a s t g i = between s t g' i := by
  unfold atTime between
  cases hl : s.last with
  | none => simp only [h]
  | some q =>
    obtain ⟨t1, b⟩ := q
    have ht : s.t0 < t1 := hs (t1, b) (by rw [hl]; rfl)
    simp only
    rw [alpha_eq ht, ← h, ← h]
    ring

theorem mix_blend_u (c : ℚ) (ice cur : Vel) : Mix c ice.u cur.u (blend c ice cur).u := by
  refine ⟨fun h => ?_, fun h => ?_, fun h1 h2 => ?_⟩
  · simp [blend, h]
  · have : ¬ c ≥ 4/5 := by intro h'; linarith
    simp only [blend, if_neg this, if_pos h]
  · have h3 : ¬ c ≥ 4/5 := not_le.mpr h2
    have h4 : ¬ c ≤ 1/5 := not_le.mpr h1
    simp only [blend, if_neg h3, if_neg h4, Vel.add, Vel.smul]
    ring

theorem mix_blend_v (c : ℚ) (ice cur : Vel) : Mix c ice.v cur.v (blend c ice cur).v := by
  refine ⟨fun h => ?_, fun h => ?_, fun h1 h2 => ?_⟩
  · simp [blend, h]
  · have : ¬ c ≥ 4/5 := by intro h'; linarith
    simp only [blend, if_neg this, if_pos h]
  · have h3 : ¬ c ≥ 4/5 := not_le.mpr h2
    have h4 : ¬ c ≤ 1/5 := not_le.mpr h1
    simp only [blend, if_neg h3, if_neg h4, Vel.add, Vel.smul]
    ring

theorem quantity_cell (s : Span) (t : ℚ) (i : Nat) (g : Raw → ℚ) : quantity s t (.cell i) g = between s t g i := by
  simp [quantity, weights]

theorem quantity_off (s : Span) (t : ℚ) (g : Raw → ℚ) : quantity s t .off g = 0 := by simp [quantity, weights]

theorem load_frac (a : Attrs) (h : a.thickCm = false) (r : Raw) : 1 * (load a r).frac = coverOf a r := by
  cases hr : r.field <;> simp [load, coverOf, hr, unitConv, h, mul_comm]

theorem load_ice (a : Attrs) (h : fileScale a = a.scaleIce) (r : Raw) :
    fileScale a * (load a r).ice.u = iceOf a Vel.u r ∧ fileScale a * (load a r).ice.v = iceOf a Vel.v r := by
  cases hr : r.ice <;> simp [load, iceOf, hr, h, Vel.smul, Vel.zero]

theorem load_cur (a : Attrs) (h : fileScale a = a.scaleCur) (r : Raw) :
    fileScale a * (load a r).cur.u = curOf a Vel.u r ∧ fileScale a * (load a r).cur.v = curOf a Vel.v r := by
  cases hr : r.cur <;> simp [load, curOf, hr, h, Vel.smul, Vel.zero]

theorem coverage_eq (a : Attrs) (hc : a.thickCm = false) (s : Span) (hs : Ordered s) (t : ℚ) (p : Place) (hp : ∀ cs k, p ≠ .nodes cs k) :
    coverage a s t p = quantity s t p (coverOf a) := by
  cases p with
  | off => rw [quantity_off]; rfl
  | cell i =>
    rw [quantity_cell, ← atTime_eq a s hs t (·.frac) (coverOf a) 1 (load_frac a hc) i]
    simp [coverage]
  | nodes cs k => exact absurd rfl (hp cs k)

theorem iceVel_eq (a : Attrs) (h : fileScale a = a.scaleIce) (s : Span) (hs : Ordered s) (t : ℚ) (p : Place) (hp : ∀ cs k, p ≠ .nodes cs k) :
    iceVel a s t p = ⟨quantity s t p (iceOf a Vel.u), quantity s t p (iceOf a Vel.v)⟩ := by
  cases p with
  | off => simp only [quantity_off]; rfl
  | cell i =>
    simp only [quantity_cell]
    rw [← atTime_eq a s hs t (·.ice.u) _ _ (fun r => (load_ice a h r).1) i, ← atTime_eq a s hs t (·.ice.v) _ _ (fun r => (load_ice a h r).2) i]
    rfl
  | nodes cs k => exact absurd rfl (hp cs k)

theorem corners_eq (a : Attrs) (s : Span) (hs : Ordered s) (t : ℚ) (g : Rec → ℚ) (g' : Raw → ℚ) (k : ℚ)
    (h : ∀ r, k * g (load a r) = g' r) (cs : List (ℚ × Nat)) :
    k * corners a s t g cs = (cs.map fun c => c.1 * between s t g' c.2).sum := by
  unfold corners
  induction cs with
  | nil => simp
  | cons c cs ih =>
    simp only [List.map_cons, List.sum_cons, mul_add, ih]
    rw [← atTime_eq a s hs t g g' k h c.2]
    ring

theorem current_eq (a : Attrs) (h : fileScale a = a.scaleCur) (s : Span) (hs : Ordered s) (t : ℚ) (p : Place) :
    current a s t p = ⟨quantity s t p (curOf a Vel.u), quantity s t p (curOf a Vel.v)⟩ := by
  cases p with
  | off => simp only [quantity_off]; rfl
  | cell i =>
    simp only [quantity_cell]
    rw [← atTime_eq a s hs t (·.cur.u) _ _ (fun r => (load_cur a h r).1) i, ← atTime_eq a s hs t (·.cur.v) _ _ (fun r => (load_cur a h r).2) i]
    rfl
  | nodes cs k =>
    simp only [quantity, weights]
    rw [← corners_eq a s hs t (·.cur.u) _ _ (fun r => (load_cur a h r).1) cs, ← corners_eq a s hs t (·.cur.v) _ _ (fun r => (load_cur a h r).2) cs]
    rfl

theorem scale_same {a : Attrs} (h : a.scaleIce = a.scaleCur) : fileScale a = a.scaleIce ∧ fileScale a = a.scaleCur := by
  unfold fileScale
  split_ifs <;> simp [h]

/-! ## C214 -/

/-- **C214 (partial)**: the claim holds for data in cells, thickness in metres and the same scale factor for current and ice.
Missing for the full claim: `C214_counterexample` (thickness in centimetres), `…_nodes`, `…_scale`. -/
theorem C214_partial (a : Attrs) (s : Span) (t : ℚ) (p : Place) (hs : Ordered s) (hp : ∀ cs k, p ≠ .nodes cs k)
    (hcm : a.thickCm = false) (hsc : a.scaleIce = a.scaleCur) :
    Mix (quantity s t p (coverOf a)) (quantity s t p (iceOf a Vel.u)) (quantity s t p (curOf a Vel.u)) (velocity a s t p).u ∧
    Mix (quantity s t p (coverOf a)) (quantity s t p (iceOf a Vel.v)) (quantity s t p (curOf a Vel.v)) (velocity a s t p).v := by
  unfold velocity
  rw [coverage_eq a hcm s hs t p hp, iceVel_eq a (scale_same hsc).1 s hs t p hp, current_eq a (scale_same hsc).2 s hs t p]
  exact ⟨mix_blend_u _ ⟨_, _⟩ ⟨_, _⟩, mix_blend_v _ ⟨_, _⟩ ⟨_, _⟩⟩

/-- a mix lies between what is mixed -/
theorem mix_between {c ice cur x : ℚ} (h : Mix c ice cur x) : min ice cur ≤ x ∧ x ≤ max ice cur := by
  by_cases h1 : 4/5 ≤ c
  · rw [h.full h1]; exact ⟨min_le_left _ _, le_max_left _ _⟩
  · by_cases h2 : c ≤ 1/5
    · rw [h.openWater h2]; exact ⟨min_le_right _ _, le_max_right _ _⟩
    · push Not at h1 h2
      rw [h.part h2 h1]
      have k0 : 0 ≤ (c - 1/5) / (3/5) := by apply div_nonneg <;> linarith
      have k1 : (c - 1/5) / (3/5) ≤ 1 := by rw [div_le_one (by norm_num)]; linarith
      set k := (c - 1/5) / (3/5)
      rcases le_total ice cur with hle | hle
      · rw [min_eq_left hle, max_eq_right hle]
        constructor <;> nlinarith
      · rw [min_eq_right hle, max_eq_left hle]
        constructor <;> nlinarith

/-- the velocity is never outside those of ice and current, and more ice brings it nearer to the ice's: whatever the kind of grid and the units -/
theorem C214_between (a : Attrs) (s : Span) (t : ℚ) (p : Place) :
    (min (iceVel a s t p).u (current a s t p).u ≤ (velocity a s t p).u ∧ (velocity a s t p).u ≤ max (iceVel a s t p).u (current a s t p).u) ∧
    (min (iceVel a s t p).v (current a s t p).v ≤ (velocity a s t p).v ∧ (velocity a s t p).v ≤ max (iceVel a s t p).v (current a s t p).v) :=
  ⟨mix_between (mix_blend_u _ _ _), mix_between (mix_blend_v _ _ _)⟩

theorem mix_closer {c c' ice cur x x' : ℚ} (h : Mix c ice cur x) (h' : Mix c' ice cur x') (hc : c ≤ c') : |x' - ice| ≤ |x - ice| := by
  have key : ∀ {c x}, Mix c ice cur x → x - ice = (1 - max 0 (min 1 ((c - 1/5) / (3/5)))) * (cur - ice) := by
    intro c x h
    by_cases h1 : 4/5 ≤ c
    · have : 1 ≤ (c - 1/5) / (3/5) := by rw [le_div_iff₀ (by norm_num)]; linarith
      rw [h.full h1, min_eq_left this, max_eq_right (by norm_num)]; ring
    · by_cases h2 : c ≤ 1/5
      · have : (c - 1/5) / (3/5) ≤ 0 := by apply div_nonpos_of_nonpos_of_nonneg <;> linarith
        rw [h.openWater h2, min_eq_right (by linarith), max_eq_left this]; ring
      · push Not at h1 h2
        have k0 : 0 ≤ (c - 1/5) / (3/5) := by apply div_nonneg <;> linarith
        have k1 : (c - 1/5) / (3/5) ≤ 1 := by rw [div_le_one (by norm_num)]; linarith
        rw [h.part h2 h1, min_eq_right k1, max_eq_right k0]; ring
  have hw : ∀ c : ℚ, 0 ≤ 1 - max 0 (min 1 ((c - 1/5) / (3/5))) := by
    intro c
    have : max 0 (min 1 ((c - 1/5) / (3/5))) ≤ 1 := max_le (by norm_num) (min_le_left _ _)
    linarith
  rw [key h, key h', abs_mul, abs_mul, abs_of_nonneg (hw c), abs_of_nonneg (hw c')]
  apply mul_le_mul_of_nonneg_right _ (abs_nonneg _)
  have : (c - 1/5) / (3/5) ≤ (c' - 1/5) / (3/5) := by apply div_le_div_of_nonneg_right <;> linarith
  have := max_le_max (le_refl (0:ℚ)) (min_le_min (le_refl (1:ℚ)) this)
  linarith

/-- more ice, more of its velocity: the distance of the velocity from that of the ice never grows with the coverage -/
theorem C214_closer (c c' : ℚ) (ice cur : Vel) (hc : c ≤ c') :
    |(blend c' ice cur).u - ice.u| ≤ |(blend c ice cur).u - ice.u| ∧ |(blend c' ice cur).v - ice.v| ≤ |(blend c ice cur).v - ice.v| :=
  ⟨mix_closer (mix_blend_u c ice cur) (mix_blend_u c' ice cur) hc, mix_closer (mix_blend_v c ice cur) (mix_blend_v c' ice cur) hc⟩

/-- an element moves only if it is in the water, and by the velocity for the time of the step -/
theorem C214_move (a : Attrs) (s : Span) (scale ratio t dt : ℚ) (hr : ratio ≠ 0) (status : Int) (p : Place) :
    (status ≠ 2 → move a s scale ratio t dt status p = ⟨0, 0⟩) ∧
    (status = 2 → (move a s scale ratio t dt status p).u * ratio * 111120.00024 = scale * (velocity a s t p).u * dt ∧
      (move a s scale ratio t dt status p).v * 111120.00024 = scale * (velocity a s t p).v * dt) := by
  refine ⟨fun h => by simp [move, h, Vel.zero], fun h => ?_⟩
  subst h
  simp only [move, displace, Vel.smul]
  constructor
  · simp; field_simp
  · simp; field_simp

/-- **the wind in ice**: nothing where coverage is at least four fifths, the whole wind where it is at most one fifth, an even part between -/
theorem C214_wind (a : Attrs) (s : Span) (t : ℚ) (p : Place) (hs : Ordered s) (hp : ∀ cs k, p ≠ .nodes cs k)
    (hcm : a.thickCm = false) (hsc : a.scaleIce = a.scaleCur) :
    Mix (quantity s t p (coverOf a)) 0 (quantity s t p (curOf a Vel.u)) (windVelocity a s t p).u ∧
    Mix (quantity s t p (coverOf a)) 0 (quantity s t p (curOf a Vel.v)) (windVelocity a s t p).v := by
  have : windVelocity a s t p = blend (coverage a s t p) Vel.zero (current a s t p) := by
    unfold windVelocity blend
    split_ifs <;> simp [Vel.add, Vel.smul, Vel.zero]
  rw [this, coverage_eq a hcm s hs t p hp, current_eq a (scale_same hsc).2 s hs t p]
  exact ⟨mix_blend_u _ Vel.zero ⟨_, _⟩, mix_blend_v _ Vel.zero ⟨_, _⟩⟩

/-- winds move elements at the surface in water only, and in proportion to their windage -/
theorem C214_windMove (a : Attrs) (s : Span) (scale ratio t dt windage z : ℚ) (hr : ratio ≠ 0) (status : Int) (p : Place) :
    (status ≠ 2 ∨ z > 0 → windMove a s scale ratio t dt windage z status p = ⟨0, 0⟩) ∧
    (status = 2 → z ≤ 0 →
      (windMove a s scale ratio t dt windage z status p).u * ratio * 111120.00024 = windage * scale * (windVelocity a s t p).u * dt ∧
      (windMove a s scale ratio t dt windage z status p).v * 111120.00024 = windage * scale * (windVelocity a s t p).v * dt) := by
  constructor
  · rintro (h | h)
    · simp [windMove, h, Vel.zero]
    · unfold windMove; split_ifs <;> rfl
  · intro h hz
    subst h
    simp only [windMove, displace, Vel.smul, if_neg (not_lt.mpr hz), gt_iff_lt]
    constructor
    · simp; field_simp
    · simp; field_simp

/-- what happens with thickness in centimetres: with any coverage between 0 and 1 elements always move with the current -/
theorem C214_cm (a : Attrs) (s : Span) (t : ℚ) (i : Nat) (hs : Ordered s) (hcm : a.thickCm = true)
    (h1 : quantity s t (.cell i) (coverOf a) ≤ 1) : velocity a s t (.cell i) = current a s t (.cell i) := by
  have hl : ∀ r, 100 * (load a r).frac = coverOf a r := by
    intro r
    cases hr : r.field with
    | none => simp [load, coverOf, hr]
    | some q =>
      simp only [load, coverOf, hr, unitConv, hcm, Option.getD_some, if_true]
      ring
  have h := atTime_eq a s hs t (·.frac) (coverOf a) 100 hl i
  rw [quantity_cell, ← h] at h1
  have h2 : coverage a s t (.cell i) = atTime a s t (·.frac) i := rfl
  have h3 : ¬ coverage a s t (.cell i) ≥ 4/5 := by rw [h2]; intro h'; linarith
  have h4 : coverage a s t (.cell i) ≤ 1/5 := by rw [h2]; linarith
  simp only [velocity, blend, if_neg h3, if_pos h4]

/-- what happens with data on nodes: elements always move with the current, however much ice there is -/
theorem C214_nodes (a : Attrs) (s : Span) (t : ℚ) (cs : List (ℚ × Nat)) (k : Nat) :
    velocity a s t (.nodes cs k) = current a s t (.nodes cs k) := by
  have : iceVel a s t (.nodes cs k) = current a s t (.nodes cs k) := rfl
  rw [velocity, this]
  unfold blend
  split_ifs
  · rfl
  · rfl
  · generalize current a s t (.nodes cs k) = w
    simp only [Vel.add, Vel.smul]
    cases w
    simp only [Vel.mk.injEq]
    constructor <;> ring

/-! ### Cases -/

def plain : Attrs := ⟨1, 1, false, 1, 1, 1, 1⟩
/-- ice drifting east in full cover, the current going north -/
def packed : Raw := ⟨some ⟨0, 1⟩, some ⟨1, 0⟩, some (2, 1)⟩
/-- the same with half cover -/
def half : Raw := ⟨some ⟨0, 1⟩, some ⟨1, 0⟩, some (2, 1/2)⟩
/-- open water -/
def clear : Raw := ⟨some ⟨0, 1⟩, some ⟨1, 0⟩, some (0, 0)⟩
def one (r : Raw) : Span := ⟨0, fun _ => r, none⟩
def two (r r' : Raw) : Span := ⟨0, fun _ => r, some (3600, fun _ => r')⟩

example : Ordered (two packed clear) := by intro q hq; simp [two] at hq; subst hq; norm_num [two]
example : velocity plain (one packed) 0 (.cell 3) = ⟨1, 0⟩ := by decide +kernel
example : velocity plain (one half) 0 (.cell 3) = ⟨1/2, 1/2⟩ := by decide +kernel
example : velocity plain (two packed clear) 1800 (.cell 3) = ⟨1/2, 1/2⟩ := by decide +kernel
example : windVelocity plain (one packed) 0 (.cell 3) = ⟨0, 0⟩ := by decide +kernel
example : (coverOf { plain with thickCm := true } packed) ≤ 1 := by decide +kernel

theorem quantity_one (r : Raw) (t : ℚ) (i : Nat) (g : Raw → ℚ) : quantity (one r) t (.cell i) g = g r := by
  rw [quantity_cell]; rfl

/-- thickness in centimetres: in full ice the element moves with the current -/
theorem C214_counterexample : ¬ C214_claim := by
  intro h
  have := (h { plain with thickCm := true } (one packed) 0 (.cell 0) (by intro q hq; simp [one] at hq)).1.full
  rw [quantity_one, quantity_one] at this
  exact absurd (this (by decide +kernel)) (by decide +kernel)

/-- data on nodes, thickness in metres -/
theorem C214_counterexample_nodes : ∃ (s : Span) (p : Place), Ordered s ∧ 4/5 ≤ quantity s 0 p (coverOf plain) ∧
    (velocity plain s 0 p).u ≠ quantity s 0 p (iceOf plain Vel.u) :=
  ⟨one packed, .nodes [(1/4, 0), (1/4, 1), (1/4, 2), (1/4, 3)] 0, by intro q hq; simp [one] at hq, by decide +kernel, by decide +kernel⟩

/-- a scale factor of the currents that the ice does not have -/
theorem C214_counterexample_scale : ∃ (a : Attrs) (s : Span), a.thickCm = false ∧ Ordered s ∧ 4/5 ≤ quantity s 0 (.cell 0) (coverOf a) ∧
    (velocity a s 0 (.cell 0)).u ≠ quantity s 0 (.cell 0) (iceOf a Vel.u) :=
  ⟨{ plain with scaleCur := 1/100 }, one packed, rfl, by intro q hq; simp [one] at hq, by decide +kernel, by decide +kernel⟩

/-! ## C215 -/

/-- **C215 in full**: for each cell what is reported is what the file says (coverage, thickness, velocity of the ice) and the velocity an element there moves with. -/
def C215_claim : Prop := ∀ (a : Attrs) (s : Span) (t : ℚ) (cells : List Nat), Ordered s →
  iceFields a s t cells = cells.map (fun i => (quantity s t (.cell i) (coverOf a), quantity s t (.cell i) (thickOf a))) ∧
  iceVelocities a s t cells = cells.map (fun i => ⟨quantity s t (.cell i) (iceOf a Vel.u), quantity s t (.cell i) (iceOf a Vel.v)⟩) ∧
  movementVelocities a s t cells = cells.map (fun i => velocity a s t (.cell i))

theorem load_thick (a : Attrs) (r : Raw) : 1 * (load a r).thick = thickOf a r := by
  cases hr : r.field with
  | none => simp [load, thickOf, hr]
  | some q => cases hc : a.thickCm <;> simp [load, thickOf, hr, unitConv, hc] <;> ring

theorem smul_blend (k c : ℚ) (ice cur : Vel) : Vel.smul k (blend c ice cur) = blend c (Vel.smul k ice) (Vel.smul k cur) := by
  unfold blend
  split_ifs
  · rfl
  · rfl
  · simp only [Vel.smul, Vel.add, Vel.mk.injEq]
    constructor <;> ring

/-- **C215 (partial)**: the thickness is always right; the coverage with thickness in metres; the velocity of the ice if it has the scale factor of the currents; the
velocity of movement in the cells whose coverage is that of the earlier record.
Missing for the full claim: `C215_counterexample` (coverage changing in time), `…_cover`. -/
theorem C215_partial (a : Attrs) (s : Span) (t : ℚ) (cells : List Nat) (hs : Ordered s) :
    (iceFields a s t cells).map Prod.snd = cells.map (fun i => quantity s t (.cell i) (thickOf a)) ∧
    (a.thickCm = false → (iceFields a s t cells).map Prod.fst = cells.map (fun i => quantity s t (.cell i) (coverOf a))) ∧
    (a.scaleIce = a.scaleCur → iceVelocities a s t cells =
      cells.map (fun i => ⟨quantity s t (.cell i) (iceOf a Vel.u), quantity s t (.cell i) (iceOf a Vel.v)⟩)) ∧
    ((∀ i ∈ cells, quantity s t (.cell i) (coverOf a) = coverOf a (s.first i)) →
      movementVelocities a s t cells = cells.map (fun i => velocity a s t (.cell i))) := by
  refine ⟨?_, ?_, ?_, ?_⟩
  · simp only [iceFields, List.map_map]
    apply List.map_congr_left
    intro i _
    rw [quantity_cell, ← atTime_eq a s hs t (·.thick) (thickOf a) 1 (load_thick a) i]
    simp
  · intro hc
    simp only [iceFields, List.map_map]
    apply List.map_congr_left
    intro i _
    rw [quantity_cell, ← atTime_eq a s hs t (·.frac) (coverOf a) 1 (load_frac a hc) i]
    simp
  · intro hsc
    unfold iceVelocities
    apply List.map_congr_left
    intro i _
    exact iceVel_eq a (scale_same hsc).1 s hs t (.cell i) (by simp)
  · intro hc
    unfold movementVelocities
    apply List.map_congr_left
    intro i hi
    rw [smul_blend]
    have hl : ∃ k : ℚ, k ≠ 0 ∧ ∀ r, k * (load a r).frac = coverOf a r := by
      cases hcm : a.thickCm with
      | false => exact ⟨1, one_ne_zero, load_frac a hcm⟩
      | true =>
        refine ⟨100, by norm_num, fun r => ?_⟩
        cases hr : r.field with
        | none => simp [load, coverOf, hr]
        | some q =>
          simp only [load, coverOf, hr, unitConv, hcm, Option.getD_some, if_true]
          ring
    obtain ⟨k, hk, hl⟩ := hl
    have h1 := hc i hi
    rw [quantity_cell, ← atTime_eq a s hs t (·.frac) (coverOf a) k hl i, ← hl] at h1
    have h2 : coverage a s t (.cell i) = (load a (s.first i)).frac := mul_left_cancel₀ hk h1
    rw [velocity, h2]
    rfl

/-- what is reported lies between the velocities of ice and current in any case -/
theorem C215_between (a : Attrs) (s : Span) (t : ℚ) (cells : List Nat) (j : Nat) (i : Nat) (hi : cells[j]? = some i) :
    ∃ w, (movementVelocities a s t cells)[j]? = some w ∧
      min (iceVel a s t (.cell i)).u (current a s t (.cell i)).u ≤ w.u ∧ w.u ≤ max (iceVel a s t (.cell i)).u (current a s t (.cell i)).u ∧
      min (iceVel a s t (.cell i)).v (current a s t (.cell i)).v ≤ w.v ∧ w.v ≤ max (iceVel a s t (.cell i)).v (current a s t (.cell i)).v := by
  refine ⟨_, by simp only [movementVelocities, List.getElem?_map, hi, Option.map_some]; rfl, ?_⟩
  rw [smul_blend]
  obtain ⟨h1, h2⟩ := mix_between (mix_blend_u (load a (s.first i)).frac (iceVel a s t (.cell i)) (current a s t (.cell i)))
  obtain ⟨h3, h4⟩ := mix_between (mix_blend_v (load a (s.first i)).frac (iceVel a s t (.cell i)) (current a s t (.cell i)))
  exact ⟨h1, h2, h3, h4⟩

example : movementVelocities plain (one half) 7 [0, 4] = [⟨1/2, 1/2⟩, ⟨1/2, 1/2⟩] := by decide +kernel
example : iceFields { plain with thickCm := true } (one half) 7 [2] = [(1/200, 1/50)] := by decide +kernel

/-- the ice has gone by the end of the hour: at its end the movement reported is still that of the ice -/
theorem C215_counterexample : ¬ C215_claim := by
  intro h
  have := (h plain (two packed clear) 3600 [0] (by intro q hq; simp [two] at hq; subst hq; norm_num [two])).2.2
  exact absurd this (by decide +kernel)

/-- thickness in centimetres: the coverage reported is a hundredth of the true one -/
theorem C215_counterexample_cover : ∃ (a : Attrs) (s : Span), Ordered s ∧ quantity s 0 (.cell 0) (coverOf a) = 1 ∧ (iceFields a s 0 [0]).map Prod.fst = [1/100] :=
  ⟨{ plain with thickCm := true }, one packed, by intro q hq; simp [one] at hq, by decide +kernel, by decide +kernel⟩

/-- **winds**: in full ice the wind moves nothing, and the velocity of the ice is reported as the movement by the wind -/
theorem C215_counterexample_wind : ∃ s : Span, Ordered s ∧ windVelocity plain s 0 (.cell 0) = ⟨0, 0⟩ ∧ movementVelocities plain s 0 [0] = [⟨1, 0⟩] :=
  ⟨one packed, by intro q hq; simp [one] at hq, by decide +kernel, by decide +kernel⟩

end Verif.Mover.Ice
