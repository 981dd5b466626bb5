import Verif.Mover.MoveSpec
import Mathlib.Tactic.Ring
import Mathlib.Tactic.Linarith
import Mathlib.Tactic.NormNum
import Mathlib.Tactic.Positivity

/-!
# C94, C95, C96: what moves, and how far
-/

namespace Verif.Mover
open Verif.Integ Verif.TimeUtil

theorem rowwise_still {f : Nat → LE → V} {els : List LE} {P : LE → Prop} (h : ∀ i e, P e → f i e = 0) :
    Still P els (rowwise f els) := by
  refine ⟨by simp [rowwise], fun i e he hp => ?_⟩
  simp only [rowwise, List.getElem?_mapIdx, he, Option.map_some, h i e hp]
  rfl

theorem unsigned_some {active : Bool} {dt : ℝ} {els : List LE} {ds ds' : List V}
    (h : unsignedStep active dt els ds = some ds') : ds' = ds := by
  unfold unsignedStep at h
  split at h
  · exact absurd h (by simp)
  · exact (Option.some.inj h).symm

theorem m2l_zero (p : V) : m2l 0 p = 0 := by
  simp [m2l]

/-! ## C94 -/

/-- **C94**, one mover: an element that does not float in the water gets no move, whatever the mover. -/
theorem C94_mover (m : AnyMover) (dt : ℝ) (els : List LE) (ds : List V) (h : m.move dt els = some ds) :
    Still (fun e => ¬ floating e) els ds := by
  have hw : ∀ e : LE, ¬ floating e → ¬ inWater e := fun e he => he
  cases m with
  | simple vel scale active on uncertain r =>
    obtain rfl := Option.some.inj h
    apply rowwise_still
    intro i e he
    simp [simpleRow, hw e he, m2l_zero]
  | current active scale dm unc =>
    obtain rfl := Option.some.inj h
    apply rowwise_still
    intro i e he
    simp [currentRow, hw e he]
  | wind active scale dm unc =>
    obtain rfl := Option.some.inj h
    apply rowwise_still
    intro i e he
    simp [windRow, hw e he]
  | pointWind active uv unc =>
    obtain rfl := Option.some.inj h
    apply rowwise_still
    intro i e he
    simp [pointWindRow, hw e he]
  | random active coef factor r1 r2 =>
    obtain rfl := Option.some.inj h
    apply rowwise_still
    intro i e he
    simp [randomRow, hw e he]
  | iceRandom active coef factor r1 r2 ice =>
    obtain rfl := Option.some.inj h
    unfold iceRandomMove
    split
    · apply rowwise_still
      intro i e he
      simp [hw e he]
    · apply rowwise_still
      intro i e he
      simp [randomRow, hw e he]
  | rise active =>
    obtain rfl := unsigned_some h
    apply rowwise_still
    intro i e he
    simp [riseRow, hw e he]
  | vertical p active r =>
    obtain rfl := unsigned_some h
    apply rowwise_still
    intro i e he
    simp [vertRow, hw e he]

/-- **C94**, a mover that is not active moves nothing and does not fail. -/
theorem C94_inactive (m : AnyMover) (dt : ℝ) (els : List LE) (h : m.active = false) :
    ∃ ds, m.move dt els = some ds ∧ Still (fun _ => True) els ds := by
  cases m with
  | simple vel scale active on uncertain r =>
    refine ⟨_, rfl, rowwise_still fun i e _ => ?_⟩
    have : ¬ (active = true ∧ on = true) := by
      simpa [AnyMover.active] using h
    simp [simpleRow, this]
  | current active scale dm unc =>
    obtain rfl : active = false := h
    exact ⟨_, rfl, rowwise_still fun i e _ => by simp [currentRow]⟩
  | wind active scale dm unc =>
    obtain rfl : active = false := h
    exact ⟨_, rfl, rowwise_still fun i e _ => by simp [windRow]⟩
  | pointWind active uv unc =>
    obtain rfl : active = false := h
    exact ⟨_, rfl, rowwise_still fun i e _ => by simp [pointWindRow]⟩
  | random active coef factor r1 r2 =>
    obtain rfl : active = false := h
    exact ⟨_, rfl, rowwise_still fun i e _ => by simp [randomRow]⟩
  | iceRandom active coef factor r1 r2 ice =>
    obtain rfl : active = false := h
    refine ⟨_, rfl, ?_⟩
    unfold iceRandomMove
    split
    · exact rowwise_still fun i e _ => by simp [randomRow]
    · exact rowwise_still fun i e _ => by simp [randomRow]
  | rise active =>
    obtain rfl : active = false := h
    exact ⟨_, by simp [AnyMover.move, riseMove, unsignedStep]; rfl, rowwise_still fun i e _ => by simp [riseRow]⟩
  | vertical p active r =>
    obtain rfl : active = false := h
    exact ⟨_, by simp [AnyMover.move, vertMove, unsignedStep]; rfl, rowwise_still fun i e _ => by simp [vertRow]⟩

theorem add_still {P : LE → Prop} {els : List LE} {ps ds : List V} (h : SamePlace P els ps) (hd : Still P els ds) :
    SamePlace P els (List.zipWith (· + ·) ps ds) := by
  refine ⟨by simp [h.1, hd.1], fun i e he hp => ?_⟩
  rw [List.getElem?_zipWith, h.2 i e he hp, hd.2 i e he hp]
  simp [show ((0 : ℝ), (0 : ℝ), (0 : ℝ)) = (0 : V) from rfl]

theorem fold_none (dt : ℝ) (els : List LE) (ms : List AnyMover) :
    ms.foldl (fun acc m => acc.bind fun ps => (m.move dt els).map fun ds => List.zipWith (· + ·) ps ds)
      (none : Option (List V)) = none := by
  induction ms with
  | nil => rfl
  | cons m ms ih => simpa using ih

theorem fold_still {P : LE → Prop} (dt : ℝ) (els : List LE) (ms : List AnyMover)
    (hm : ∀ m ∈ ms, ∀ ds, m.move dt els = some ds → Still P els ds) :
    ∀ (ps0 ps : List V), SamePlace P els ps0 →
      ms.foldl (fun acc m => acc.bind fun ps => (m.move dt els).map fun ds => List.zipWith (· + ·) ps ds)
        (some ps0) = some ps → SamePlace P els ps := by
  induction ms with
  | nil =>
    intro ps0 ps h0 h
    obtain rfl : ps0 = ps := by simpa using h
    exact h0
  | cons m ms ih =>
    intro ps0 ps h0 h
    simp only [List.foldl_cons, Option.bind_some] at h
    cases hd : m.move dt els with
    | none => rw [hd, Option.map_none, fold_none] at h; exact absurd h (by simp)
    | some ds =>
      rw [hd, Option.map_some] at h
      exact ih (fun m' hm' => hm m' (by simp [hm'])) _ ps (add_still h0 (hm m (by simp) ds hd)) h

/-- **C94**, all movers of a model together: an element that does not float is where it was, however many movers there are. -/
theorem C94_model (movers : List AnyMover) (dt : ℝ) (els : List LE) (ps : List V) (h : nextPositions dt movers els = some ps) :
    SamePlace (fun e => ¬ floating e) els ps := by
  refine fold_still dt els movers (fun m _ ds hd => C94_mover m dt els ds hd) _ ps ?_ h
  exact ⟨by simp, fun i e he _ => by simp [he]⟩

/-- Without an active mover nothing moves. -/
theorem C94_model_inactive (movers : List AnyMover) (dt : ℝ) (els : List LE) (h : ∀ m ∈ movers, m.active = false) :
    ∃ ps, nextPositions dt movers els = some ps ∧ SamePlace (fun _ => True) els ps := by
  have key : ∀ ps0, ∃ ps, movers.foldl (fun acc m => acc.bind fun ps => (m.move dt els).map fun ds => List.zipWith (· + ·) ps ds)
      (some ps0) = some ps := by
    induction movers with
    | nil => exact fun ps0 => ⟨ps0, rfl⟩
    | cons m ms ih =>
      intro ps0
      obtain ⟨ds, hd, -⟩ := C94_inactive m dt els (h m (by simp))
      simp only [List.foldl_cons, Option.bind_some, hd, Option.map_some]
      exact ih (fun m' hm' => h m' (by simp [hm'])) _
  obtain ⟨ps, hps⟩ := key (els.map LE.pos)
  refine ⟨ps, hps, fold_still dt els movers (fun m hm ds hd => ?_) _ ps ⟨by simp, fun i e he _ => by simp [he]⟩ hps⟩
  obtain ⟨ds', hd', hs⟩ := C94_inactive m dt els (h m hm)
  rw [hd] at hd'
  obtain rfl := Option.some.inj hd'
  exact hs

/-- An element on land between two floating ones, and a mover that moves the others. -/
example : nextPositions 60 [.rise true, .rise true]
    [⟨(0, 0, 5), 2, 0, 1 / 100⟩, ⟨(0, 0, 5), 3, 0, 1 / 100⟩, ⟨(0, 0, 7), 2, 0, 0⟩] =
    some [(0, 0, 38 / 10), (0, 0, 5), (0, 0, 7)] := by
  simp only [nextPositions, List.foldl, AnyMover.move, riseMove, unsignedStep, riseRow, inWater, rowwise, List.mapIdx_cons,
    List.mapIdx_nil]
  norm_num

/-! ## C95 -/

/-- The claim: whatever the wind and the method, wind does not move an element below the surface. -/
def C95_claim : Prop := ∀ (f : WindField) (m : Method) (z : Zone) (dt : Rat) (t : Int) (active : Bool) (scale : ℝ) (unc : Option WUnc)
  (e : LE), submerged e → windRow active scale dt (delta m z (windAt f) dt t) unc e = (0, 0, 0)

theorem addWindUnc_zero (w : WUnc) (dt : ℝ) : addWindUnc w dt 0 = 0 := by
  simp [addWindUnc]

theorem delta_grid_zero (f : V → Rat → ℝ × ℝ) (m : Method) (z : Zone) (dt : Rat) (t : Int) (p : V) (h : 0 < p.2.2) :
    delta m z (windAt (.grid f)) dt t p = 0 := by
  have hv : ∀ t', windAt (.grid f) p t' = 0 := fun t' => by simp [windAt, h]
  have hp : p + m2l 0 p = p := by rw [m2l_zero, add_zero]
  cases m with
  | euler => simp [delta, euler, hv]
  | rk2 => simp [delta, rk2, hv, hp]
  | rk4 => simp [delta, rk4, hv, hp]

/-- **C95** for gridded winds, with every numerical method, with and without uncertainty. -/
theorem C95_grid_partial (f : V → Rat → ℝ × ℝ) (m : Method) (z : Zone) (dt : Rat) (t : Int) (active : Bool) (scale : ℝ)
    (unc : Option WUnc) (e : LE) (h : submerged e) :
    windRow active scale dt (delta m z (windAt (.grid f)) dt t) unc e = (0, 0, 0) := by
  unfold windRow
  simp only [delta_grid_zero f m z dt t e.pos h]
  cases unc with
  | none => simp only [Prod.fst_zero, Prod.snd_zero, zero_mul, m2l, zero_div]; split_ifs <;> rfl
  | some w => simp only [addWindUnc_zero, Prod.fst_zero, Prod.snd_zero, zero_mul, m2l, zero_div]; split_ifs <;> rfl

/-- **C95** for `PointWindMover`. -/
theorem C95_point_mover_partial (active : Bool) (dt : ℝ) (uv : ℝ × ℝ) (unc : Option WUnc) (e : LE) (h : submerged e) :
    pointWindRow active dt uv unc e = (0, 0, 0) := by
  have h' : 0 < e.pos.2.2 := h
  simp only [pointWindRow, h', if_true]
  split_ifs <;> rfl

/-- The two movers leave the depth alone. -/
theorem C95_depth (f : WindField) (dt : Rat) (t : Int) (active : Bool) (scale : ℝ) (unc : Option WUnc) (e : LE) (z : Zone) :
    (windRow active scale dt (delta .euler z (windAt f) dt t) unc e).2.2 = 0 ∧
      ∀ uv : ℝ × ℝ, (pointWindRow active dt uv unc e).2.2 = 0 := by
  constructor
  · have h0 : ∀ p t', (windAt f p t').2.2 = 0 := by
      intro p t'
      cases f with
      | point g => rfl
      | grid g => simp only [windAt]; split <;> rfl
    unfold windRow
    split
    · cases unc with
      | none => dsimp only; split <;> simp [m2l, delta, euler, h0]
      | some w =>
        dsimp only
        split
        · simp only [m2l, addWindUnc]
          split <;> simp [delta, euler, h0]
        · rfl
    · rfl
  · intro uv
    unfold pointWindRow
    split
    · split
      · split <;> rfl
      · rfl
    · rfl

/-- **C95** fails for a `WindMover` with a `Wind`: a wind of 10 m/s from the south carries along an element at a depth of 50 m. -/
theorem C95_counterexample : ¬ C95_claim := by
  intro h
  have := h (.point fun _ => (0, 10)) .euler ⟨0, fun _ => false, 0⟩ 900 0 true 1 none ⟨(0, 0, 50), 2, 3 / 100, 0⟩ (by norm_num [submerged])
  have h2 := congrArg (fun v : V => v.2.1) this
  simp [windRow, delta, euler, windAt, inWater, m2l] at h2

/-- At the surface a gridded wind does move: the theorem is not about a mover that never moves. -/
example : (windRow true 1 (900 : Rat) (delta .euler ⟨0, fun _ => false, 0⟩ (windAt (.grid fun _ _ => (0, 10))) 900 0) none
    ⟨(0, 0, 0), 2, 3 / 100, 0⟩).2.1 = 900 * 10 * (3 / 100) * (89992801 / 10 ^ 13) := by
  norm_num [windRow, delta, euler, windAt, inWater, m2l, Rat.smul_def]

/-! ## C96 -/

/-- **C96**: the part along the flow changes by the fraction `α`, the part across by the fraction `β`, the vertical not at all. -/
theorem C96_components (α β : ℝ) (d : V) :
    dot (addCurrentUnc α β d) d = (1 + α) * len d ^ 2 ∧ cross (addCurrentUnc α β d) d = β * len d ^ 2 ∧
      (addCurrentUnc α β d).2.2 = d.2.2 := by
  have h : len d ^ 2 = d.1 ^ 2 + d.2.1 ^ 2 := Real.sq_sqrt (by positivity)
  refine ⟨?_, ?_, rfl⟩
  · rw [h]; simp only [dot, addCurrentUnc]; ring
  · rw [h]; simp only [cross, addCurrentUnc]; ring

/-- How far the uncertain move is from the forecast one. -/
theorem C96_distance (α β : ℝ) (d : V) : len (addCurrentUnc α β d - d) = √(α ^ 2 + β ^ 2) * len d := by
  unfold len
  rw [← Real.sqrt_mul (by positivity)]
  congr 1
  simp only [addCurrentUnc, Prod.fst_sub, Prod.snd_sub]
  ring

theorem uniform_abs {a r : ℝ} (h0 : 0 ≤ r) (h1 : r ≤ 1) (ha : 0 ≤ a) : |uniform (-a) a r| ≤ a := by
  unfold uniform
  rw [abs_le]
  constructor <;> nlinarith

/-- With the numbers drawn as the mover draws them: the uncertain move is within the fraction given by the two parameters, whatever
the generator delivers and whatever the current. -/
theorem C96_bounded (along crs r1 r2 : ℝ) (d : V) (ha : 0 ≤ along) (hc : 0 ≤ crs) (h1 : 0 ≤ r1 ∧ r1 ≤ 1) (h2 : 0 ≤ r2 ∧ r2 ≤ 1) :
    len (addCurrentUnc (uniform (-along) along r1) (uniform (-crs) crs r2) d - d) ≤ √(along ^ 2 + crs ^ 2) * len d := by
  rw [C96_distance]
  apply mul_le_mul_of_nonneg_right _ (Real.sqrt_nonneg _)
  apply Real.sqrt_le_sqrt
  have := uniform_abs h1.1 h1.2 ha
  have h4 := uniform_abs h2.1 h2.2 hc
  have e1 : uniform (-along) along r1 ^ 2 ≤ along ^ 2 := by
    rw [← sq_abs]; exact pow_le_pow_left₀ (abs_nonneg _) this 2
  have e2 : uniform (-crs) crs r2 ^ 2 ≤ crs ^ 2 := by
    rw [← sq_abs]; exact pow_le_pow_left₀ (abs_nonneg _) h4 2
  linarith

/-- Along and across range over everything the parameters allow: any deviation within them is reached. -/
theorem C96_reached (a x : ℝ) (h : |x| ≤ a) (ha : 0 < a) : ∃ r, 0 ≤ r ∧ r ≤ 1 ∧ uniform (-a) a r = x := by
  rw [abs_le] at h
  refine ⟨(x + a) / (2 * a), by apply div_nonneg <;> linarith, ?_, ?_⟩
  · rw [div_le_one (by linarith)]; linarith
  · unfold uniform; field_simp; ring

/-- The defaults, 0.5 along and 0.25 across, at the edge of both, for a move of 5 m. -/
example : addCurrentUnc (uniform (-(1 / 2)) (1 / 2) 1) (uniform (-(1 / 4)) (1 / 4) 1) (3, 4, 1) = (11 / 2, 21 / 4, 1) := by
  norm_num [addCurrentUnc, uniform]

/-- A move of `CurrentMover` for a floating element: scaled, then made uncertain, then turned into degrees. -/
theorem C96_mover (scale : ℝ) (dm : V → V) (α β : ℝ) (e : LE) (h : floating e) :
    currentRow true scale dm (some (α, β)) e = m2l (addCurrentUnc α β (scale • dm e.pos)) e.pos ∧
      currentRow true scale dm none e = m2l (scale • dm e.pos) e.pos := by
  have h' : inWater e := h
  simp [currentRow, h']

end Verif.Mover
