import Verif.Spread.Props

/-!
C89: the thickness limit of an oil. C90: the area of oil just released.
C91: which oil spreading looks at.
-/

namespace Verif.Spread

/-! ### C89 -/

/-- The limit lies between 0.01 mm and 0.1 mm, and a more viscous oil has no
lower limit. -/
def C89_claim : Prop :=
  ∀ a b : ℝ, 0 < a → a ≤ b →
    0.00001 ≤ thicknessLimit a ∧ thicknessLimit a ≤ 0.0001 ∧ thicknessLimit a ≤ thicknessLimit b

/-- The claim holds but for a millionth of a millimetre: the middle part of
the formula overshoots. -/
theorem C89_partial (a b : ℝ) (h : a ≤ b) :
    0.00001 ≤ thicknessLimit a ∧ thicknessLimit a ≤ 0.0001 + 0.000000001 ∧
    thicknessLimit a ≤ thicknessLimit b + 0.000000001 := by
  unfold thicknessLimit
  refine ⟨?_, ?_, ?_⟩ <;> (repeat' split) <;> linarith

/-- It holds for oils on the same side of 100 centistokes, and the limit is
0.1 mm above and 0.01 mm below one centistoke. -/
theorem C89_sides_partial (a b : ℝ) (h : a ≤ b) (hs : b < 0.0001 ∨ 0.0001 ≤ a) :
    thicknessLimit a ≤ thicknessLimit b ∧ (0.0001 ≤ a → thicknessLimit a = 0.0001) ∧
    (a ≤ 0.000001 → thicknessLimit a = 0.00001) := by
  unfold thicknessLimit
  refine ⟨?_, fun h1 => if_pos h1, fun h1 => ?_⟩
  · rcases hs with hs | hs <;> (repeat' split) <;> linarith
  · rw [if_neg (by linarith)]
    split <;> linarith

theorem C89_counterexample : ¬ C89_claim := by
  intro h
  have := (h 0.0000999999 0.0001 (by norm_num) (by norm_num)).2.2
  norm_num [thicknessLimit] at this

/-! ### C90 -/

theorem sum_vol_pos {new : List El} (h : ∀ e ∈ new, Fresh e) (hn : new ≠ []) :
    0 < (new.map El.vol).sum := by
  cases new with
  | nil => exact absurd rfl hn
  | cons e t =>
    have h1 : 0 < e.vol := div_pos (h e List.mem_cons_self).1 (h e List.mem_cons_self).2
    have h2 := sum_vol_nonneg (fun x hx => h x (List.mem_cons_of_mem e hx))
    rw [List.map_cons, List.sum_cons]
    linarith

/-- Oil released at once is given the area of Fay's initial phase for its whole
volume, each element its share, all of it together; the viscosity in the
formula is that of the oil. -/
theorem C90_instant (within : Bool) {nu rb lim prev : ℝ} {new : List El}
    (h : ∀ e ∈ new, Fresh e) (hn : new ≠ []) :
    (release false within nu rb lim prev new).2.map El.fay =
      new.map (fun e => docArea nu rb (new.map El.vol).sum lim *
        (e.vol / (new.map El.vol).sum)) ∧
    ((release false within nu rb lim prev new).2.map El.fay).sum =
      docArea nu rb (new.map El.vol).sum lim ∧
    (release false within nu rb lim prev new).2.map El.area =
      (release false within nu rb lim prev new).2.map El.fay := by
  have hV := sum_vol_pos h hn
  have h1 : (release false within nu rb lim prev new).2.map El.fay =
      new.map (fun e => docArea nu rb (new.map El.vol).sum lim *
        (e.vol / (new.map El.vol).sum)) := by
    change (new.map (releaseEl nu rb lim (new.map El.vol).sum)).map El.fay = _
    rw [List.map_map]
    refine List.map_congr_left fun e _ => ?_
    change initArea _ _ _ _ * (if 0 < (new.map El.vol).sum then _ else 0) = _
    rw [if_pos hV]
    rfl
  refine ⟨h1, ?_, ?_⟩
  · rw [h1, List.sum_map_mul_left]
    have : (new.map (fun e => e.vol / (new.map El.vol).sum)).sum = 1 := by
      have h2 : (new.map (fun e => e.vol / (new.map El.vol).sum)) =
          new.map (fun e => e.vol * (new.map El.vol).sum⁻¹) := rfl
      rw [h2, List.sum_map_mul_right]
      exact mul_inv_cancel₀ hV.ne'
    rw [this, mul_one]
  · unfold release
    rw [List.map_map, List.map_map]
    rfl

/-- In the first twelve hours of a continuous release, the blob is all the oil
released up to now, and the new elements have their share of its area. -/
theorem C90_continuous {nu rb lim prev : ℝ} {new : List El} (hp : 0 ≤ prev)
    (h : ∀ e ∈ new, Fresh e) (hn : new ≠ []) :
    (release true true nu rb lim prev new).1 = prev + (new.map El.vol).sum ∧
    (release true true nu rb lim prev new).2.map El.fay =
      new.map (fun e => docArea nu rb (prev + (new.map El.vol).sum) lim *
        (e.vol / (prev + (new.map El.vol).sum))) := by
  have hV := sum_vol_pos h hn
  refine ⟨rfl, ?_⟩
  change (new.map (releaseEl nu rb lim (prev + (new.map El.vol).sum))).map El.fay = _
  rw [List.map_map]
  refine List.map_congr_left fun e _ => ?_
  change initArea _ _ _ _ * (if 0 < prev + (new.map El.vol).sum then _ else 0) = _
  rw [if_pos (by linarith)]
  rfl

/-- Oil just released covers the area of the documented formula, in which the
viscosity is that of water, so that it does not depend on the oil's own. -/
def C90_claim : Prop :=
  ∀ (nu rb lim : ℝ) (new : List El), 0 < nu → 0 < rb → 0 < lim → (∀ e ∈ new, Fresh e) → new ≠ [] →
    ((release false true nu rb lim 0 new).2.map El.fay).sum =
      docArea 0.000001 rb (new.map El.vol).sum lim

theorem sixthRoot_lt {x y : ℝ} (hx : 0 ≤ x) (h : x < y) : x ^ (1 / 6 : ℝ) < y ^ (1 / 6 : ℝ) :=
  Real.rpow_lt_rpow hx h (by norm_num)

/-- A cubic metre of oil of 100 centistokes starts with less than the
documented area. -/
theorem C90_counterexample : ¬ C90_claim := by
  intro h
  have h1 := h 0.0001 0.1 0.0001 [drop 900 900] (by norm_num) (by norm_num) (by norm_num)
    (by intro e he; rw [List.mem_singleton.1 he]; constructor <;> norm_num [drop]) (by simp)
  rw [(C90_instant true (by intro e he; rw [List.mem_singleton.1 he]; constructor <;> norm_num [drop])
    (by simp)).2.1] at h1
  have hv : ([drop 900 900].map El.vol).sum = 1 := by norm_num [El.vol, drop]
  rw [hv] at h1
  unfold docArea at h1
  have hp := Real.pi_gt_three
  have hp4 := Real.pi_lt_d2
  have r1 : ((1 : ℝ) ^ 5 * 9.80665 * 0.1 / 0.0001 ^ 2) ^ (1 / 6 : ℝ) <
      ((1 : ℝ) ^ 5 * 9.80665 * 0.1 / 0.000001 ^ 2) ^ (1 / 6 : ℝ) :=
    sixthRoot_lt (by norm_num) (by norm_num)
  have r2 : ((1 : ℝ) ^ 5 * 9.80665 * 0.1 / 0.000001 ^ 2) ^ (1 / 6 : ℝ) ≤ 1000 := by
    rw [one_div, Real.rpow_inv_le_iff_of_pos (by norm_num) (by norm_num) (by norm_num)]
    norm_num
  have hc : 0 < Real.pi * ((1.21 : ℝ) ^ 4 / 1.53 ^ 2) := by positivity
  have hc2 : Real.pi * ((1.21 : ℝ) ^ 4 / 1.53 ^ 2) ≤ 4 := by
    have : ((1.21 : ℝ) ^ 4 / 1.53 ^ 2) ≤ 1 := by norm_num
    nlinarith
  have m1 := mul_lt_mul_of_pos_left r1 hc
  have m2 : Real.pi * ((1.21 : ℝ) ^ 4 / 1.53 ^ 2) *
      ((1 : ℝ) ^ 5 * 9.80665 * 0.1 / 0.000001 ^ 2) ^ (1 / 6 : ℝ) ≤ 4 * 1000 :=
    mul_le_mul hc2 r2 (by positivity) (by norm_num)
  rw [min_eq_left (by norm_num at m1 m2 ⊢; linarith), min_eq_left (by norm_num at m2 ⊢; linarith)] at h1
  exact absurd h1 m1.ne

/-- Oil lighter than water covers some area as soon as it is released. -/
def C90_claim_area : Prop :=
  ∀ (cont within : Bool) (nu rb lim prev : ℝ) (new : List El), 0 < nu → 0 < rb → 0 < lim →
    0 ≤ prev → (∀ e ∈ new, Fresh e) → ∀ e ∈ (release cont within nu rb lim prev new).2, 0 < e.fay

/-- So it is for oil released at once, in the first twelve hours of a
continuous release, and later if some was released in these. -/
theorem C90_area_partial {cont within : Bool} {nu rb lim prev : ℝ} {new : List El}
    (hn : 0 < nu) (hr : 0 < rb) (hl : 0 < lim) (hp : 0 ≤ prev) (h : ∀ e ∈ new, Fresh e)
    (hc : cont = false ∨ within = true ∨ 0 < prev) :
    ∀ e ∈ (release cont within nu rb lim prev new).2, 0 < e.fay := by
  intro e he
  have hne : new ≠ [] := by
    rintro rfl
    simp [release] at he
  have hV := sum_vol_pos h hne
  obtain ⟨e0, h0, rfl⟩ := List.mem_map.1 he
  have hb : 0 < blob cont within prev (new.map El.vol).sum := by
    unfold blob released
    cases cont with
    | false => exact hV
    | true =>
      cases within with
      | true => simp only [if_true]; linarith
      | false =>
        simp only [if_true]
        rcases hc with hc | hc | hc
        · cases hc
        · cases hc
        · simpa using hc
  change 0 < initArea _ _ _ _ * (if 0 < blob cont within prev (new.map El.vol).sum then _ else 0)
  rw [if_pos hb]
  exact mul_pos (initArea_pos hn hr hl hb)
    (div_pos (div_pos (h e0 h0).1 (h e0 h0).2) hb)

/-- A continuous release whose first elements come more than twelve hours after
its release time: none of its oil covers any area. -/
theorem C90_late (nu rb lim : ℝ) (new : List El) :
    (release true false nu rb lim 0 new).1 = 0 ∧
    ∀ e ∈ (release true false nu rb lim 0 new).2, e.fay = 0 ∧ e.area = 0 := by
  refine ⟨rfl, fun e he => ?_⟩
  obtain ⟨e0, h0, rfl⟩ := List.mem_map.1 he
  change initArea _ _ _ _ * (if 0 < (0 : ℝ) then _ else 0) = 0 ∧
    initArea _ _ _ _ * (if 0 < (0 : ℝ) then _ else 0) = 0
  simp

theorem C90_counterexample_late : ¬ C90_claim_area := by
  intro h
  have hf : ∀ e ∈ [drop 900 900], Fresh e := by
    intro e he
    rw [List.mem_singleton.1 he]
    constructor <;> norm_num [drop]
  have hm : releaseEl 1 1 1 (blob true false 0 ([drop 900 900].map El.vol).sum) (drop 900 900) ∈
      (release true false 1 1 1 0 [drop 900 900]).2 := by
    simp [release]
  have h1 := h true false 1 1 1 0 [drop 900 900] one_pos one_pos one_pos le_rfl hf _ hm
  rw [((C90_late 1 1 1 [drop 900 900]).2 _ hm).1] at h1
  exact lt_irrefl _ h1

/-- Oil that covers no area never spreads. -/
theorem C90_never_spreads {rb lim : ℝ} {a b : List El} (h : Run rb lim a b) (i : Nat) (e : El)
    (he : a[i]? = some e) (h0 : e.fay = 0) : ∃ e', b[i]? = some e' ∧ e'.fay = 0 := by
  induction h with
  | refl => exact ⟨e, he, h0⟩
  | step b c _ hs ih =>
    obtain ⟨e1, h1, h2⟩ := ih
    cases hs with
    | release cont within nu prev new _ _ hp hn =>
      refine ⟨e1, ?_, h2⟩
      rw [List.getElem?_append_left (List.getElem?_eq_some_iff.1 h1).1]
      exact h1
    | spread dt _ _ hd hs =>
      rw [fayStep_some hs]
      refine ⟨_, by rw [List.getElem?_map, h1]; rfl, ?_⟩
      beta_reduce
      split
      · change updateArea rb (firstBulk b e1.spill) dt (maxAreaOf lim e1) e1 = _
        unfold updateArea
        rw [if_neg (fun hc => absurd hc.2.2.2 (by rw [h2]; exact lt_irrefl _)), h2]
      · exact h2
    | langmuir rho wind _ =>
      refine ⟨_, by unfold langmuir; rw [List.getElem?_map, h1]; rfl, ?_⟩
      beta_reduce
      split <;> exact h2
    | other _ _ hs =>
      obtain ⟨e', h3, h4⟩ := same_get hs i e1 h1
      exact ⟨e', h3, by rw [h4.fay, h2]⟩

/-- Oil denser than water is refused, other oil has a buoyancy between zero
and one. -/
theorem C90_buoyancy {w o : ℝ} (hw : 0 < w) (ho : 0 < o) :
    (buoyancy w o = none ↔ w < o) ∧ ∀ rb, buoyancy w o = some rb → 0 ≤ rb ∧ rb < 1 := by
  unfold buoyancy
  by_cases h : w < o
  · rw [if_pos h]
    exact ⟨⟨fun _ => h, fun _ => rfl⟩, fun rb h => by cases h⟩
  · rw [if_neg h]
    refine ⟨⟨fun hc => (by cases hc), fun h' => absurd h' h⟩, fun rb hb => ?_⟩
    cases hb
    push Not at h
    refine ⟨div_nonneg (by linarith) hw.le, ?_⟩
    rw [div_lt_one hw]
    linarith

/-! ### C91 -/

theorem find_filter (els : List El) (s : Nat) :
    (els.filter (fun e => e.spill == s)).find? (fun e => e.surf && e.spill == s) =
      els.find? (fun e => e.surf && e.spill == s) := by
  induction els with
  | nil => rfl
  | cons e t ih =>
    by_cases h : e.spill = s
    · rw [List.filter_cons_of_pos (by simpa using h), List.find?_cons, List.find?_cons, ih]
    · rw [List.filter_cons_of_neg (by simpa using h), List.find?_cons, ih,
        show (e.spill == s) = false by simpa using h, Bool.and_false]

theorem firstBulk_filter (els : List El) (s : Nat) :
    firstBulk (els.filter (fun e => e.spill == s)) s = firstBulk els s := by
  unfold firstBulk
  rw [find_filter]

/-- How the oil of one spill spreads does not depend on the other spills. -/
theorem C91_spills {rb lim dt : ℝ} {els els' : List El} (h : fayStep rb lim dt els = some els')
    (s : Nat) :
    fayStep rb lim dt (els.filter (fun e => e.spill == s)) =
      some (els'.filter (fun e => e.spill == s)) := by
  have hne : ¬ (els.any (fun e => e.surf && decide (e.age + dt = 0))) = true := by
    intro hc
    unfold fayStep at h
    rw [if_pos hc] at h
    cases h
  have hne' : ¬ ((els.filter (fun e => e.spill == s)).any
      (fun e => e.surf && decide (e.age + dt = 0))) = true := by
    intro hc
    obtain ⟨e, h1, h2⟩ := List.any_eq_true.1 hc
    exact hne (List.any_eq_true.2 ⟨e, List.mem_of_mem_filter h1, h2⟩)
  rw [fayStep_some h]
  unfold fayStep
  rw [if_neg hne', List.filter_map]
  congr 1
  have hf : (fun e : El => e.spill == s) ∘
      (fun e => if e.surf then spreadEl rb lim dt els e else e) = fun e => e.spill == s := by
    funext e
    simp only [Function.comp]
    split <;> rfl
  rw [hf]
  refine List.map_congr_left fun e he => ?_
  have hs : e.spill = s := by simpa using (List.mem_filter.1 he).2
  split
  · unfold spreadEl
    rw [hs, firstBulk_filter]
  · rfl

/-- How an element spreads does not depend on the other elements. -/
def C91_claim : Prop :=
  ∀ (rb lim dt : ℝ) (a b : List El) (e : El), 0 < rb → 0 < lim → 0 < dt →
    fayStep rb lim dt (a ++ [e]) = some b → e.surf = true →
    ∃ e', b[a.length]? = some e' ∧ fayStep rb lim dt [e] = some [e']

theorem firstBulk_eq {els : List El} {s : Nat} {V : ℝ}
    (h : ∀ x ∈ els, x.surf = true → x.spill = s → x.bulk = V)
    (hex : ∃ x ∈ els, x.surf = true ∧ x.spill = s) : firstBulk els s = V := by
  unfold firstBulk
  split
  · rename_i e he
    have h1 := List.find?_some he
    simp only [Bool.and_eq_true, beq_iff_eq] at h1
    exact h e (List.mem_of_find?_eq_some he) h1.1 h1.2
  · rename_i hn
    obtain ⟨x, hx, h1, h2⟩ := hex
    have := List.find?_eq_none.1 hn x hx
    simp [h1, h2] at this

/-- So it is for a spill whose elements all belong to one blob, that is for oil
released at once. Missing: continuous releases, whose elements have different
volumes of the blob; the length of the first phase is taken from the first
element that floats. -/
theorem C91_partial {rb lim dt : ℝ} {a b : List El} {e : El}
    (h : fayStep rb lim dt (a ++ [e]) = some b) (hs : e.surf = true)
    (hb : ∀ x ∈ a, x.surf = true → x.spill = e.spill → x.bulk = e.bulk) :
    ∃ e', b[a.length]? = some e' ∧ fayStep rb lim dt [e] = some [e'] := by
  have h1 : firstBulk (a ++ [e]) e.spill = e.bulk := by
    refine firstBulk_eq (fun x hx hxs hxe => ?_) ⟨e, by simp, hs, rfl⟩
    rcases List.mem_append.1 hx with h' | h'
    · exact hb x h' hxs hxe
    · rw [List.mem_singleton.1 h']
  have h2 : firstBulk [e] e.spill = e.bulk :=
    firstBulk_eq (fun x hx _ _ => by rw [List.mem_singleton.1 hx]) ⟨e, by simp, hs, rfl⟩
  have hne : ¬ ((a ++ [e]).any (fun e => e.surf && decide (e.age + dt = 0))) = true := by
    intro hc
    unfold fayStep at h
    rw [if_pos hc] at h
    cases h
  rw [fayStep_some h]
  refine ⟨spreadEl rb lim dt (a ++ [e]) e, by simp [hs], ?_⟩
  unfold fayStep
  rw [if_neg]
  · simp only [List.map_cons, List.map_nil, hs, if_true]
    unfold spreadEl
    rw [h1, h2]
  · intro hc
    obtain ⟨x, hx, h3⟩ := List.any_eq_true.1 hc
    exact hne (List.any_eq_true.2 ⟨x, List.mem_append_right _ hx, h3⟩)

/-- An element of a continuous release of a million cubic metres, released when
all of it was out. -/
noncomputable def late : El :=
  { drop 900 900 with age := 600, bulk := 1000000, frac := 0.000001, fay := 1, area := 1 }

/-- The first element of the release. -/
noncomputable def early : El :=
  { drop 900 900 with age := 1200, bulk := 1, frac := 1, fay := 1, area := 1 }

theorem t0_early : t0 waterVisc 0.1 1 < 900 := by
  unfold t0 waterVisc g k1 k2
  have h : ((1 : ℝ) / (0.000001 * 9.80665 * 0.1)) ^ (1 / 3 : ℝ) ≤ 102 :=
    cbrt_le (by norm_num) (by norm_num) (by norm_num)
  have h0 : 0 ≤ ((1 : ℝ) / (0.000001 * 9.80665 * 0.1)) ^ (1 / 3 : ℝ) := by positivity
  have : ((1.21 : ℝ) / 1.53) ^ 4 ≤ 1 := by norm_num
  nlinarith

theorem t0_late : 900 < t0 waterVisc 0.1 1000000 := by
  unfold t0 waterVisc g k1 k2
  have h : 10000 ≤ ((1000000 : ℝ) / (0.000001 * 9.80665 * 0.1)) ^ (1 / 3 : ℝ) :=
    le_cbrt (by norm_num) (by norm_num) (by norm_num)
  have : 0.39 ≤ ((1.21 : ℝ) / 1.53) ^ 4 := by norm_num
  nlinarith

/-- Fifteen minutes after its release, the late element spreads as long as the
first element of its spill floats, and does not when that one has beached. -/
theorem C91_counterexample : ¬ C91_claim := by
  intro h
  have h1 : fayStep 0.1 0.0001 300 ([early] ++ [late]) =
      some [spreadEl 0.1 0.0001 300 [early, late] early,
        spreadEl 0.1 0.0001 300 [early, late] late] := by
    unfold fayStep
    norm_num [early, late, drop]
  obtain ⟨e', h2, h3⟩ := h 0.1 0.0001 300 [early] _ late (by norm_num) (by norm_num) (by norm_num) h1
    rfl
  have h4 : fayStep 0.1 0.0001 300 [late] = some [spreadEl 0.1 0.0001 300 [late] late] := by
    unfold fayStep
    norm_num [late, drop]
  rw [h4] at h3
  have h5 : e' = spreadEl 0.1 0.0001 300 [late] late := by simpa using h3.symm
  have h6 : e' = spreadEl 0.1 0.0001 300 [early, late] late := by simpa using h2.symm
  have hV1 : firstBulk [late] late.spill = 1000000 := by simp [firstBulk, late, drop]
  have hV2 : firstBulk [early, late] late.spill = 1 := by simp [firstBulk, early, late, drop]
  have h7 : updateArea 0.1 1000000 300 (maxAreaOf 0.0001 late) late =
      updateArea 0.1 1 300 (maxAreaOf 0.0001 late) late := by
    have := congrArg El.fay (h5.symm.trans h6)
    change updateArea _ _ _ _ _ = updateArea _ _ _ _ _ at this
    rwa [hV1, hV2] at this
  have hm : maxAreaOf 0.0001 late = 10000 := by norm_num [maxAreaOf, El.vol, late, drop]
  have ha : late.age + 300 = 900 := by norm_num [late]
  have hf : late.fay = 1 := rfl
  unfold updateArea at h7
  rw [hm, ha, hf] at h7
  rw [if_neg (fun hc => absurd hc.2.1 (not_lt.2 t0_late.le)),
    if_pos ⟨by norm_num, t0_early, by norm_num, one_pos⟩] at h7
  have hg : 0 < gain 0.1 300 late :=
    gain_pos ⟨by norm_num [late], by norm_num [late], fun _ => by norm_num [late]⟩
      (by norm_num [late]) (by norm_num)
  have : (1 : ℝ) < min (1 + gain 0.1 300 late) 10000 := lt_min (by linarith) (by norm_num)
  linarith

/-- The hypotheses of `C91_partial` are met by two elements released together,
one of them beached. -/
example : ∃ b, fayStep 0.1 0.0001 300 ([{ early with surf := false }] ++ [early]) = some b := by
  unfold fayStep
  norm_num [early, drop]

end Verif.Spread
