import Verif.Cats.Model
import Mathlib.Tactic.FieldSimp
import Mathlib.Tactic.Linarith
import Mathlib.Tactic.Positivity
import Mathlib.Tactic.Ring
import Mathlib.Tactic.NormNum
import Mathlib.Tactic.NormNum.Abs
import Mathlib.Algebra.Order.Ring.Abs

/-!
# C109: how strong the currents of a CATS mover are
-/

namespace Verif.Cats

/-- The value of the tide at a time, one without a tide. -/
def tideAt (m : Mover) (t : ℤ) : Option ℝ := match m.tide with
  | none => some 1
  | some td => td.value t

/-- The mover is driven by a hydrology file. -/
def hydro (m : Mover) : Option ℝ := m.tide.bind (·.hydrology)

theorem velocity_eq (P : Pattern) (m : Mover) (p : Place) :
    velocity P m p = ((patValue P p).1 * m.refScale * (if m.tide.isSome then m.current else 1),
      (patValue P p).2 * m.refScale * (if m.tide.isSome then m.current else 1)) := rfl

/-- What a step that does not fail leaves: the factors. -/
theorem prepare_ok {P : Pattern} {m m' : Mover} {t : ℤ} (h : prepare P m t = .ok m') :
    (computeScale P m).2 = none ∧ m'.refScale = (computeScale P m).1 ∧
      ∃ u, tideAt m t = some u ∧ (if m'.tide.isSome then m'.current else 1) = u ∧ m'.tide = m.tide ∧ m'.ref = m.ref := by
  unfold prepare at h
  unfold tideAt
  generalize computeScale P m = s at *
  obtain ⟨f, e⟩ := s
  cases e with
  | some e => cases h
  | none =>
    simp only at h
    cases ht : m.tide with
    | none =>
      rw [ht] at h
      simp only at h
      cases h
      exact ⟨rfl, rfl, 1, rfl, by simp, rfl, rfl⟩
    | some td =>
      rw [ht] at h
      simp only at h
      cases hv : td.value t with
      | none => rw [hv] at h; cases h
      | some u =>
        rw [hv] at h
        cases h
        exact ⟨rfl, rfl, u, hv, by simp, rfl, rfl⟩

theorem velocity_prepared {P : Pattern} {m m' : Mover} {t : ℤ} (h : prepare P m t = .ok m') (u : ℝ) (hu : tideAt m t = some u) (p : Place) :
    velocity P m' p = ((patValue P p).1 * ((computeScale P m).1 * u), (patValue P p).2 * ((computeScale P m).1 * u)) := by
  obtain ⟨-, h1, u', h2, h3, -⟩ := prepare_ok h
  rw [hu] at h2
  cases h2
  rw [velocity_eq, h1, h3]
  exact Prod.ext (mul_assoc _ _ _) (mul_assoc _ _ _)

/-- **C109**, no scaling: the currents are those of the file, times the tide. -/
theorem C109_unscaled (P : Pattern) (m m' : Mover) (t : ℤ) (u : ℝ) (h : prepare P m t = .ok m') (hu : tideAt m t = some u)
    (hs : m.scaleType = 0) (hh : hydro m = none) (p : Place) (hz : p.z ≤ 0) :
    velocity P m' p = ((P p.lon p.lat).1 * u, (P p.lon p.lat).2 * u) := by
  rw [velocity_prepared h u hu]
  have e : (computeScale P m).1 = 1 := by
    unfold computeScale; unfold hydro at hh; rw [hh]; simp only; rw [if_pos hs]
  unfold patValue
  rw [e, if_neg (not_lt.mpr hz), one_mul]

/-- C109. Switching scaling off gives the pattern as it is in the file, whatever was set before. -/
theorem C109_switched_off (P : Pattern) (m m' : Mover) (t : ℤ) (u : ℝ) (h : prepare P (setScale m false) t = .ok m')
    (hu : tideAt m t = some u) (hh : hydro m = none) (p : Place) (hz : p.z ≤ 0) :
    velocity P m' p = ((P p.lon p.lat).1 * u, (P p.lon p.lat).2 * u) :=
  C109_unscaled P (setScale m false) m' t u h hu (by simp [setScale]) hh p hz

theorem scaled_ok {P : Pattern} {m m' : Mover} {t : ℤ} (h : prepare P m t = .ok m') (hs : m.scaleType = 1) (hh : hydro m = none) :
    (computeScale P m).1 = m.scaleValue / len (patValue P m.ref) ∧ 1 / 100000 ≤ len (patValue P m.ref) ∧
      |m.scaleValue| ≤ len (patValue P m.ref) * 1000000 := by
  have h0 := (prepare_ok h).1
  unfold computeScale at h0 ⊢
  unfold hydro at hh
  rw [hh] at h0 ⊢
  simp only at h0 ⊢
  rw [if_neg (by omega), if_pos hs] at h0 ⊢
  split at h0
  · cases h0
  · rename_i hc
    rw [if_neg hc]
    push Not at hc
    exact ⟨rfl, hc.2, hc.1⟩

theorem len_smul (v : Vel) (c : ℝ) : len (v.1 * c, v.2 * c) = |c| * len v := by
  unfold len
  have : v.1 * c * (v.1 * c) + v.2 * c * (v.2 * c) = c ^ 2 * (v.1 * v.1 + v.2 * v.2) := by ring
  simp only [this]
  rw [Real.sqrt_mul (sq_nonneg c), Real.sqrt_sq_eq_abs]

/-- **C109**, scaling: at the reference point the current is as strong as the value given, times the tide. -/
theorem C109_at_ref (P : Pattern) (m m' : Mover) (t : ℤ) (u : ℝ) (h : prepare P m t = .ok m') (hu : tideAt m t = some u)
    (hs : m.scaleType = 1) (hh : hydro m = none) : len (velocity P m' m.ref) = |m.scaleValue| * |u| := by
  obtain ⟨e, hl, -⟩ := scaled_ok h hs hh
  have hpos : 0 < len (patValue P m.ref) := lt_of_lt_of_le (by norm_num) hl
  rw [velocity_prepared h u hu, len_smul, e, abs_mul, abs_div, abs_of_pos hpos]
  field_simp

/-- **C109**, scaling: everywhere at the surface the current is that of the file times one factor, and with a positive value and tide it keeps
its direction. -/
theorem C109_scaled (P : Pattern) (m m' : Mover) (t : ℤ) (u : ℝ) (h : prepare P m t = .ok m') (hu : tideAt m t = some u)
    (hs : m.scaleType = 1) (hh : hydro m = none) (p : Place) (hz : p.z ≤ 0) :
    velocity P m' p = ((P p.lon p.lat).1 * (m.scaleValue / len (P m.ref.lon m.ref.lat) * u),
      (P p.lon p.lat).2 * (m.scaleValue / len (P m.ref.lon m.ref.lat) * u)) := by
  obtain ⟨e, hl, -⟩ := scaled_ok h hs hh
  have hr : patValue P m.ref = P m.ref.lon m.ref.lat := by
    unfold patValue at hl ⊢
    split at hl
    · norm_num [len] at hl
    · rename_i hz'; rw [if_neg hz']
  rw [velocity_prepared h u hu, e, hr]
  unfold patValue
  rw [if_neg (not_lt.mpr hz)]

/-- **C109**, a hydrology file: the factor of the file. -/
theorem C109_hydrology (P : Pattern) (m m' : Mover) (t : ℤ) (u f : ℝ) (h : prepare P m t = .ok m') (hu : tideAt m t = some u)
    (hh : hydro m = some f) (p : Place) (hz : p.z ≤ 0) :
    velocity P m' p = ((P p.lon p.lat).1 * (f * u), (P p.lon p.lat).2 * (f * u)) := by
  rw [velocity_prepared h u hu]
  have e : (computeScale P m).1 = f := by
    unfold computeScale; unfold hydro at hh; rw [hh]
  unfold patValue
  rw [e, if_neg (not_lt.mpr hz)]

/-- **C109**: when the currents cannot be scaled, since there is none to speak of at the reference point, it is outside the grid or it is
below the surface, or when there is no value of the tide, the step fails; and it fails only then. -/
theorem C109_refuses (P : Pattern) (m : Mover) (t : ℤ) (hs : m.scaleType = 0 ∨ m.scaleType = 1) :
    (∃ e, prepare P m t = .error e) ↔
      tideAt m t = none ∨ (hydro m = none ∧ m.scaleType = 1 ∧
        (m.ref.z > 0 ∨ len (P m.ref.lon m.ref.lat) < 1 / 100000 ∨ |m.scaleValue| > len (P m.ref.lon m.ref.lat) * 1000000)) := by
  have hscale : (computeScale P m).2 ≠ none ↔ (hydro m = none ∧ m.scaleType = 1 ∧
        (m.ref.z > 0 ∨ len (P m.ref.lon m.ref.lat) < 1 / 100000 ∨ |m.scaleValue| > len (P m.ref.lon m.ref.lat) * 1000000)) := by
    unfold computeScale hydro
    cases m.tide.bind (·.hydrology) with
    | some f => simp
    | none =>
      simp only
      rcases hs with h0 | h1
      · rw [if_pos h0]; simp [h0]
      · rw [if_neg (by omega), if_pos h1]
        by_cases hz : m.ref.z > 0
        · have : len (patValue P m.ref) = 0 := by unfold patValue; rw [if_pos hz]; norm_num [len]
          rw [this, if_pos (Or.inr (by norm_num))]
          simp [h1, hz]
        · have : patValue P m.ref = P m.ref.lon m.ref.lat := by unfold patValue; rw [if_neg hz]
          rw [this]
          split
          · rename_i hc
            simp only [ne_eq, reduceCtorEq, not_false_eq_true, true_and, true_iff]
            exact ⟨h1, Or.inr hc.symm⟩
          · rename_i hc
            simp only [ne_eq, not_true_eq_false, true_and, false_iff, not_and]
            rintro - (h | h)
            · exact hz h
            · exact hc h.symm
  rw [← hscale]
  unfold prepare tideAt
  generalize computeScale P m = s
  obtain ⟨f, e⟩ := s
  cases e with
  | some e => simp
  | none =>
    cases m.tide with
    | none => simp
    | some td =>
      simp only
      cases td.value t with
      | none => simp
      | some u => simp

/-- **C109**: below the surface, on land or outside the grid nothing moves. -/
theorem C109_still (P : Pattern) (ratio : ℝ → ℝ) (m : Mover) (inWater : Bool) (dt : ℝ) (p : Place)
    (h : inWater = false ∨ p.z > 0 ∨ P p.lon p.lat = (0, 0)) : getMove P ratio m inWater dt p = (0, 0, 0) := by
  have hp : inWater = true → patValue P p = (0, 0) := by
    intro hw
    unfold patValue
    rcases h with h | h | h
    · rw [hw] at h; cases h
    · exact if_pos h
    · rw [h]; exact ite_self _
  unfold getMove
  cases inWater with
  | false => rfl
  | true =>
    rw [if_pos rfl, velocity_eq, hp rfl]
    simp

/-- **C109**: an element in the water moves with the current: the way in metres is velocity times time. -/
theorem C109_moves (P : Pattern) (ratio : ℝ → ℝ) (m : Mover) (dt : ℝ) (p : Place) (hr : ratio p.lat ≠ 0) :
    (getMove P ratio m true dt p).1 * ratio p.lat * (111120.00024 : ℝ) = (velocity P m p).1 * dt ∧
      (getMove P ratio m true dt p).2.1 * (111120.00024 : ℝ) = (velocity P m p).2 * dt ∧ (getMove P ratio m true dt p).2.2 = 0 := by
  unfold getMove
  rw [if_pos rfl]
  refine ⟨?_, ?_, rfl⟩
  · unfold metres; simp only; field_simp; norm_num; ring
  · unfold metres; simp only; field_simp; norm_num; ring

/-- **C109**: the velocities shown for a time are those the elements move with in a step at that time. -/
theorem C109_shown (P : Pattern) (m m' : Mover) (t : ℤ) (dflt : ℝ) (h : prepare P m t = .ok m') (p : Place) (hz : p.z ≤ 0) :
    shown P m dflt t (P p.lon p.lat) = velocity P m' p := by
  obtain ⟨-, -, u, hu, -⟩ := prepare_ok h
  rw [velocity_prepared h u hu]
  unfold patValue
  rw [if_neg (not_lt.mpr hz)]
  unfold shown
  unfold tideAt at hu
  cases ht : m.tide with
  | none => rw [ht] at hu; cases hu; rfl
  | some td => rw [ht] at hu; simp only at hu; simp only [hu]; rfl

/-- A channel: the current grows from the west shore. -/
noncomputable def channel : Pattern := fun lon _ => if 0 ≤ lon ∧ lon ≤ 1000000 then (lon / 1000000, 0) else (0, 0)

noncomputable def flood : Tide := ⟨true, none, none, fun t => if 0 ≤ t then some (-2) else none⟩

noncomputable def tidal : Mover := setTide (setScaleValue (setScale (setRefPoint channel fresh (1 / 2) 0 0) true) 3) flood

theorem tidal_prepared : ∃ m', prepare channel tidal 0 = .ok m' := by
  have h := (C109_refuses channel tidal 0 (Or.inr (by simp [tidal, setTide, flood]))).not
  have e : ¬ ∃ e, prepare channel tidal 0 = .error e := by
    rw [h]
    have hp : refPoint (setScaleValue (setScale (setRefPoint channel fresh (1 / 2) 0 0) true) 3) = some ⟨500000, 0, 0⟩ := by
      unfold refPoint setScaleValue setScale setRefPoint
      norm_num
    have hl : len (channel 500000 0) = 1 / 2 := by
      have : channel 500000 0 = (1 / 2, 0) := by unfold channel; norm_num
      rw [this]
      unfold len
      rw [show ((1 / 2 : ℝ), (0 : ℝ)).1 * ((1 / 2 : ℝ), (0 : ℝ)).1 + ((1 / 2 : ℝ), (0 : ℝ)).2 * ((1 / 2 : ℝ), (0 : ℝ)).2 = (1 / 2) ^ 2 by norm_num]
      exact Real.sqrt_sq (by norm_num)
    have hr : tidal.ref = ⟨500000, 0, 0⟩ := by
      unfold tidal setTide
      simp only [flood]
      unfold setScaleValue setScale setRefPoint
      norm_num
    have hv : tidal.scaleValue = 3 := by simp [tidal, setTide, flood, setScaleValue]
    rw [hr, hv, hl]
    have ht : tideAt tidal 0 ≠ none := by simp [tideAt, tidal, setTide, flood]
    rintro (h | ⟨-, -, h | h | h⟩)
    · exact ht h
    · norm_num at h
    · norm_num at h
    · rw [abs_of_pos (by norm_num)] at h; norm_num at h
  cases hq : prepare channel tidal 0 with
  | error e' => exact absurd ⟨e', hq⟩ e
  | ok m' => exact ⟨m', rfl⟩

/-- At the reference point of a channel with an ebbing tide of two the speed is six. -/
example : ∃ m', prepare channel tidal 0 = .ok m' ∧ len (velocity channel m' tidal.ref) = 6 := by
  obtain ⟨m', h⟩ := tidal_prepared
  refine ⟨m', h, ?_⟩
  rw [C109_at_ref channel tidal m' 0 (-2) h (by simp [tideAt, tidal, setTide, flood]) (by simp [tidal, setTide, flood])
    (by simp [hydro, tidal, setTide, flood])]
  have hv : tidal.scaleValue = 3 := by simp [tidal, setTide, flood, setScaleValue]
  rw [hv, abs_of_pos (by norm_num), abs_of_neg (by norm_num)]
  norm_num

/-! ## C110: setting and removing tides -/

/-- What a user can see of the settings. -/
structure Settings where
  scale : Bool
  scaleValue : ℝ
  refPoint : Option Place
  tide : Option Tide

noncomputable def settings (m : Mover) : Settings := ⟨m.scaleType ≠ 0, m.scaleValue, refPoint m, m.tide⟩

/-- The claim: removing a tide undoes setting it. -/
def C110_claim_undo : Prop := ∀ (m : Mover) (a : Tide), m.tide = none → settings (unsetTide (setTide m a)) = settings m

/-- The claim: what holds after a tide is set does not depend on the tide it replaces. -/
def C110_claim_replace : Prop := ∀ (m : Mover) (a b : Tide), m.tide = none → settings (setTide (setTide m a) b) = settings (setTide m b)

/-- **C110** fails: the scaling a user has asked for is gone with the tide. -/
theorem C110_counterexample_undo : ¬ C110_claim_undo := by
  intro h
  have := congrArg Settings.scale (h { fresh with scaleType := 1 } flood rfl)
  simp [settings, unsetTide] at this

/-- **C110** fails: the reference point remains that of the station of the first tide. -/
theorem C110_counterexample_replace : ¬ C110_claim_replace := by
  intro h
  have := congrArg Settings.refPoint (h fresh { flood with station := some ⟨0, 0, 0⟩ } { flood with station := some ⟨1, 1, 0⟩ } rfl)
  have hf : refPoint fresh = none := by unfold refPoint fresh; norm_num
  have e1 : (setTide fresh { flood with station := some ⟨1, 1, 0⟩ }).ref = ⟨1, 1, 0⟩ := by
    unfold setTide; rw [hf]; simp [flood]
  have e2 : (setTide fresh { flood with station := some ⟨0, 0, 0⟩ }).ref = ⟨0, 0, 0⟩ := by
    unfold setTide; rw [hf]; simp [flood]
  have f2 : refPoint (setTide fresh { flood with station := some ⟨0, 0, 0⟩ }) = some ⟨0, 0, 0⟩ := by
    unfold refPoint; rw [e2]; norm_num
  have e3 : (setTide (setTide fresh { flood with station := some ⟨0, 0, 0⟩ }) { flood with station := some ⟨1, 1, 0⟩ }).ref = ⟨0, 0, 0⟩ := by
    generalize setTide fresh { flood with station := some ⟨0, 0, 0⟩ } = m at *
    unfold setTide; rw [f2]; simp [flood, e2]
  simp only [settings] at this
  unfold refPoint at this
  rw [e1, e3] at this
  norm_num at this

theorem refPoint_unset (m : Mover) : refPoint (unsetTide m) = none := by
  unfold refPoint unsetTide; norm_num

/-- **C110** for a mover without scaling and without a reference point: removing the tide undoes setting it. -/
theorem C110_undo_partial (m : Mover) (a : Tide) (ht : m.tide = none) (hs : m.scaleType = 0) (hr : refPoint m = none) :
    settings (unsetTide (setTide m a)) = settings m := by
  have hv : (setTide m a).scaleValue = m.scaleValue := by
    unfold setTide
    split <;> split <;> rfl
  unfold settings
  rw [refPoint_unset, hr, ht, hs]
  unfold unsetTide
  simp [hv]

/-- **C110** for a mover without scaling and without a reference point: when the old tide is removed first, nothing of it remains. -/
theorem C110_replace_partial (m : Mover) (a b : Tide) (hs : m.scaleType = 0) (hr : refPoint m = none) :
    settings (setTide (unsetTide (setTide m a)) b) = settings (setTide m b) := by
  have hv : (setTide m a).scaleValue = m.scaleValue := by
    unfold setTide
    split <;> split <;> rfl
  have e3 : (setTide (unsetTide (setTide m a)) b).scaleType = (setTide m b).scaleType := by
    generalize hu : unsetTide (setTide m a) = x
    have hx : x.scaleType = 0 := by rw [← hu]; rfl
    unfold setTide
    split <;> split <;> split <;> simp_all
  have e4 : (setTide (unsetTide (setTide m a)) b).scaleValue = (setTide m b).scaleValue := by
    generalize hu : unsetTide (setTide m a) = x
    have hx : x.scaleValue = m.scaleValue := by rw [← hu]; exact hv
    unfold setTide
    split <;> split <;> split <;> simp_all
  have e5 : (setTide (unsetTide (setTide m a)) b).tide = (setTide m b).tide := by
    generalize unsetTide (setTide m a) = x
    unfold setTide
    split <;> split <;> split <;> simp_all
  have e6 : refPoint (setTide (unsetTide (setTide m a)) b) = refPoint (setTide m b) := by
    generalize hu : unsetTide (setTide m a) = x
    have hx : refPoint x = none := by rw [← hu]; exact refPoint_unset _
    cases hb : b.station with
    | none =>
      have f1 : (setTide m b).ref = m.ref := by unfold setTide; rw [hb]; simp only; split <;> rfl
      have f2 : (setTide x b).ref = x.ref := by unfold setTide; rw [hb]; simp only; split <;> rfl
      have g1 : refPoint (setTide m b) = none := by unfold refPoint at hr ⊢; rw [f1]; exact hr
      have g2 : refPoint (setTide x b) = none := by unfold refPoint at hx ⊢; rw [f2]; exact hx
      rw [g1, g2]
    | some p =>
      have f1 : (setTide m b).ref = p := by unfold setTide; rw [hb, hr]; simp only; split <;> rfl
      have f2 : (setTide x b).ref = p := by unfold setTide; rw [hb, hx]; simp only; split <;> rfl
      unfold refPoint
      rw [f1, f2]
  unfold settings
  rw [e3, e4, e5, e6]

/-- **C110**: a tide with a station gives its station as reference point to a mover that has none, and leaves any other alone; a Shio tide
turns the scaling on. -/
theorem C110_set (m : Mover) (a : Tide) :
    (settings (setTide m a)).tide = some a ∧ (settings (setTide m a)).scaleValue = m.scaleValue ∧
      (a.shio = true → (settings (setTide m a)).scale = true) ∧
      (a.shio = false → (settings (setTide m a)).scale = (settings m).scale) ∧
      ((refPoint m).isSome → (settings (setTide m a)).refPoint = refPoint m) ∧
      (∀ p, refPoint m = none → a.station = some p → (setTide m a).ref = p) := by
  refine ⟨?_, ?_, ?_, ?_, ?_, ?_⟩
  · unfold settings setTide; split <;> split <;> rfl
  · unfold settings setTide; split <;> split <;> rfl
  · intro h; unfold settings setTide; simp [h]
  · intro h
    have : (setTide m a).scaleType = m.scaleType := by unfold setTide; split <;> simp [h]
    unfold settings; rw [this]
  · intro h
    have : (setTide m a).ref = m.ref := by unfold setTide; split <;> split <;> simp_all
    simp only [settings]; unfold refPoint; rw [this]
  · intro p h1 h2
    unfold setTide; rw [h2, h1]; simp only; split <;> rfl

/-- A fresh mover meets the conditions, and the tide of the second station counts. -/
example : settings (setTide (unsetTide (setTide fresh { flood with station := some ⟨0, 0, 0⟩ })) { flood with station := some ⟨1, 1, 0⟩ })
    = settings (setTide fresh { flood with station := some ⟨1, 1, 0⟩ }) :=
  C110_replace_partial fresh _ _ rfl (by unfold refPoint fresh; norm_num)

end Verif.Cats
