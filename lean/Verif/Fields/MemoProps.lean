import Verif.Fields.MemoModel
import Mathlib.Analysis.SpecialFunctions.Complex.Log

/-!
# C156, C157, C158: asking currents and winds
-/

namespace Verif.Fields

/-! ## C156 -/

/-- **C156, as stated**: whatever was asked and set before, the answer is what the settings of now give for
the question. -/
def C156_claim : Prop :=
  ∀ (σ ρ : Type) (comp : σ → Query → Option ρ) (s : σ) (es : List (Ev σ)) (q : Query),
    let f := run comp ⟨s, []⟩ es
    (ask comp f q).1 = comp f.cfg q

/-- All questions of a history that use the table. -/
def asked {σ : Type} : List (Ev σ) → List Query
  | [] => []
  | .ask q :: es => if q.mem then q :: asked es else asked es
  | _ :: es => asked es

/-- No setting is changed. -/
def noSet {σ : Type} (es : List (Ev σ)) : Prop := ∀ s, Ev.set s ∉ es

/-- What the table holds: for every entry a question that was asked and the answer to it. -/
def Holds {σ ρ : Type} (comp : σ → Query → Option ρ) (f : Fld σ ρ) (Q : List Query) : Prop :=
  ∀ k r, (k, r) ∈ f.memo → ∃ p ∈ Q, p.key = k ∧ comp f.cfg p = some r

theorem lookup_mem {ρ : Type} (l : List (Nat × ρ)) (k : Nat) (r : ρ) (h : l.lookup k = some r) : (k, r) ∈ l := by
  induction l with
  | nil => simp at h
  | cons a l ih =>
    obtain ⟨j, x⟩ := a
    simp only [List.lookup_cons] at h
    split at h
    · rename_i hk
      simp only [beq_iff_eq] at hk
      cases h; subst hk; simp
    · exact List.mem_cons_of_mem _ (ih h)

theorem ask_cfg {σ ρ : Type} (comp : σ → Query → Option ρ) (f : Fld σ ρ) (q : Query) :
    (ask comp f q).2.cfg = f.cfg := by
  unfold ask
  split
  · rfl
  · split
    · rfl
    · split <;> rfl

theorem ask_holds {σ ρ : Type} (comp : σ → Query → Option ρ) (f : Fld σ ρ) (q : Query) (Q : List Query)
    (h : Holds comp f Q) (hq : q.mem = true → q ∈ Q) : Holds comp (ask comp f q).2 Q := by
  intro k r hm
  rw [ask_cfg]
  unfold ask at hm
  split at hm
  · exact h k r hm
  · split at hm
    · exact h k r hm
    · rename_i x hx
      split at hm
      · rename_i hmem
        simp only [List.mem_cons, Prod.mk.injEq] at hm
        rcases hm with ⟨rfl, rfl⟩ | hm
        · exact ⟨q, hq hmem, rfl, hx⟩
        · exact h k r hm
      · exact h k r hm

theorem run_holds {σ ρ : Type} (comp : σ → Query → Option ρ) (es : List (Ev σ)) (f : Fld σ ρ) (Q : List Query)
    (hs : noSet es) (hQ : ∀ q ∈ asked es, q ∈ Q) (h : Holds comp f Q) :
    Holds comp (run comp f es) Q ∧ (run comp f es).cfg = f.cfg := by
  induction es generalizing f with
  | nil => exact ⟨h, rfl⟩
  | cons e es ih =>
    have hs' : noSet es := fun s hm => hs s (List.mem_cons_of_mem _ hm)
    cases e with
    | ask q =>
      have hq' : ∀ p ∈ asked es, p ∈ Q := by
        intro p hp
        apply hQ
        simp only [asked]
        split
        · exact List.mem_cons_of_mem _ hp
        · exact hp
      have hq : q.mem = true → q ∈ Q := by
        intro hm
        apply hQ
        simp [asked, hm]
      have := ih (ask comp f q).2 hs' hq' (ask_holds comp f q Q h hq)
      rw [ask_cfg] at this
      exact this
    | set s => exact absurd (List.mem_cons_self ..) (hs s)
    | drop k =>
      have h' : Holds comp (step comp f (.drop k)).2 Q := by
        intro j r hm
        simp only [step, List.mem_filter] at hm
        exact h j r hm.1
      exact ih _ hs' (by simpa [asked] using hQ) h'

/-- **C156 (partial)**: as long as no setting is changed and the same points and time are always asked about
in the same unit and with the same extrapolation. -/
theorem C156_partial {σ ρ : Type} (comp : σ → Query → Option ρ)
    (hcomp : ∀ s p q, p.key = q.key → p.same q → comp s p = comp s q)
    (s : σ) (es : List (Ev σ)) (q : Query) (hs : noSet es)
    (hq : ∀ p ∈ asked es, p.key = q.key → p.same q) :
    (ask comp (run comp ⟨s, []⟩ es) q).1 = comp s q := by
  obtain ⟨h, hc⟩ := run_holds comp es ⟨s, []⟩ (asked es) hs (fun _ h => h) (by intro k r hm; simp at hm)
  unfold ask
  simp only [hc]
  split
  · rename_i r _ hl
    obtain ⟨p, hp, hk, hr⟩ := h _ _ (lookup_mem _ _ _ hl)
    rw [hc] at hr
    rw [← hcomp s p q hk (hq p hp hk)]
    exact hr.symm
  · split
    · rename_i hn; exact hn.symm
    · rename_i hn; exact hn.symm

/-- Questions that do not use the table are always answered from the settings of now. -/
theorem C156_unremembered {σ ρ : Type} (comp : σ → Query → Option ρ) (f : Fld σ ρ) (q : Query)
    (h : q.mem = false) : (ask comp f q).1 = comp f.cfg q := by
  unfold ask
  rw [h]
  simp only
  split
  · rename_i hn; exact hn.symm
  · rename_i hn; exact hn.symm

/-- A current of `s` metres per second, 0 to 10 s: `key` is the time; in knots or in m/s. -/
def toy (s : Nat) (q : Query) : Option Nat :=
  if q.key > 10 ∧ q.extrap = false then none
  else if q.units = some "cm/s" then some (100 * s) else some s

/-- Non-trivial case of the partial theorem: asked at two times. -/
example : (ask toy (run toy ⟨3, []⟩ [.ask ⟨1, none, false, true⟩, .ask ⟨2, some "cm/s", false, true⟩])
    ⟨1, none, false, true⟩).1 = some 3 := by decide

/-- **C156 fails**: asked in cm/s and then in m/s, a current gives the number of cm/s again. -/
theorem C156_counterexample_units :
    (ask toy (run toy ⟨3, []⟩ [.ask ⟨1, some "cm/s", false, true⟩]) ⟨1, none, false, true⟩).1 = some 300
    ∧ toy 3 ⟨1, none, false, true⟩ = some 3 := by decide

/-- A time outside of the data is answered when it was asked about with extrapolation before. -/
theorem C156_counterexample_extrapolate :
    (ask toy (run toy ⟨3, []⟩ [.ask ⟨11, none, true, true⟩]) ⟨11, none, false, true⟩).1 = some 3
    ∧ toy 3 ⟨11, none, false, true⟩ = none := by decide

/-- A change of the settings has no effect on what was asked about before. -/
theorem C156_counterexample_set :
    (ask toy (run toy ⟨3, []⟩ [.ask ⟨1, none, false, true⟩, .set 5]) ⟨1, none, false, true⟩).1 = some 3 := by
  decide

theorem C156_counterexample : ¬ C156_claim := by
  intro h
  have := h Nat Nat toy 3 [.ask ⟨1, some "cm/s", false, true⟩] ⟨1, none, false, true⟩
  revert this; decide

/-! ## C157 -/

/-- The velocity (east, north) of a wind of `speed` that blows from `dir` degrees clockwise from north. -/
noncomputable def fromDir (speed dir : ℝ) : ℝ × ℝ :=
  (-(speed * Real.sin (dir * Real.pi / 180)), -(speed * Real.cos (dir * Real.pi / 180)))

/-- **C157, as stated**: speed and direction of a gridded wind are those of wind: the direction it comes from,
clockwise from north, with and without ice. -/
def C157_claim : Prop :=
  ∀ w : ℂ, (fromDir (gridPolar w).1 (gridPolar w).2 = (w.re, w.im))
    ∧ ∀ f : ℝ, 0 ≤ f → f < 1 → (icePolar 0 f w).2 = (gridPolar w).2

/-- **C157 (partial)**: the speed is right, and the direction is that to which the wind blows, counter-clockwise
from east. -/
theorem C157_partial (w : ℂ) :
    gridSpeed w = (gridPolar w).1 ∧ (gridPolar w).1 ^ 2 = w.re ^ 2 + w.im ^ 2 ∧ 0 ≤ (gridPolar w).1
    ∧ w.re = (gridPolar w).1 * Real.cos ((gridPolar w).2 * Real.pi / 180)
    ∧ w.im = (gridPolar w).1 * Real.sin ((gridPolar w).2 * Real.pi / 180)
    ∧ -180 < (gridPolar w).2 ∧ (gridPolar w).2 ≤ 180 := by
  have hpi := Real.pi_pos
  have hang : (gridPolar w).2 * Real.pi / 180 = w.arg := by
    simp only [gridPolar]; field_simp
  have hn : ‖w‖ ^ 2 = w.re ^ 2 + w.im ^ 2 := by
    rw [← Complex.normSq_eq_norm_sq, Complex.normSq_apply]; ring
  refine ⟨?_, hn, norm_nonneg w, ?_, ?_, ?_, ?_⟩
  · simp only [gridSpeed, gridPolar]
    rw [← hn, Real.sqrt_sq (norm_nonneg w)]
  · rw [hang]; simp [gridPolar]
  · rw [hang]; simp [gridPolar]
  · simp only [gridPolar]
    rw [lt_div_iff₀ hpi]
    have := Complex.neg_pi_lt_arg w
    linarith
  · simp only [gridPolar]
    rw [div_le_iff₀ hpi]
    have := Complex.arg_le_pi w
    linarith

/-- Without ice and without a floor that is reached, ice changes nothing. -/
theorem C157_no_ice (w : ℂ) (h : 0 ≤ (gridPolar w).2) : icePolar 0 0 w = gridPolar w := by
  simp only [icePolar, sub_zero, one_mul]
  rw [max_eq_right (show (0 : ℝ) ≤ (gridPolar w).1 from norm_nonneg w), max_eq_right h]

/-- **C157 fails**: a wind of 1 m/s from the west has direction 0, not 270. -/
theorem C157_counterexample_west : gridPolar 1 = (1, 0) ∧ fromDir 1 0 = (0, -1) ∧ fromDir 1 270 = (1, 0) := by
  refine ⟨by simp [gridPolar], by simp [fromDir], ?_⟩
  have h : (270 : ℝ) * Real.pi / 180 = Real.pi + Real.pi / 2 := by ring
  simp only [fromDir, h]
  rw [Real.sin_add, Real.cos_add]
  simp

/-- **C157 fails**: half-way between water and ice the direction is halved: a wind to the north (90) is
reported at 45. -/
theorem C157_counterexample_ice : (gridPolar Complex.I).2 = 90 ∧ (icePolar 0 (1 / 2) Complex.I).2 = 45 := by
  have hpi := Real.pi_ne_zero
  have h : (gridPolar Complex.I).2 = 90 := by
    simp only [gridPolar, Complex.arg_I]; field_simp; norm_num
  refine ⟨h, ?_⟩
  simp only [icePolar, h]; norm_num

/-- **C157 fails**: every direction below zero is reported as zero, even without ice. -/
theorem C157_counterexample_south : (gridPolar (-Complex.I)).2 = -90 ∧ (icePolar 0 0 (-Complex.I)).2 = 0 := by
  have hpi := Real.pi_ne_zero
  have h : (gridPolar (-Complex.I)).2 = -90 := by
    simp only [gridPolar, Complex.arg_neg_I]; field_simp; norm_num
  refine ⟨h, ?_⟩
  simp only [icePolar, h]; norm_num

theorem C157_counterexample : ¬ C157_claim := by
  intro h
  have := (h 1).1
  rw [C157_counterexample_west.1, C157_counterexample_west.2.1] at this
  simp at this

/-! ## C158 -/

/-- The steady current of a speed (m/s) towards a direction (degrees clockwise from north). -/
def IsSteady (s : Steady) (speed dir : ℝ) : Prop :=
  s.speed = speed ∧ s.direction = dir ∧ s.u = speed * Real.sin (dir * Real.pi / 180)
    ∧ s.v = speed * Real.cos (dir * Real.pi / 180)

/-- The last speed and direction set. -/
def lastSet (speed dir : ℝ) : List Set_ → ℝ × ℝ
  | [] => (speed, dir)
  | .speed x :: l => lastSet x dir l
  | .direction x :: l => lastSet speed x l

/-- **C158, as stated**: after any changes, a steady current is that of its speed and direction, at every
point, in the unit asked for (`fac` metres per second). -/
def C158_claim : Prop :=
  ∀ (speed dir unit : ℝ) (sets : List Set_) (n dim : Nat) (fac : ℝ), 0 < fac → 2 ≤ dim →
    let s := sets.foldl Steady.set (mkSteady speed dir unit)
    let l := lastSet (unit * speed) dir sets
    IsSteady s l.1 l.2 ∧ ∀ row ∈ s.at_ n dim (some fac),
      fac * row.getD 0 0 = l.1 * Real.sin (l.2 * Real.pi / 180)
      ∧ fac * row.getD 1 0 = l.1 * Real.cos (l.2 * Real.pi / 180)

theorem setUV_steady (a b : ℝ) : IsSteady (setUV a b) a b := ⟨rfl, rfl, rfl, rfl⟩

theorem foldl_steady (sets : List Set_) (s : Steady) (a b : ℝ) (h : IsSteady s a b) :
    IsSteady (sets.foldl Steady.set s) (lastSet a b sets).1 (lastSet a b sets).2 := by
  induction sets generalizing s a b with
  | nil => exact h
  | cons x l ih =>
    cases x with
    | speed y =>
      simp only [List.foldl_cons, lastSet]
      apply ih
      simp only [Steady.set, h.2.1]
      exact setUV_steady y b
    | direction y =>
      simp only [List.foldl_cons, lastSet]
      apply ih
      simp only [Steady.set, h.1]
      exact setUV_steady a y

/-- **C158 (partial)**: everything but the unit: the answer is in metres per second. -/
theorem C158_partial (speed dir unit : ℝ) (sets : List Set_) (n dim : Nat) (units : Option ℝ) (hd : 2 ≤ dim) :
    let s := sets.foldl Steady.set (mkSteady speed dir unit)
    let l := lastSet (unit * speed) dir sets
    IsSteady s l.1 l.2 ∧ (s.at_ n dim units).length = n ∧ ∀ row ∈ s.at_ n dim units,
      row.length = dim ∧ row.getD 0 0 = l.1 * Real.sin (l.2 * Real.pi / 180)
      ∧ row.getD 1 0 = l.1 * Real.cos (l.2 * Real.pi / 180) ∧ ∀ i, 2 ≤ i → row.getD i 0 = 0 := by
  intro s l
  have h : IsSteady s l.1 l.2 := foldl_steady sets _ _ _ (setUV_steady _ _)
  refine ⟨h, by simp [Steady.at_], ?_⟩
  intro row hrow
  simp only [Steady.at_, List.mem_replicate] at hrow
  obtain ⟨_, rfl⟩ := hrow
  refine ⟨by simp; omega, by simpa using h.2.2.1, by simpa using h.2.2.2, ?_⟩
  intro i hi
  obtain ⟨j, rfl⟩ : ∃ j, i = j + 2 := ⟨i - 2, by omega⟩
  simp only [List.cons_append, List.nil_append, List.getD_cons_succ]
  by_cases hj : j < dim - 2 <;> simp [hj]

/-- The speed of the answer is that of the current. -/
theorem C158_speed (speed dir : ℝ) : (setUV speed dir).u ^ 2 + (setUV speed dir).v ^ 2 = speed ^ 2 := by
  simp only [setUV]
  have := Real.sin_sq_add_cos_sq (dir * Real.pi / 180)
  nlinarith [this]

/-- **C158 fails**: a current of 1 m/s to the north is 1 in every unit. -/
theorem C158_counterexample_units (fac : ℝ) : (mkSteady 1 0 1).at_ 1 2 (some fac) = [[0, 1]] := by
  simp [Steady.at_, mkSteady, setUV]

theorem C158_counterexample : ¬ C158_claim := by
  intro h
  have := (h 1 0 1 [] 1 2 2 (by norm_num) (by norm_num)).2 [0, 1] (by
    simp only [List.foldl_nil]
    rw [C158_counterexample_units]; simp)
  simp [lastSet] at this

/-- Non-trivial case: 2 m/s to the east after two changes. -/
example : lastSet 1 0 [.speed 2, .direction 90] = (2, 90) := rfl

end Verif.Fields
