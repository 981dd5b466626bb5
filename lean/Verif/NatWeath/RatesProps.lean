import Verif.NatWeath.Model
import Mathlib.Analysis.Convex.SpecificFunctions.Basic
import Mathlib.Analysis.Complex.ExponentialBounds
import Mathlib.Tactic.Linarith
import Mathlib.Tactic.Ring
import Mathlib.Tactic.FieldSimp

/-!
# C221, C222: wind and emulsions, seas and dispersion

The definitions of the code are those of `Verif.NatWeath.Model`; the history of an element is made of its steps, between which it gets older
(`py_gnome/gnome/model.py` 1138, at the end of a step; one weathering step in each).
-/
namespace Verif.NatWeath.Rates
open Verif.NatWeath

/-! ## C221 -/

/-- steps of emulsification: wind and length of each -/
noncomputable def history (m : Emul) (e : El) : List (ℝ × ℝ) → Option El
  | [] => some e
  | (U, dt) :: r => (emulEl m (kEmul U) dt e).bind (fun e' => history m { e' with age := e'.age + dt } r)

/-- an element whose emulsion begins now: by time 0, or as enough has evaporated -/
structure Begins (m : Emul) (e : El) : Prop where
  now : (m.hours = 0 ∧ 0 ≤ e.age) ∨ (m.hours < 0 ∧ 0 ≤ m.C ∧ m.C ≤ e.fracEvap)
  dry : e.surf = 0
  unset : e.bulltime < 0
  age : 0 ≤ e.age
  yMax : 0 < m.yMax ∧ m.yMax < 1

/-- **C221 in full**: in more wind, at all times, an emulsion has no less water -/
def C221_claim : Prop := ∀ (m : Emul) (e a b : El) (h : List (ℝ × ℝ × ℝ)), Begins m e → (∀ x ∈ h, 0 ≤ x.1 ∧ x.1 ≤ x.2.1 ∧ 0 ≤ x.2.2) →
  history m e (h.map (fun x => (x.1, x.2.2))) = some a → history m e (h.map (fun x => (x.2.1, x.2.2))) = some b → a.fracWater ≤ b.fracWater

theorem kEmul_eq (U : ℝ) : kEmul U = 1.212 * U ^ 2 := by
  unfold kEmul dropMax
  ring

theorem sMax_pos (m : Emul) (h : 0 < m.yMax ∧ m.yMax < 1) : 0 < sMax m := by
  unfold sMax dropMin
  have : 0 < 1 - m.yMax := by linarith [h.2]
  have := h.1
  positivity

/-- the fraction of water for an area -/
noncomputable def waterOf (m : Emul) (s : ℝ) : ℝ := if s < (6 / dropMax) * (m.yMax / (1 - m.yMax)) then s * dropMax / (6 + s * dropMax) else m.yMax

theorem waterOf_mono (m : Emul) (h : 0 < m.yMax ∧ m.yMax < 1) (s t : ℝ) (h0 : 0 ≤ s) (hst : s ≤ t) : waterOf m s ≤ waterOf m t := by
  have h1 : 0 < 1 - m.yMax := by linarith [h.2]
  have hd : (0 : ℝ) < dropMax := by unfold dropMax; norm_num
  have hs : 0 ≤ s * dropMax := mul_nonneg h0 hd.le
  unfold waterOf
  split_ifs with h2 h3
  · have ht : s * dropMax ≤ t * dropMax := mul_le_mul_of_nonneg_right hst hd.le
    rw [div_le_div_iff₀ (by linarith) (by linarith)]
    nlinarith
  · rw [div_le_iff₀ (by linarith)]
    have h4 : s * dropMax < 6 * (m.yMax / (1 - m.yMax)) := by
      have := mul_lt_mul_of_pos_right h2 hd
      have e : 6 / dropMax * (m.yMax / (1 - m.yMax)) * dropMax = 6 * (m.yMax / (1 - m.yMax)) := by field_simp
      rwa [e] at this
    have h5 : s * dropMax * (1 - m.yMax) < 6 * m.yMax := by
      have := mul_lt_mul_of_pos_right h4 h1
      have e : 6 * (m.yMax / (1 - m.yMax)) * (1 - m.yMax) = 6 * m.yMax := by field_simp
      rwa [e] at this
    nlinarith
  · linarith
  · exact le_refl _

theorem waterOf_nonneg (m : Emul) (h : 0 < m.yMax ∧ m.yMax < 1) (s : ℝ) (h0 : 0 ≤ s) : 0 ≤ waterOf m s := by
  have hd : (0 : ℝ) < dropMax := by unfold dropMax; norm_num
  unfold waterOf
  split_ifs
  · positivity
  · exact h.1.le

/-- an element some time after its emulsion began -/
structure Going (m : Emul) (e : El) (start : ℝ) : Prop where
  on : (m.hours = 0 ∧ 0 ≤ e.age) ∨ (m.hours < 0 ∧ 0 ≤ m.C ∧ m.C ≤ e.fracEvap)
  surf : 0 ≤ e.surf
  bull : e.bulltime = start ∨ (e.bulltime < 0 ∧ e.age = start)
  start0 : 0 ≤ start

/-- a step once it has begun -/
theorem emul_step (m : Emul) (hm : 0 < m.yMax ∧ m.yMax < 1) (e : El) (start k dt : ℝ) (h : Going m e start) (hk : 0 ≤ k) (hdt : 0 ≤ dt) :
    emulEl m k dt e = some { e with
      fracWater := waterOf m (min (e.surf + k * dt * Real.exp (-k / sMax m * (e.age - start))) (sMax m)),
      surf := min (e.surf + k * dt * Real.exp (-k / sMax m * (e.age - start))) (sMax m), bulltime := start } := by
  have hcond : (e.age ≥ (if m.hours > 0 then m.hours * 3600 else m.hours) ∧ (if m.hours > 0 then m.hours * 3600 else m.hours) ≥ 0) ∨
      ((e.fracEvap ≥ m.C ∧ m.C ≥ 0) ∧ (if m.hours > 0 then m.hours * 3600 else m.hours) < 0) := by
    rcases h.on with ⟨h1, h2⟩ | ⟨h1, h2, h3⟩
    · left; rw [h1]; simp; exact h2
    · right; rw [if_neg (by linarith)]; exact ⟨⟨h3, h2⟩, h1⟩
  have hne : ¬ (if m.hours > 0 then m.hours * 3600 else m.hours) > 0 := by
    rcases h.on with ⟨h1, _⟩ | ⟨h1, _⟩
    · rw [h1]; simp
    · rw [if_neg (by linarith)]; linarith
  have hbull : (if e.bulltime < 0 then (e.age, e.age) else (e.bulltime, e.bulltime)) = (start, start) := by
    rcases h.bull with h1 | ⟨h1, h2⟩
    · rw [if_neg (by rw [h1]; linarith [h.start0]), h1]
    · rw [if_pos h1, h2]
  have hmin : ∀ s : ℝ, (if s > sMax m then sMax m else s) = min s (sMax m) := by
    intro s
    split_ifs with hs
    · rw [min_eq_right hs.le]
    · rw [min_eq_left (by linarith)]
  have hs0 : 0 ≤ min (e.surf + k * dt * Real.exp (-k / sMax m * (e.age - start))) (sMax m) := by
    apply le_min
    · have := h.surf
      positivity
    · exact (sMax_pos m hm).le
  have hw := waterOf_nonneg m hm _ hs0
  unfold emulEl
  simp only
  rw [if_pos hcond, if_neg hne, hbull]
  simp only [hmin]
  have hy : (if min (e.surf + k * dt * Real.exp (-k / sMax m * (e.age - start))) (sMax m) < (6 / dropMax) * (m.yMax / (1 - m.yMax)) then
      min (e.surf + k * dt * Real.exp (-k / sMax m * (e.age - start))) (sMax m) * dropMax / (6 + min (e.surf + k * dt * Real.exp (-k / sMax m * (e.age - start))) (sMax m) * dropMax)
      else m.yMax) = waterOf m (min (e.surf + k * dt * Real.exp (-k / sMax m * (e.age - start))) (sMax m)) := rfl
  rw [hy, if_neg (by linarith)]

/-- what is added in n steps of a steady wind -/
noncomputable def added (k S dt : ℝ) (i : Nat) : Nat → ℝ
  | 0 => 0
  | n + 1 => k * dt * Real.exp (-k / S * (i * dt)) + added k S dt (i + 1) n

theorem min_min_add (s a b S : ℝ) (hb : 0 ≤ b) : min (min (s + a) S + b) S = min (s + (a + b)) S := by
  rcases le_total (s + a) S with h | h
  · rw [min_eq_left h]; congr 1; ring
  · rw [min_eq_right h, min_eq_right (by linarith), min_eq_right (by linarith)]

theorem added_nonneg (k S dt : ℝ) (hk : 0 ≤ k) (hdt : 0 ≤ dt) (n i : Nat) : 0 ≤ added k S dt i n := by
  induction n generalizing i with
  | zero => exact le_refl _
  | succ n ih =>
    have := ih (i + 1)
    unfold added
    positivity

/-- a steady wind, equal steps -/
theorem steady (m : Emul) (hm : 0 < m.yMax ∧ m.yMax < 1) (U dt : ℝ) (hdt : 0 ≤ dt) (n : Nat) (e : El) (i : Nat) (start : ℝ) (h : Going m e start) (hage : e.age = start + i * dt)
    (hS : e.surf ≤ sMax m) : ∃ a, history m e (List.replicate n (U, dt)) = some a ∧ a.surf = min (e.surf + added (kEmul U) (sMax m) dt i n) (sMax m) ∧
      (0 < n → a.fracWater = waterOf m a.surf) := by
  have hk : 0 ≤ kEmul U := by rw [kEmul_eq]; positivity
  induction n generalizing e i with
  | zero =>
    refine ⟨e, rfl, ?_, by intro h; omega⟩
    simp [added, min_eq_left hS]
  | succ n ih =>
    have hst := emul_step m hm e start (kEmul U) dt h hk hdt
    have hx : e.age - start = i * dt := by rw [hage]; ring
    rw [hx] at hst
    set s1 := min (e.surf + kEmul U * dt * Real.exp (-kEmul U / sMax m * (i * dt))) (sMax m) with hs1
    have hs10 : 0 ≤ s1 := by
      apply le_min _ (sMax_pos m hm).le
      have := h.surf
      positivity
    have hgo : Going m { e with fracWater := waterOf m s1, surf := s1, bulltime := start, age := e.age + dt } start := by
      refine ⟨?_, hs10, Or.inl rfl, h.start0⟩
      rcases h.on with ⟨h1, h2⟩ | h1
      · exact Or.inl ⟨h1, by simp only; linarith⟩
      · exact Or.inr h1
    obtain ⟨a, ha, hb, hc⟩ := ih { e with fracWater := waterOf m s1, surf := s1, bulltime := start, age := e.age + dt } (i + 1) hgo
      (by simp only; rw [hage]; push_cast; ring) (min_le_right _ _)
    refine ⟨a, ?_, ?_, ?_⟩
    · rw [List.replicate_succ, history, hst]
      exact ha
    · rw [hb]
      simp only [hs1]
      rw [min_min_add _ _ _ _ (added_nonneg _ _ _ hk hdt _ _)]
      rfl
    · intro _
      cases n with
      | zero =>
        simp only [List.replicate_zero, history, Option.some.injEq] at ha
        subst ha
        rfl
      | succ n => exact hc (by omega)

/-- the geometric sum -/
theorem added_closed (k S dt : ℝ) (n i : Nat) : added k S dt i n * (1 - Real.exp (-k / S * dt)) =
    k * dt * (Real.exp (-k / S * (i * dt)) - Real.exp (-k / S * ((i + n : Nat) * dt))) := by
  induction n generalizing i with
  | zero => simp [added]
  | succ n ih =>
    unfold added
    rw [add_mul, ih (i + 1)]
    have e1 : Real.exp (-k / S * (i * dt)) * Real.exp (-k / S * dt) = Real.exp (-k / S * ((i + 1 : Nat) * dt)) := by
      rw [← Real.exp_add]
      congr 1
      push_cast
      ring
    have e2 : (i + 1 + n : Nat) = (i + (n + 1) : Nat) := by omega
    rw [e2]
    have : k * dt * Real.exp (-k / S * (i * dt)) * (1 - Real.exp (-k / S * dt)) =
        k * dt * (Real.exp (-k / S * (i * dt)) - Real.exp (-k / S * ((i + 1 : Nat) * dt))) := by rw [← e1]; ring
    rw [this]
    ring

/-- the slope of `1 - exp (-x)` falls -/
theorem slope (x y : ℝ) (hx : 0 ≤ x) (hxy : x ≤ y) : x * (1 - Real.exp (-y)) ≤ y * (1 - Real.exp (-x)) := by
  rcases eq_or_lt_of_le (hx.trans hxy) with h0 | h0
  · have : x = 0 := by linarith
    subst this
    rw [← h0]
  have := convexOn_exp.2 (Set.mem_univ (-y)) (Set.mem_univ 0) (show 0 ≤ x / y by positivity) (show 0 ≤ 1 - x / y by
    rw [sub_nonneg, div_le_one h0]; exact hxy) (by ring)
  simp only [smul_eq_mul, mul_zero, add_zero, Real.exp_zero, mul_one] at this
  have e : x / y * -y = -x := by field_simp
  rw [e] at this
  have := mul_le_mul_of_nonneg_left this h0.le
  have e2 : y * (x / y * Real.exp (-y) + (1 - x / y)) = x * Real.exp (-y) + (y - x) := by field_simp
  rw [e2] at this
  linarith

/-- more wind adds no less -/
theorem added_mono (k k' S dt : ℝ) (hS : 0 < S) (hk : 0 ≤ k) (hkk : k ≤ k') (hdt : 0 ≤ dt) (n : Nat) : added k S dt 0 n ≤ added k' S dt 0 n := by
  rcases eq_or_lt_of_le hdt with h0 | h0
  · subst h0
    have hz : ∀ (k : ℝ) (n i : Nat), added k S 0 i n = 0 := by
      intro k n
      induction n with
      | zero => intro i; rfl
      | succ n ih => intro i; unfold added; rw [ih]; simp
    rw [hz, hz]
  rcases eq_or_lt_of_le hk with h1 | h1
  · subst h1
    have hz : ∀ (n i : Nat), added 0 S dt i n = 0 := by
      intro n
      induction n with
      | zero => intro i; rfl
      | succ n ih => intro i; unfold added; rw [ih]; simp
    rw [hz]
    exact added_nonneg _ _ _ (by linarith) hdt _ _
  have hx : 0 < k * dt / S := by positivity
  have hxy : k * dt / S ≤ k' * dt / S := by gcongr
  set x := k * dt / S with hxd
  set y := k' * dt / S with hyd
  have ex : -k / S * dt = -x := by rw [hxd]; ring
  have ey : -k' / S * dt = -y := by rw [hyd]; ring
  have c1 := added_closed k S dt n 0
  have c2 := added_closed k' S dt n 0
  have exn : -k / S * (((0 + n : Nat) : ℝ) * dt) = -(n * x) := by rw [hxd]; push_cast; ring
  have eyn : -k' / S * (((0 + n : Nat) : ℝ) * dt) = -(n * y) := by rw [hyd]; push_cast; ring
  rw [ex, exn] at c1
  rw [ey, eyn] at c2
  simp only [Nat.cast_zero, zero_mul, mul_zero, Real.exp_zero] at c1 c2
  have hpx : 0 < 1 - Real.exp (-x) := by have := Real.exp_lt_exp.mpr (show -x < 0 by linarith); rw [Real.exp_zero] at this; linarith
  have hpy : 0 < 1 - Real.exp (-y) := by have := Real.exp_lt_exp.mpr (show -y < 0 by linarith); rw [Real.exp_zero] at this; linarith
  have hkx : k * dt = S * x := by rw [hxd]; field_simp
  have hky : k' * dt = S * y := by rw [hyd]; field_simp
  rw [hkx] at c1
  rw [hky] at c2
  have hsl := slope x y hx.le hxy
  have hn : 1 - Real.exp (-(n * x)) ≤ 1 - Real.exp (-(n * y)) := by
    have : Real.exp (-(n * y)) ≤ Real.exp (-(n * x)) := Real.exp_le_exp.mpr (by
      have := mul_le_mul_of_nonneg_left hxy (Nat.cast_nonneg (α := ℝ) n)
      linarith)
    linarith
  have hn0 : 0 ≤ 1 - Real.exp (-(n * x)) := by
    have : Real.exp (-(n * x)) ≤ 1 := Real.exp_le_one_iff.mpr (by
      have := mul_nonneg (Nat.cast_nonneg (α := ℝ) n) hx.le
      linarith)
    linarith
  -- cross multiplied
  by_contra hc
  push Not at hc
  have h2 : added k' S dt 0 n * ((1 - Real.exp (-x)) * (1 - Real.exp (-y))) < added k S dt 0 n * ((1 - Real.exp (-x)) * (1 - Real.exp (-y))) :=
    mul_lt_mul_of_pos_right hc (mul_pos hpx hpy)
  have h3 : added k S dt 0 n * ((1 - Real.exp (-x)) * (1 - Real.exp (-y))) = S * x * (1 - Real.exp (-(n * x))) * (1 - Real.exp (-y)) := by
    rw [← mul_assoc, c1]
  have h4 : added k' S dt 0 n * ((1 - Real.exp (-x)) * (1 - Real.exp (-y))) = S * y * (1 - Real.exp (-(n * y))) * (1 - Real.exp (-x)) := by
    rw [mul_comm (1 - Real.exp (-x)), ← mul_assoc, c2]
  rw [h3, h4] at h2
  have h5 : x * (1 - Real.exp (-y)) * (1 - Real.exp (-(n * x))) ≤ y * (1 - Real.exp (-x)) * (1 - Real.exp (-(n * y))) :=
    mul_le_mul hsl hn hn0 (mul_nonneg (hx.le.trans hxy) hpx.le)
  have h6 := mul_le_mul_of_nonneg_left h5 hS.le
  nlinarith

/-- **C221 (partial)**: for steady winds and equal steps, at every step.
Missing for the full claim: winds that change, `C221_counterexample`. -/
theorem C221_partial (m : Emul) (e : El) (U U' dt : ℝ) (n : Nat) (h : Begins m e) (hU : 0 ≤ U) (hUU : U ≤ U') (hdt : 0 ≤ dt) (hn : 0 < n) :
    ∃ a b, history m e (List.replicate n (U, dt)) = some a ∧ history m e (List.replicate n (U', dt)) = some b ∧ a.fracWater ≤ b.fracWater := by
  have hg : Going m e e.age := ⟨h.now, by rw [h.dry], Or.inr ⟨h.unset, rfl⟩, h.age⟩
  have hS := sMax_pos m h.yMax
  obtain ⟨a, ha, ha2, ha3⟩ := steady m h.yMax U dt hdt n e 0 e.age hg (by simp) (by rw [h.dry]; exact hS.le)
  obtain ⟨b, hb, hb2, hb3⟩ := steady m h.yMax U' dt hdt n e 0 e.age hg (by simp) (by rw [h.dry]; exact hS.le)
  refine ⟨a, b, ha, hb, ?_⟩
  rw [ha3 hn, hb3 hn]
  have hk : kEmul U ≤ kEmul U' := by rw [kEmul_eq, kEmul_eq]; nlinarith
  have hk0 : 0 ≤ kEmul U := by rw [kEmul_eq]; positivity
  apply waterOf_mono m h.yMax
  · rw [ha2, h.dry]
    exact le_min (by have := added_nonneg (kEmul U) (sMax m) dt hk0 hdt n 0; linarith) hS.le
  · rw [ha2, hb2]
    have := added_mono (kEmul U) (kEmul U') (sMax m) dt hS hk0 hk hdt n
    exact min_le_min (by linarith) (le_refl _)

/-- and in a steady wind water is only added -/
theorem C221_grows (m : Emul) (e : El) (U dt : ℝ) (n : Nat) (h : Begins m e) (hdt : 0 ≤ dt) (hn : 0 < n) :
    ∃ a b, history m e (List.replicate n (U, dt)) = some a ∧ history m e (List.replicate (n + 1) (U, dt)) = some b ∧ a.fracWater ≤ b.fracWater ∧ b.fracWater ≤ m.yMax := by
  have hg : Going m e e.age := ⟨h.now, by rw [h.dry], Or.inr ⟨h.unset, rfl⟩, h.age⟩
  have hS := sMax_pos m h.yMax
  have hk0 : 0 ≤ kEmul U := by rw [kEmul_eq]; positivity
  obtain ⟨a, ha, ha2, ha3⟩ := steady m h.yMax U dt hdt n e 0 e.age hg (by simp) (by rw [h.dry]; exact hS.le)
  obtain ⟨b, hb, hb2, hb3⟩ := steady m h.yMax U dt hdt (n + 1) e 0 e.age hg (by simp) (by rw [h.dry]; exact hS.le)
  refine ⟨a, b, ha, hb, ?_, ?_⟩
  · rw [ha3 hn, hb3 (by omega)]
    have hsum : ∀ n i, added (kEmul U) (sMax m) dt i n ≤ added (kEmul U) (sMax m) dt i (n + 1) := by
      intro n
      induction n with
      | zero => intro i; exact added_nonneg _ _ _ hk0 hdt 1 i
      | succ n ih =>
        intro i
        have := ih (i + 1)
        rw [added, added]
        linarith
    apply waterOf_mono m h.yMax
    · rw [ha2, h.dry]
      exact le_min (by have := added_nonneg (kEmul U) (sMax m) dt hk0 hdt n 0; linarith) hS.le
    · rw [ha2, hb2]
      exact min_le_min (by linarith [hsum n 0]) (le_refl _)
  · rw [hb3 (by omega)]
    have hb0 : 0 ≤ b.surf := by
      rw [hb2, h.dry]
      exact le_min (by have := added_nonneg (kEmul U) (sMax m) dt hk0 hdt (n + 1) 0; linarith) hS.le
    have := waterOf_mono m h.yMax b.surf (max b.surf ((6 / dropMax) * (m.yMax / (1 - m.yMax)))) hb0 (le_max_left _ _)
    have e : waterOf m (max b.surf ((6 / dropMax) * (m.yMax / (1 - m.yMax)))) = m.yMax := by
      unfold waterOf
      rw [if_neg (not_lt.mpr (le_max_right _ _))]
    linarith

noncomputable def demoEl : El := ⟨(0, 0), [10], 10, 10, 0, 0, 100, 1, 900, 1, 0, 0, 0, 0, -1⟩
noncomputable def demoEmul : Emul := ⟨0, 0.1, 0.9⟩

theorem demo_begins : Begins demoEmul demoEl :=
  ⟨Or.inl ⟨rfl, by simp [demoEl]⟩, rfl, by simp [demoEl], by simp [demoEl], by simp [demoEmul]; norm_num⟩

theorem demo_history (U : ℝ) : ∃ a, history demoEmul demoEl [(0, 1000000), (U, 3600)] = some a ∧
    a.fracWater = waterOf demoEmul (min (kEmul U * 3600 * Real.exp (-kEmul U / sMax demoEmul * 1000000)) (sMax demoEmul)) := by
  have hm := demo_begins.yMax
  have hS := sMax_pos demoEmul hm
  have hg : Going demoEmul demoEl 0 := ⟨demo_begins.now, by simp [demoEl], Or.inr ⟨by simp [demoEl], rfl⟩, le_refl _⟩
  have h1 := emul_step demoEmul hm demoEl 0 (kEmul 0) 1000000 hg (by rw [kEmul_eq]; norm_num) (by norm_num)
  have hz : min (demoEl.surf + kEmul 0 * 1000000 * Real.exp (-kEmul 0 / sMax demoEmul * (demoEl.age - 0))) (sMax demoEmul) = 0 := by
    rw [kEmul_eq]
    simp [demoEl, hS.le]
  rw [hz] at h1
  have hg2 : Going demoEmul { demoEl with fracWater := waterOf demoEmul 0, surf := 0, bulltime := 0, age := demoEl.age + 1000000 } 0 :=
    ⟨Or.inl ⟨rfl, by simp [demoEl]⟩, le_refl _, Or.inl rfl, le_refl _⟩
  have h2 := emul_step demoEmul hm _ 0 (kEmul U) 3600 hg2 (by rw [kEmul_eq]; positivity) (by norm_num)
  have h3 : history demoEmul demoEl [(0, 1000000), (U, 3600)] =
      (emulEl demoEmul (kEmul U) 3600 { demoEl with fracWater := waterOf demoEmul 0, surf := 0, bulltime := 0, age := demoEl.age + 1000000 }).bind
        (fun e' => some { e' with age := e'.age + 3600 }) := by
    rw [history, h1]
    rfl
  rw [h2] at h3
  refine ⟨_, h3, ?_⟩
  simp only [demoEl, zero_add, sub_zero]

/-- eleven days of calm, then one hour of wind: in a gale the emulsion has less water than in a breeze -/
theorem C221_counterexample : ¬ C221_claim := by
  intro h
  obtain ⟨a, ha, ha2⟩ := demo_history 10
  obtain ⟨b, hb, hb2⟩ := demo_history 20
  have := h demoEmul demoEl a b [(0, 0, 1000000), (10, 20, 3600)] demo_begins
    (by intro x hx; simp only [List.mem_cons, List.not_mem_nil, or_false] at hx; rcases hx with rfl | rfl <;> norm_num) ha hb
  have hS : sMax demoEmul = 54000000 := by unfold sMax dropMin demoEmul; norm_num
  rw [ha2, hb2, hS, kEmul_eq, kEmul_eq] at this
  -- bounds for the two exponentials
  have e1 : Real.exp (-3) ≤ Real.exp (-(1.212 * (10 : ℝ) ^ 2) / 54000000 * 1000000) := Real.exp_le_exp.mpr (by norm_num)
  have e2 : Real.exp (-(1.212 * (20 : ℝ) ^ 2) / 54000000 * 1000000) ≤ Real.exp (-8) := Real.exp_le_exp.mpr (by norm_num)
  have e1' : Real.exp (-(1.212 * (10 : ℝ) ^ 2) / 54000000 * 1000000) ≤ 1 := Real.exp_le_one_iff.mpr (by norm_num)
  have l1 : Real.exp 1 < 2.7182818286 := Real.exp_one_lt_d9
  have l2 : 2.7182818283 < Real.exp 1 := Real.exp_one_gt_d9
  have p3 : (1 : ℝ) / 21 ≤ Real.exp (-3) := by
    rw [Real.exp_neg, one_div]
    apply inv_anti₀ (Real.exp_pos _)
    rw [show (3 : ℝ) = ((3 : ℕ) : ℝ) * 1 by norm_num, Real.exp_nat_mul]
    calc Real.exp 1 ^ 3 ≤ 2.7182818286 ^ 3 := pow_le_pow_left₀ (Real.exp_pos _).le l1.le 3
      _ ≤ 21 := by norm_num
  have p8 : Real.exp (-8) ≤ 1 / 2500 := by
    rw [Real.exp_neg, one_div]
    apply inv_anti₀ (by norm_num)
    rw [show (8 : ℝ) = ((8 : ℕ) : ℝ) * 1 by norm_num, Real.exp_nat_mul]
    calc (2500 : ℝ) ≤ 2.7182818283 ^ 8 := by norm_num
      _ ≤ Real.exp 1 ^ 8 := pow_le_pow_left₀ (by norm_num) l2.le 8
  set x := Real.exp (-(1.212 * (10 : ℝ) ^ 2) / 54000000 * 1000000) with hx
  set y := Real.exp (-(1.212 * (20 : ℝ) ^ 2) / 54000000 * 1000000) with hy
  have hy0 : 0 < y := Real.exp_pos _
  have hthr : (6 / dropMax) * (demoEmul.yMax / (1 - demoEmul.yMax)) = 5400000 := by unfold dropMax demoEmul; norm_num
  have m1 : min (1.212 * (10 : ℝ) ^ 2 * 3600 * x) 54000000 = 1.212 * (10 : ℝ) ^ 2 * 3600 * x := min_eq_left (by nlinarith)
  have m2 : min (1.212 * (20 : ℝ) ^ 2 * 3600 * y) 54000000 = 1.212 * (20 : ℝ) ^ 2 * 3600 * y := min_eq_left (by nlinarith)
  rw [m1, m2] at this
  unfold waterOf at this
  rw [hthr, if_pos (by nlinarith), if_pos (by nlinarith), div_le_div_iff₀ (by unfold dropMax; nlinarith) (by unfold dropMax; nlinarith)] at this
  unfold dropMax at this
  nlinarith

/-! ## C222 -/

/-- what dispersion and sedimentation take together -/
theorem cap_sum (d s m : ℝ) : (cap d s m).1 + (cap d s m).2 = min (d + s) m := by
  unfold cap
  split_ifs with h
  · rw [min_eq_right h.le]; ring
  · rw [min_eq_left (by linarith)]

theorem roy_anti (v v' : ℝ) (h : v ≤ v') : roy v' ≤ roy v := by
  unfold roy
  have := Real.exp_le_exp.mpr (show -73.682 * √v' ≤ -73.682 * √v by have := Real.sqrt_le_sqrt h; linarith)
  linarith

theorem roy_pos (v : ℝ) : 0 < roy v := by unfold roy; positivity

/-- a sea, rougher at every place, with no higher waves: more of them break, with more energy -/
structure Rougher (w w' : Sea) : Prop where
  height : w'.height = w.height
  visc : w'.viscW = w.viscW
  rho : w'.rhoW = w.rhoW
  sed : w.sediment ≤ w'.sediment ∧ 0 ≤ w.sediment
  energy : ∀ p, 0 ≤ w.energy p ∧ w.energy p ≤ w'.energy p
  breaking : ∀ p, 0 ≤ w.breaking p ∧ w.breaking p ≤ w'.breaking p
  pos : 0 < w.viscW ∧ 0 < w.rhoW ∧ ∀ p, 0 ≤ w.height p

/-- an element as it is in a run -/
structure Fine (w : Sea) (e : El) : Prop where
  area : 0 ≤ e.area
  water : 0 ≤ e.fracWater ∧ e.fracWater < 1
  mass : 0 ≤ e.mass
  density : 0 < e.density ∧ e.density ≤ w.rhoW
  visc : 0 ≤ e.viscosity

theorem thickness_nonneg (w : Sea) (e : El) (h : Fine w e) : 0 ≤ thickness e := by
  unfold thickness
  have := h.mass
  have := h.density.1
  have : 0 < 1 - e.fracWater := by linarith [h.water.2]
  split_ifs with ha
  · positivity
  · exact le_refl _

theorem qSed_mono (w w' : Sea) (dt : ℝ) (e e' : El) (hr : Rougher w w') (h : Fine w e) (hdt : 0 ≤ dt) (he : ∃ v, v ≤ e.viscosity ∧ 0 ≤ v ∧ e' = { e with viscosity := v }) :
    qSed w dt e ≤ qSed w' dt e' ∧ 0 ≤ qSed w dt e := by
  obtain ⟨v, hv, hv0, rfl⟩ := he
  have ht : thickness { e with viscosity := v } = thickness e := rfl
  have h1 : riseSpeed w' { e with viscosity := v } = riseSpeed w e := by
    unfold riseSpeed
    rw [ht, hr.rho, hr.visc]
  have hrise : 0 ≤ riseSpeed w e := by
    unfold riseSpeed
    have h2 : 0 ≤ 1 - e.density / w.rhoW := by
      rw [sub_nonneg, div_le_one hr.pos.2.1]
      exact h.density.2
    have := hr.pos.1
    have := thickness_nonneg w e h
    positivity
  unfold qSed
  simp only
  rw [h1, ht, hr.height, hr.visc, hr.rho]
  have hH := hr.pos.2.2 e.pos
  have hE := hr.energy e.pos
  have hB := hr.breaking e.pos
  have hA := h.area
  have hmu := hr.pos.1
  have hrho := hr.pos.2.1
  have hsed := hr.sed
  have hroy := roy_anti v e.viscosity hv
  have hroy0 := roy_pos e.viscosity
  have hE' : w.energy e.pos ^ (0.57 : ℝ) ≤ w'.energy e.pos ^ (0.57 : ℝ) := Real.rpow_le_rpow hE.1 hE.2 (by norm_num)
  have hE0 : 0 ≤ w.energy e.pos ^ (0.57 : ℝ) := Real.rpow_nonneg hE.1 _
  have hB' : 0 ≤ w'.breaking e.pos := le_trans hB.1 hB.2
  have hE2' : 0 ≤ w'.energy e.pos := le_trans hE.1 hE.2
  have hc : cDisp w e.pos ≤ cDisp w' e.pos := by
    unfold cDisp
    exact mul_le_mul hE' hB.2 hB.1 (hE0.trans hE')
  have hc0 : 0 ≤ cDisp w e.pos := mul_nonneg hE0 hB.1
  set vr := (if 0.588 * (thickness e ^ (1.7 : ℝ) - 5.0e-8) < 0 then (0 : ℝ) else 0.588 * (thickness e ^ (1.7 : ℝ) - 5.0e-8)) with hvr
  have hvr0 : 0 ≤ vr := by
    rw [hvr]
    split_ifs with hh
    · exact le_refl _
    · linarith
  have hden : 0 ≤ riseSpeed w e * dt + 1.5 * w.height e.pos := by positivity
  have hroyv : 0 ≤ roy v := (roy_pos v).le
  have hcw0 : 0 ≤ cDisp w' e.pos := hc0.trans hc
  have hE1 := hE.1
  have hE2 := hE.2
  have hB1 := hB.1
  have hB2 := hB.2
  have hs1 := hr.sed.1
  have hs2 := hr.sed.2
  constructor
  · gcongr
  · have := hr.sed.2
    positivity

/-- **C222, dispersion**: in a rougher sea with no less sediment, of less viscous oil, no less is taken by dispersion and sedimentation together (method of Delvigne and Sweeney) -/
theorem C222_rougher (w w' : Sea) (dt : ℝ) (e : El) (v : ℝ) (hr : Rougher w w') (h : Fine w e) (hdt : 0 ≤ dt) (hv : 0 ≤ v ∧ v ≤ e.viscosity) :
    (dsEl w dt e).1 + (dsEl w dt e).2 ≤ (dsEl w' dt { e with viscosity := v }).1 + (dsEl w' dt { e with viscosity := v }).2 := by
  have hlt : ¬ e.fracWater ≥ 1 := by linarith [h.water.2]
  have hlt' : ¬ ({ e with viscosity := v } : El).fracWater ≥ 1 := hlt
  unfold dsEl
  rw [if_neg hlt, if_neg hlt']
  simp only
  rw [cap_sum, cap_sum]
  have hq := qSed_mono w w' dt e { e with viscosity := v } hr h hdt ⟨v, hv.2, hv.1, rfl⟩
  have ht : thickness { e with viscosity := v } = thickness e := rfl
  rw [ht]
  have hw1 : 0 ≤ 1 - e.fracWater := by linarith [h.water.2]
  have hroy := roy_anti v e.viscosity hv.2
  have hroy0 := roy_pos e.viscosity
  have hE := hr.energy e.pos
  have hB := hr.breaking e.pos
  have hA := h.area
  have hE' : w.energy e.pos ^ (0.57 : ℝ) ≤ w'.energy e.pos ^ (0.57 : ℝ) := Real.rpow_le_rpow hE.1 hE.2 (by norm_num)
  have hE0 : 0 ≤ w.energy e.pos ^ (0.57 : ℝ) := Real.rpow_nonneg hE.1 _
  have hc : cDisp w e.pos ≤ cDisp w' e.pos := by
    unfold cDisp
    exact mul_le_mul hE' hB.2 hB.1 (hE0.trans hE')
  have hc0 : 0 ≤ cDisp w e.pos := mul_nonneg hE0 hB.1
  have hroyv : 0 ≤ roy v := (roy_pos v).le
  apply min_le_min _ (le_refl _)
  apply add_le_add
  · gcongr
  · have h0 : 0 ≤ (1 - e.fracWater) * qSed w' dt { e with viscosity := v } * dt := mul_nonneg (mul_nonneg hw1 (hq.2.trans hq.1)) hdt
    split_ifs with a b b
    · have := hq.1
      gcongr
    · exact absurd ⟨lt_of_lt_of_le a.1 hr.sed.1, a.2⟩ b
    · exact h0
    · exact le_refl _

/-- without sediment in the water: dispersion alone -/
theorem C222_noSediment (w w' : Sea) (dt : ℝ) (e : El) (v : ℝ) (hr : Rougher w w') (h : Fine w e) (hdt : 0 ≤ dt) (hv : 0 ≤ v ∧ v ≤ e.viscosity) (hs : w.sediment = 0) (hs' : w'.sediment = 0) :
    (dsEl w dt e).1 ≤ (dsEl w' dt { e with viscosity := v }).1 := by
  have hlt : ¬ e.fracWater ≥ 1 := by linarith [h.water.2]
  have hz : ∀ (w : Sea) (e : El), w.sediment = 0 → ¬ e.fracWater ≥ 1 → 0 ≤ e.mass → (dsEl w dt e).2 = 0 := by
    intro w e hs hlt hm
    unfold dsEl
    rw [if_neg hlt]
    simp only
    rw [if_neg (by rw [hs]; simp)]
    unfold cap
    split_ifs with hc
    · simp only [add_zero] at hc ⊢
      rw [div_self (by linarith)]
      ring
    · rfl
  have := C222_rougher w w' dt e v hr h hdt hv
  rw [hz w e hs hlt h.mass, hz w' { e with viscosity := v } hs' hlt h.mass] at this
  linarith

/-- **C222, biodegradation**: in smaller droplets every component loses no less -/
theorem C222_droplets (o : List Comp) (e : El) (d : ℝ) (hd : 0 < d ∧ d ≤ e.droplet) (hrho : 0 < e.density) (hm : ∀ m ∈ e.comps, 0 ≤ m) (hK : ∀ p ∈ o, 0 ≤ p.K) (i : Nat) (a b : ℝ)
    (ha : (bioEl o (1 / (e.droplet * e.density)) e).comps[i]? = some a) (hb : (bioEl o (1 / (d * e.density)) { e with droplet := d }).comps[i]? = some b) : b ≤ a := by
  unfold bioEl El.withComps at ha hb
  simp only [List.getElem?_zipWith] at ha hb
  cases hc : e.comps[i]? with
  | none => simp [hc] at ha
  | some m =>
    cases ho : o[i]? with
    | none => simp [hc, ho] at ha
    | some p =>
      simp only [hc, ho, Option.some.injEq] at ha hb
      subst ha hb
      have hm0 := hm m (List.mem_of_getElem? hc)
      have hK0 := hK p (List.mem_of_getElem? ho)
      apply mul_le_mul_of_nonneg_left _ hm0
      apply Real.exp_le_exp.mpr
      have h1 : 1 / (e.droplet * e.density) ≤ 1 / (d * e.density) := one_div_le_one_div_of_le (by have := hd.1; positivity) (by
        apply mul_le_mul_of_nonneg_right hd.2 hrho.le)
      nlinarith

noncomputable def demoSea : Sea := ⟨fun _ => 1, fun _ => 100, fun _ => 0.01, 1e-6, 1025, 0.005⟩
noncomputable def roughSea : Sea := ⟨fun _ => 1, fun _ => 200, fun _ => 0.02, 1e-6, 1025, 0.01⟩

example : Rougher demoSea roughSea :=
  ⟨rfl, rfl, rfl, by simp only [demoSea, roughSea]; norm_num, by intro p; simp only [demoSea, roughSea]; norm_num, by intro p; simp only [demoSea, roughSea]; norm_num,
   by simp only [demoSea]; norm_num⟩

example : Fine demoSea demoEl := ⟨by simp [demoEl], by simp [demoEl], by simp [demoEl], by simp [demoEl, demoSea]; norm_num, by simp [demoEl]⟩

end Verif.NatWeath.Rates
