import Verif.Oil.ViscModel
import Mathlib.Tactic.Linarith
import Mathlib.Tactic.Ring
import Mathlib.Tactic.FieldSimp
import Mathlib.Tactic.Positivity
import Mathlib.Analysis.Complex.ExponentialBounds
/-!
# C122: the viscosity of an oil at a temperature
-/
namespace Verif.Oil

/-- sum of squared residuals of the line `a + k x` -/
noncomputable def sq (ps : List (ℝ × ℝ)) (a k : ℝ) : ℝ := (ps.map (fun p => (p.2 - a - k * p.1) ^ 2)).sum

/-- what is asked of `np.linalg.lstsq`: no other line has a smaller sum of squares -/
def IsFit (fit : List (ℝ × ℝ) → ℝ × ℝ) : Prop := ∀ ps a k, sq ps (fit ps).1 (fit ps).2 ≤ sq ps a k

theorem sq_nonneg' (ps : List (ℝ × ℝ)) (a k : ℝ) : 0 ≤ sq ps a k := by
  unfold sq
  apply List.sum_nonneg
  intro x hx
  obtain ⟨p, _, rfl⟩ := List.mem_map.1 hx
  positivity

theorem sq_zero {ps : List (ℝ × ℝ)} {a k : ℝ} (h : sq ps a k = 0) : ∀ p ∈ ps, p.2 = a + k * p.1 := by
  induction ps with
  | nil => simp
  | cons q ps ih =>
    have e : sq (q :: ps) a k = (q.2 - a - k * q.1) ^ 2 + sq ps a k := by simp [sq]
    have h1 := sq_nonneg' ps a k
    have h2 : 0 ≤ (q.2 - a - k * q.1) ^ 2 := by positivity
    intro p hp
    rcases List.mem_cons.1 hp with rfl | hp
    · have : (p.2 - a - k * p.1) ^ 2 = 0 := by linarith
      have := pow_eq_zero_iff (two_ne_zero) |>.1 this
      linarith
    · exact ih (by linarith) p hp

theorem sq_of_line {ps : List (ℝ × ℝ)} {a k : ℝ} (h : ∀ p ∈ ps, p.2 = a + k * p.1) : sq ps a k = 0 := by
  induction ps with
  | nil => simp [sq]
  | cons q ps ih =>
    have e : sq (q :: ps) a k = (q.2 - a - k * q.1) ^ 2 + sq ps a k := by simp [sq]
    rw [e, ih (fun p hp => h p (by simp [hp])), h q (by simp)]
    ring

/-- Points on a line with two different abscissas are fitted by that line. -/
theorem fit_line {fit : List (ℝ × ℝ) → ℝ × ℝ} (hf : IsFit fit) {ps : List (ℝ × ℝ)} {a k : ℝ}
    (h : ∀ p ∈ ps, p.2 = a + k * p.1) {p q : ℝ × ℝ} (hp : p ∈ ps) (hq : q ∈ ps) (hne : p.1 ≠ q.1) : fit ps = (a, k) := by
  have h0 : sq ps (fit ps).1 (fit ps).2 = 0 :=
    le_antisymm ((hf ps a k).trans (sq_of_line h).le) (sq_nonneg' _ _ _)
  have e1 := sq_zero h0 p hp
  have e2 := sq_zero h0 q hq
  have e3 := h p hp
  have e4 := h q hq
  have hk : ((fit ps).2 - k) * (p.1 - q.1) = 0 := by linarith
  have hk' : (fit ps).2 = k := by
    rcases mul_eq_zero.1 hk with h | h
    · linarith
    · exact absurd (by linarith) hne
  have ha : (fit ps).1 = a := by
    rw [hk'] at e1
    linarith
  exact Prod.ext ha hk'

/-! ### normal equations -/

noncomputable def sumOf (f : ℝ × ℝ → ℝ) (ps : List (ℝ × ℝ)) : ℝ := (ps.map f).sum

theorem sumOf_cons (f : ℝ × ℝ → ℝ) (p : ℝ × ℝ) (ps : List (ℝ × ℝ)) : sumOf f (p :: ps) = f p + sumOf f ps := by
  simp [sumOf]

theorem sq_shift_a (ps : List (ℝ × ℝ)) (a k s : ℝ) :
    sq ps (a + s) k = sq ps a k - 2 * s * sumOf (fun p => p.2 - a - k * p.1) ps + s ^ 2 * ps.length := by
  induction ps with
  | nil => simp [sq, sumOf]
  | cons q ps ih =>
    have e : ∀ a k, sq (q :: ps) a k = (q.2 - a - k * q.1) ^ 2 + sq ps a k := by intro a k; simp [sq]
    rw [e, e, ih, sumOf_cons, List.length_cons]
    push_cast
    ring

theorem sq_shift_k (ps : List (ℝ × ℝ)) (a k s : ℝ) :
    sq ps a (k + s) = sq ps a k - 2 * s * sumOf (fun p => (p.2 - a - k * p.1) * p.1) ps + s ^ 2 * sumOf (fun p => p.1 ^ 2) ps := by
  induction ps with
  | nil => simp [sq, sumOf]
  | cons q ps ih =>
    have e : ∀ a k, sq (q :: ps) a k = (q.2 - a - k * q.1) ^ 2 + sq ps a k := by intro a k; simp [sq]
    rw [e, e, ih, sumOf_cons, sumOf_cons]
    ring

theorem quad_zero {b c : ℝ} (hc : 0 ≤ c) (h : ∀ s : ℝ, 0 ≤ s ^ 2 * c - 2 * s * b) : b = 0 := by
  have h1 := h (b / (c + 1))
  have hc1 : (0 : ℝ) < c + 1 := by linarith
  have e : (b / (c + 1)) ^ 2 * c - 2 * (b / (c + 1)) * b = -(b ^ 2 * (c + 2)) / (c + 1) ^ 2 := by
    field_simp
    ring
  rw [e] at h1
  have h2 : 0 ≤ -(b ^ 2 * (c + 2)) := by
    by_contra hn
    push Not at hn
    have := div_neg_of_neg_of_pos hn (show (0 : ℝ) < (c + 1) ^ 2 by positivity)
    linarith
  have h3 : b ^ 2 * (c + 2) ≤ 0 := by linarith
  have h4 : b ^ 2 ≤ 0 := by
    by_contra hn
    push Not at hn
    have := mul_pos hn (show (0 : ℝ) < c + 2 by linarith)
    linarith
  exact pow_eq_zero_iff (two_ne_zero) |>.1 (le_antisymm h4 (by positivity))

theorem normal_eqs {ps : List (ℝ × ℝ)} {a k : ℝ} (h : ∀ a' k', sq ps a k ≤ sq ps a' k') :
    sumOf (fun p => p.2 - a - k * p.1) ps = 0 ∧ sumOf (fun p => (p.2 - a - k * p.1) * p.1) ps = 0 := by
  constructor
  · apply quad_zero (c := (ps.length : ℝ)) (by positivity)
    intro s
    have := h (a + s) k
    rw [sq_shift_a] at this
    linarith
  · apply quad_zero (c := sumOf (fun p => p.1 ^ 2) ps)
    · apply List.sum_nonneg
      intro x hx
      obtain ⟨p, _, rfl⟩ := List.mem_map.1 hx
      positivity
    · intro s
      have := h a (k + s)
      rw [sq_shift_k] at this
      linarith

theorem cross_inner (r x : ℝ × ℝ → ℝ) (c d : ℝ) (ps : List (ℝ × ℝ)) :
    sumOf (fun q => (c - r q) * (d - x q)) ps =
      ps.length * (c * d) - c * sumOf x ps - d * sumOf r ps + sumOf (fun q => r q * x q) ps := by
  induction ps with
  | nil => simp [sumOf]
  | cons q ps ih =>
    rw [sumOf_cons, sumOf_cons, sumOf_cons, sumOf_cons, ih, List.length_cons]
    push_cast
    ring

theorem cross_outer (r x : ℝ × ℝ → ℝ) (n X R W : ℝ) (ps : List (ℝ × ℝ)) :
    sumOf (fun p => n * (r p * x p) - r p * X - x p * R + W) ps =
      n * sumOf (fun p => r p * x p) ps - X * sumOf r ps - R * sumOf x ps + ps.length * W := by
  induction ps with
  | nil => simp [sumOf]
  | cons q ps ih =>
    rw [sumOf_cons, sumOf_cons, sumOf_cons, sumOf_cons, ih, List.length_cons]
    push_cast
    ring

/-- the sum over pairs of products of differences -/
theorem cross (r x : ℝ × ℝ → ℝ) (ps : List (ℝ × ℝ)) :
    sumOf (fun p => sumOf (fun q => (r p - r q) * (x p - x q)) ps) ps =
      2 * (ps.length * sumOf (fun p => r p * x p) ps - sumOf r ps * sumOf x ps) := by
  have : (fun p => sumOf (fun q => (r p - r q) * (x p - x q)) ps) =
      fun p => (ps.length : ℝ) * (r p * x p) - r p * sumOf x ps - x p * sumOf r ps + sumOf (fun q => r q * x q) ps := by
    funext p
    rw [cross_inner]
  rw [this, cross_outer]
  ring

theorem sumOf_pos_of_mem {f : ℝ × ℝ → ℝ} {ps : List (ℝ × ℝ)} (h : ∀ p ∈ ps, 0 ≤ f p) {q : ℝ × ℝ} (hq : q ∈ ps)
    (hf : 0 < f q) : 0 < sumOf f ps := by
  induction ps with
  | nil => cases hq
  | cons a ps ih =>
    rw [sumOf_cons]
    have h2 : 0 ≤ sumOf f ps := by
      apply List.sum_nonneg
      intro x hx
      obtain ⟨p, hp, rfl⟩ := List.mem_map.1 hx
      exact h p (by simp [hp])
    rcases List.mem_cons.1 hq with rfl | hq
    · linarith
    · have := ih (fun p hp => h p (by simp [hp])) hq
      have := h a (by simp)
      linarith

/-- Points that do not fall are fitted by a line that does not fall. -/
theorem slope_nonneg {fit : List (ℝ × ℝ) → ℝ × ℝ} (hf : IsFit fit) {ps : List (ℝ × ℝ)}
    (hm : ∀ p ∈ ps, ∀ q ∈ ps, p.1 ≤ q.1 → p.2 ≤ q.2) {p q : ℝ × ℝ} (hp : p ∈ ps) (hq : q ∈ ps) (hne : p.1 ≠ q.1) :
    0 ≤ (fit ps).2 := by
  by_contra hk
  push Not at hk
  set a := (fit ps).1
  set k := (fit ps).2
  obtain ⟨e1, e2⟩ := normal_eqs (hf ps)
  have hc := cross (fun p => p.2 - a - k * p.1) (fun p => p.1) ps
  rw [e1, e2] at hc
  have hpair : ∀ p ∈ ps, ∀ q ∈ ps, 0 ≤ ((p.2 - a - k * p.1) - (q.2 - a - k * q.1)) * (p.1 - q.1) ∧
      (p.1 ≠ q.1 → 0 < ((p.2 - a - k * p.1) - (q.2 - a - k * q.1)) * (p.1 - q.1)) := by
    intro p hp q hq
    have hy : 0 ≤ (p.2 - q.2) * (p.1 - q.1) := by
      rcases le_total p.1 q.1 with h | h
      · exact mul_nonneg_of_nonpos_of_nonpos (by linarith [hm p hp q hq h]) (by linarith)
      · exact mul_nonneg (by linarith [hm q hq p hp h]) (by linarith)
    have e : ((p.2 - a - k * p.1) - (q.2 - a - k * q.1)) * (p.1 - q.1) =
        (p.2 - q.2) * (p.1 - q.1) + (-k) * (p.1 - q.1) ^ 2 := by ring
    rw [e]
    refine ⟨?_, fun h => ?_⟩
    · have : 0 ≤ (-k) * (p.1 - q.1) ^ 2 := mul_nonneg (by linarith) (by positivity)
      linarith
    · have : 0 < (-k) * (p.1 - q.1) ^ 2 := mul_pos (by linarith) (by
        have : p.1 - q.1 ≠ 0 := sub_ne_zero.2 h
        positivity)
      linarith
  have hin : ∀ p ∈ ps, 0 ≤ sumOf (fun q => ((p.2 - a - k * p.1) - (q.2 - a - k * q.1)) * (p.1 - q.1)) ps := by
    intro p hp
    apply List.sum_nonneg
    intro x hx
    obtain ⟨q, hq, rfl⟩ := List.mem_map.1 hx
    exact (hpair p hp q hq).1
  have := sumOf_pos_of_mem hin hp (sumOf_pos_of_mem (fun q hq => (hpair p hp q hq).1) hq ((hpair p hp q hq).2 hne))
  rw [hc] at this
  simp at this

/-- Lines of least squares exist for any points: the condition `IsFit` can be met. -/
theorem exists_fit : ∃ fit, IsFit fit := by
  have key : ∀ ps : List (ℝ × ℝ), ∃ ak : ℝ × ℝ, ∀ a k, sq ps ak.1 ak.2 ≤ sq ps a k := by
    intro ps
    have gen : ∀ a k a' k', sq ps a' k' = sq ps a k
        - 2 * (a' - a) * sumOf (fun p => p.2 - a - k * p.1) ps
        - 2 * (k' - k) * sumOf (fun p => (p.2 - a - k * p.1) * p.1) ps
        + sumOf (fun p => ((a' - a) + (k' - k) * p.1) ^ 2) ps := by
      intro a k a' k'
      induction ps with
      | nil => simp [sq, sumOf]
      | cons q ps ih =>
        have e : ∀ a k, sq (q :: ps) a k = (q.2 - a - k * q.1) ^ 2 + sq ps a k := by intro a k; simp [sq]
        rw [e, e, sumOf_cons, sumOf_cons, sumOf_cons, ih]
        ring
    have suff : ∀ a k, sumOf (fun p => p.2 - a - k * p.1) ps = 0 →
        sumOf (fun p => (p.2 - a - k * p.1) * p.1) ps = 0 → ∃ ak : ℝ × ℝ, ∀ a k, sq ps ak.1 ak.2 ≤ sq ps a k := by
      intro a k h1 h2
      refine ⟨(a, k), fun a' k' => ?_⟩
      rw [gen a k a' k', h1, h2]
      have : 0 ≤ sumOf (fun p => ((a' - a) + (k' - k) * p.1) ^ 2) ps := by
        apply List.sum_nonneg
        intro x hx
        obtain ⟨p, _, rfl⟩ := List.mem_map.1 hx
        positivity
      simp only
      linarith
    have r1 : ∀ a k, sumOf (fun p => p.2 - a - k * p.1) ps =
        sumOf (fun p => p.2) ps - ps.length * a - k * sumOf (fun p => p.1) ps := by
      intro a k
      clear suff gen
      induction ps with
      | nil => simp [sumOf]
      | cons q ps ih => rw [sumOf_cons, sumOf_cons, sumOf_cons, ih, List.length_cons]; push_cast; ring
    have r2 : ∀ a k, sumOf (fun p => (p.2 - a - k * p.1) * p.1) ps =
        sumOf (fun p => p.1 * p.2) ps - a * sumOf (fun p => p.1) ps - k * sumOf (fun p => p.1 * p.1) ps := by
      intro a k
      clear suff gen r1
      induction ps with
      | nil => simp [sumOf]
      | cons q ps ih => rw [sumOf_cons, sumOf_cons, sumOf_cons, sumOf_cons, ih]; ring
    by_cases hps : ps = []
    · subst hps
      exact suff 0 0 (by simp [sumOf]) (by simp [sumOf])
    have hn : (0 : ℝ) < ps.length := by
      have := List.length_pos_iff.2 hps
      exact_mod_cast this
    have hc := cross (fun p => p.1) (fun p => p.1) ps
    set n : ℝ := (ps.length : ℝ)
    set X := sumOf (fun p => p.1) ps
    set Y := sumOf (fun p => p.2) ps
    set XX := sumOf (fun p => p.1 * p.1) ps
    set XY := sumOf (fun p => p.1 * p.2) ps
    by_cases hD : n * XX - X * X = 0
    · -- all abscissas equal
      have hz : ∀ p ∈ ps, ∀ q ∈ ps, p.1 = q.1 := by
        intro p hp q hq
        by_contra hne
        have hpos : ∀ p ∈ ps, ∀ q ∈ ps, 0 ≤ (p.1 - q.1) * (p.1 - q.1) := fun p _ q _ => mul_self_nonneg _
        have hin : ∀ p ∈ ps, 0 ≤ sumOf (fun q : ℝ × ℝ => (p.1 - q.1) * (p.1 - q.1)) ps := by
          intro p hp
          apply List.sum_nonneg
          intro x hx
          obtain ⟨q, hq, rfl⟩ := List.mem_map.1 hx
          exact hpos p hp q hq
        have := sumOf_pos_of_mem hin hp (sumOf_pos_of_mem (hpos p hp) hq
          (mul_self_pos.2 (sub_ne_zero.2 hne)))
        rw [hc, hD] at this
        simp at this
      obtain ⟨p0, hp0⟩ := List.exists_mem_of_ne_nil ps hps
      have hX : sumOf (fun p => (p.2 - Y / n - 0 * p.1) * p.1) ps =
          p0.1 * sumOf (fun p => p.2 - Y / n - 0 * p.1) ps := by
        unfold sumOf
        rw [← List.sum_map_mul_left]
        congr 1
        apply List.map_congr_left
        intro p hp
        rw [hz p hp p0 hp0]
        ring
      have h0 : sumOf (fun p => p.2 - Y / n - 0 * p.1) ps = 0 := by
        rw [r1]
        field_simp
        ring
      exact suff (Y / n) 0 h0 (by rw [hX, h0, mul_zero])
    · refine suff ((Y - (n * XY - X * Y) / (n * XX - X * X) * X) / n) ((n * XY - X * Y) / (n * XX - X * X)) ?_ ?_
      · rw [r1]
        field_simp
        ring
      · have hk : (n * XY - X * Y) / (n * XX - X * X) * (n * XX - X * X) = n * XY - X * Y := div_mul_cancel₀ _ hD
        rw [r2]
        generalize (n * XY - X * Y) / (n * XX - X * X) = k at hk
        field_simp
        linarith
  choose f hf using key
  exact ⟨f, hf⟩

/-! ### C122 -/

/-- measurements that make sense: positive viscosities at positive temperatures -/
def Sound (ms : List VMeas) : Prop := ∀ m ∈ ms, 0 < m.v ∧ 0 < m.temp

/-- Two oils or not: asking twice gives the same, and asking does not change the answers at other temperatures. -/
theorem C122_stable (fit : List (ℝ × ℝ) → ℝ × ℝ) (o : VOil) (T T' : ℝ) :
    (kvisAt fit (kvisAt fit o T).1 T').2 = (kvisAt fit o T').2 := by
  unfold kvisAt
  cases o.consts <;> rfl

theorem mem_freshV {ms : List VMeas} {m : VMeas} : m ∈ freshV ms ↔ m ∈ ms ∧ m.weath = 0 := by
  unfold freshV
  simp [List.mem_filter]

/-- Oil measured once has the measured viscosity at that temperature. -/
theorem C122_one (fit : List (ℝ × ℝ) → ℝ × ℝ) (ms : List VMeas) (m : VMeas) (h : freshV ms = [m]) :
    (kvisAt fit (newOil ms) m.temp).2 = m.v := by
  unfold kvisAt newOil determine
  simp only [h]
  rw [mul_assoc, ← Real.exp_add, ← add_div]
  simp

theorem kvis_fit (fit : List (ℝ × ℝ) → ℝ × ℝ) (ms : List VMeas) {a b : VMeas} (ha : a ∈ freshV ms) (hb : b ∈ freshV ms)
    (hne : a.temp ≠ b.temp) (T : ℝ) :
    (kvisAt fit (newOil ms) T).2 = Real.exp ((fit (pts (freshV ms))).1 + (fit (pts (freshV ms))).2 / T) := by
  unfold kvisAt newOil determine
  rw [Real.exp_add]
  rcases h : freshV ms with _ | ⟨m, _ | ⟨m', l⟩⟩
  · rw [h] at ha
  · rw [h] at ha hb
    simp only [List.mem_singleton] at ha hb
    exact absurd (by rw [ha, hb]) hne
  · simp only

theorem inv_ne {a b : VMeas} (hne : a.temp ≠ b.temp) : 1 / a.temp ≠ 1 / b.temp := by
  intro h
  apply hne
  rw [one_div, one_div] at h
  exact inv_injective h

/-- Oil whose viscosities (two or more temperatures) lie on a curve `A exp (k / T)` has that viscosity at every temperature. -/
theorem C122_curve {fit : List (ℝ × ℝ) → ℝ × ℝ} (hf : IsFit fit) (ms : List VMeas) (A k : ℝ) (hA : 0 < A)
    (h : ∀ m ∈ ms, m.weath = 0 → m.v = A * Real.exp (k / m.temp)) (a b : VMeas) (ha : a ∈ ms) (hb : b ∈ ms)
    (wa : a.weath = 0) (wb : b.weath = 0) (hne : a.temp ≠ b.temp) (T : ℝ) :
    (kvisAt fit (newOil ms) T).2 = A * Real.exp (k / T) := by
  have ha' := mem_freshV.2 ⟨ha, wa⟩
  have hb' := mem_freshV.2 ⟨hb, wb⟩
  rw [kvis_fit fit ms ha' hb' hne]
  have hl : ∀ p ∈ pts (freshV ms), p.2 = Real.log A + k * p.1 := by
    intro p hp
    obtain ⟨m, hm, rfl⟩ := List.mem_map.1 hp
    have hm := mem_freshV.1 hm
    simp only
    rw [h m hm.1 hm.2, Real.log_mul hA.ne' (Real.exp_pos _).ne', Real.log_exp]
    ring
  have e := fit_line hf hl (List.mem_map.2 ⟨a, ha', rfl⟩) (List.mem_map.2 ⟨b, hb', rfl⟩) (inv_ne hne)
  rw [e, Real.exp_add, Real.exp_log hA]

/-- Oil measured at two temperatures has the measured viscosities there. -/
theorem C122_two {fit : List (ℝ × ℝ) → ℝ × ℝ} (hf : IsFit fit) (ms : List VMeas) (hs : Sound ms) (a b : VMeas)
    (h : freshV ms = [a, b]) (hne : a.temp ≠ b.temp) :
    (kvisAt fit (newOil ms) a.temp).2 = a.v ∧ (kvisAt fit (newOil ms) b.temp).2 = b.v := by
  have ha : a ∈ freshV ms := by rw [h]; simp
  have hb : b ∈ freshV ms := by rw [h]; simp
  have pa := hs a (mem_freshV.1 ha).1
  have pb := hs b (mem_freshV.1 hb).1
  have hd : 1 / a.temp - 1 / b.temp ≠ 0 := sub_ne_zero.2 (inv_ne hne)
  set k := (Real.log a.v - Real.log b.v) / (1 / a.temp - 1 / b.temp)
  set c := Real.log a.v - k * (1 / a.temp)
  have hk : k * (1 / a.temp - 1 / b.temp) = Real.log a.v - Real.log b.v := div_mul_cancel₀ _ hd
  have hl : ∀ p ∈ pts (freshV ms), p.2 = c + k * p.1 := by
    intro p hp
    rw [h] at hp
    simp only [pts, List.map_cons, List.map_nil, List.mem_cons, List.not_mem_nil, or_false] at hp
    rcases hp with rfl | rfl
    · simp only [c]; ring
    · simp only [c]; linarith
  have e := fit_line hf hl (List.mem_map.2 ⟨a, ha, rfl⟩) (List.mem_map.2 ⟨b, hb, rfl⟩) (inv_ne hne)
  rw [kvis_fit fit ms ha hb hne, kvis_fit fit ms ha hb hne, e]
  constructor
  · have : c + k / a.temp = Real.log a.v := by simp only [c]; ring
    simp only [this]
    exact Real.exp_log pa.1
  · have : c + k / b.temp = Real.log b.v := by
      have : k / b.temp = k * (1 / b.temp) := by ring
      rw [this]
      simp only [c]
      linarith
    simp only [this]
    exact Real.exp_log pb.1

/-- The viscosity is positive at every temperature. -/
theorem C122_positive (fit : List (ℝ × ℝ) → ℝ × ℝ) (ms : List VMeas) (hs : Sound ms) (T : ℝ) :
    0 < (kvisAt fit (newOil ms) T).2 := by
  unfold kvisAt newOil determine
  rcases h : freshV ms with _ | ⟨m, _ | ⟨m', l⟩⟩
  · simp only; positivity
  · have hm : m ∈ freshV ms := by rw [h]; simp
    have := (hs m (mem_freshV.1 hm).1).1
    simp only
    positivity
  · simp only; positivity

/-- If warmer measured oil is not more viscous, warmer oil is not more viscous at any temperatures (in Kelvin). -/
theorem C122_falls {fit : List (ℝ × ℝ) → ℝ × ℝ} (hf : IsFit fit) (ms : List VMeas) (hs : Sound ms)
    (hm : ∀ a ∈ ms, ∀ b ∈ ms, a.weath = 0 → b.weath = 0 → a.temp ≤ b.temp → b.v ≤ a.v)
    (hone : (∃ m, freshV ms = [m]) ∨ ∃ a ∈ ms, ∃ b ∈ ms, a.weath = 0 ∧ b.weath = 0 ∧ a.temp ≠ b.temp)
    {T T' : ℝ} (h0 : 0 < T) (h : T ≤ T') : (kvisAt fit (newOil ms) T').2 ≤ (kvisAt fit (newOil ms) T).2 := by
  rcases hone with ⟨m, e⟩ | ⟨a, ha, b, hb, wa, wb, hne⟩
  · have hm' : m ∈ freshV ms := by rw [e]; simp
    have hv := (hs m (mem_freshV.1 hm').1).1
    unfold kvisAt newOil determine
    simp only [e]
    apply mul_le_mul_of_nonneg_left _ (by positivity)
    apply Real.exp_le_exp.2
    exact div_le_div_of_nonneg_left (by norm_num) h0 h
  · have ha' := mem_freshV.2 ⟨ha, wa⟩
    have hb' := mem_freshV.2 ⟨hb, wb⟩
    rw [kvis_fit fit ms ha' hb' hne, kvis_fit fit ms ha' hb' hne]
    have hk : 0 ≤ (fit (pts (freshV ms))).2 := by
      refine slope_nonneg hf ?_ (List.mem_map.2 ⟨a, ha', rfl⟩) (List.mem_map.2 ⟨b, hb', rfl⟩) (inv_ne hne)
      intro p hp q hq hpq
      obtain ⟨x, hx, rfl⟩ := List.mem_map.1 hp
      obtain ⟨y, hy, rfl⟩ := List.mem_map.1 hq
      have hx := mem_freshV.1 hx
      have hy := mem_freshV.1 hy
      simp only at hpq ⊢
      have hxy : y.temp ≤ x.temp := (one_div_le_one_div (hs x hx.1).2 (hs y hy.1).2).1 hpq
      exact Real.log_le_log (hs x hx.1).1 (hm y hy.1 x hx.1 hy.2 hx.2 hxy)
    apply Real.exp_le_exp.2
    have := div_le_div_of_nonneg_left hk h0 h
    linarith

/-- Whatever way the least squares are solved, the viscosity is the same. -/
theorem C122_unique {fit fit' : List (ℝ × ℝ) → ℝ × ℝ} (hf : IsFit fit) (hf' : IsFit fit') (ms : List VMeas)
    (a b : VMeas) (ha : a ∈ ms) (hb : b ∈ ms) (wa : a.weath = 0) (wb : b.weath = 0) (hne : a.temp ≠ b.temp) (T : ℝ) :
    (kvisAt fit (newOil ms) T).2 = (kvisAt fit' (newOil ms) T).2 := by
  have ha' := mem_freshV.2 ⟨ha, wa⟩
  have hb' := mem_freshV.2 ⟨hb, wb⟩
  rw [kvis_fit fit ms ha' hb' hne, kvis_fit fit' ms ha' hb' hne]
  set ps := pts (freshV ms)
  set f := fit ps
  set f' := fit' ps
  obtain ⟨e1, e2⟩ := normal_eqs (hf ps)
  have gen : sq ps f'.1 f'.2 = sq ps f.1 f.2
        - 2 * (f'.1 - f.1) * sumOf (fun p => p.2 - f.1 - f.2 * p.1) ps
        - 2 * (f'.2 - f.2) * sumOf (fun p => (p.2 - f.1 - f.2 * p.1) * p.1) ps
        + sq (ps.map (fun p => (p.1, 0))) (-(f'.1 - f.1)) (-(f'.2 - f.2)) := by
    generalize f'.1 = a'
    generalize f'.2 = k'
    generalize f.1 = a
    generalize f.2 = k
    generalize ps = ps
    induction ps with
    | nil => simp [sq, sumOf]
    | cons q ps ih =>
      have e : ∀ a k, sq (q :: ps) a k = (q.2 - a - k * q.1) ^ 2 + sq ps a k := by intro a k; simp [sq]
      have e' : ∀ a k, sq ((q :: ps).map (fun p => (p.1, (0 : ℝ)))) a k =
          (0 - a - k * q.1) ^ 2 + sq (ps.map (fun p => (p.1, 0))) a k := by intro a k; simp [sq]
      rw [e, e, e', sumOf_cons, sumOf_cons, ih]
      ring
  rw [e1, e2] at gen
  have hz : sq (ps.map (fun p => (p.1, (0 : ℝ)))) (-(f'.1 - f.1)) (-(f'.2 - f.2)) = 0 :=
    le_antisymm (by linarith [hf' ps f.1 f.2]) (sq_nonneg' _ _ _)
  have z := sq_zero hz
  have za := z (1 / a.temp, 0) (List.mem_map.2 ⟨_, List.mem_map.2 ⟨a, ha', rfl⟩, rfl⟩)
  have zb := z (1 / b.temp, 0) (List.mem_map.2 ⟨_, List.mem_map.2 ⟨b, hb', rfl⟩, rfl⟩)
  simp only at za zb
  have hk : (f'.2 - f.2) * (1 / a.temp - 1 / b.temp) = 0 := by linarith
  have hk' : f'.2 = f.2 := by
    rcases mul_eq_zero.1 hk with h | h
    · linarith
    · exact absurd (by linarith) (inv_ne hne)
  have h1 : f'.1 = f.1 := by
    rw [hk'] at za
    simp at za
    linarith
  rw [h1, hk']

/-- the full claim: the viscosity is that of the measurements the oil has now -/
def C122_claim : Prop := ∀ fit, IsFit fit → ∀ (o : VOil) (T T' : ℝ) (ms : List VMeas), o.consts = none → Sound ms → 0 < T →
  0 < T' → (kvisAt fit (setMeas (kvisAt fit o T).1 ms) T').2 = (kvisAt fit (newOil ms) T').2

/-- False: once the viscosity has been asked for, new measurements are not taken into account. -/
theorem C122_counterexample : ¬ C122_claim := by
  intro h
  obtain ⟨fit, hf⟩ := exists_fit
  have := h fit hf (newOil [⟨1, 300, 0⟩]) 300 300 [⟨2, 300, 0⟩] rfl (by intro m hm; simp at hm; subst hm; norm_num)
    (by norm_num) (by norm_num)
  have e1 := C122_one fit [⟨2, 300, 0⟩] ⟨2, 300, 0⟩ (by simp [freshV])
  have e2 := C122_one fit [⟨1, 300, 0⟩] ⟨1, 300, 0⟩ (by simp [freshV])
  have e3 : (kvisAt fit (setMeas (kvisAt fit (newOil [⟨1, 300, 0⟩]) 300).1 [⟨2, 300, 0⟩]) 300).2 =
      (kvisAt fit (newOil [⟨1, 300, 0⟩]) 300).2 := rfl
  simp only at e1 e2
  rw [e3, e1, e2] at this
  norm_num at this

/-- What holds: a new oil has the viscosities it was made with. -/
theorem C122_viscosity_partial {fit : List (ℝ × ℝ) → ℝ × ℝ} (hf : IsFit fit) (ms : List VMeas) (hs : Sound ms) :
    (∀ m, freshV ms = [m] → (kvisAt fit (newOil ms) m.temp).2 = m.v) ∧
    (∀ a b, freshV ms = [a, b] → a.temp ≠ b.temp →
      (kvisAt fit (newOil ms) a.temp).2 = a.v ∧ (kvisAt fit (newOil ms) b.temp).2 = b.v) ∧
    (∀ T, 0 < (kvisAt fit (newOil ms) T).2) ∧
    (∀ T T', (kvisAt fit (kvisAt fit (newOil ms) T).1 T').2 = (kvisAt fit (newOil ms) T').2) :=
  ⟨C122_one fit ms, C122_two hf ms hs, C122_positive fit ms hs, C122_stable fit (newOil ms)⟩

/-! concrete cases -/
example : ∃ fit, IsFit fit ∧ (kvisAt fit (newOil [⟨2, 280, 0⟩, ⟨1, 300, 0⟩, ⟨9, 280, 0.1⟩]) 280).2 = 2 := by
  obtain ⟨fit, hf⟩ := exists_fit
  refine ⟨fit, hf, (C122_two hf _ ?_ ⟨2, 280, 0⟩ ⟨1, 300, 0⟩ (by norm_num [freshV]) (by norm_num)).1⟩
  intro m hm
  simp only [List.mem_cons, List.not_mem_nil, or_false] at hm
  rcases hm with rfl | rfl | rfl <;> norm_num

end Verif.Oil
