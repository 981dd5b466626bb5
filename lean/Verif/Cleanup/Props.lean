import Verif.Cleanup.Model
import Mathlib.Tactic.Ring
import Mathlib.Tactic.Linarith
import Mathlib.Tactic.FieldSimp
/-
Properties C34-C38, C50, C51: response operations and manual beaching.
-/
namespace Verif.Cleanup

/-! ### C34: active duration -/

/-- Length of the common part of `[a, b]` and `[c, d]`. -/
def common (a b c d : ℚ) : ℚ := max 0 (min b d - max a c)

/-- The two range ends fall strictly inside of the same step. -/
def insideStep (r : Range) (t dt : ℚ) : Prop := t < r.start ∧ r.stop < t + dt

instance (r : Range) (t dt : ℚ) : Decidable (insideStep r t dt) := by
  unfold insideStep; infer_instance

/-- In each step the duration used is the common part of step and active range,
except that the part of the step before the start is added when the whole
range lies strictly inside of the step. -/
theorem C34_one_step (r : Range) (t dt : ℚ) (hr : r.start ≤ r.stop) (hdt : 0 < dt) :
    worked r t dt = common r.start r.stop t (t + dt) +
      (if insideStep r t dt then r.start - t else 0) := by
  unfold worked active timestep common
  simp only [decide_eq_true_eq, gt_iff_lt]
  rcases le_total r.stop (t + dt) with h1 | h1 <;> rcases le_total r.start t with h2 | h2
  · rw [min_eq_left h1, max_eq_right h2, if_neg (show ¬ insideStep r t dt from fun h => absurd h.1 (not_lt.2 h2)),
      if_neg (not_lt.2 h2)]
    by_cases h3 : t < r.stop
    · rw [if_pos ⟨by linarith, h3⟩, max_eq_right (by linarith)]
      by_cases h4 : r.stop < t + dt
      · rw [if_pos h4]; ring
      · rw [if_neg h4]; have : r.stop = t + dt := le_antisymm h1 (not_lt.1 h4); rw [this]; ring
    · rw [if_neg (fun h => h3 h.2), max_eq_left (by linarith)]; ring
  · rw [min_eq_left h1, max_eq_left h2, max_eq_right (by linarith)]
    by_cases h4 : r.stop < t + dt
    · rw [if_pos h4]
      by_cases h5 : t < r.start
      · rw [if_pos ⟨by linarith, by linarith⟩, if_pos (show insideStep r t dt from ⟨h5, h4⟩)]; ring
      · have h6 : r.start = t := le_antisymm (not_lt.1 h5) h2
        rw [if_neg (show ¬ insideStep r t dt from fun h => h5 h.1)]
        by_cases h7 : t < r.stop
        · rw [if_pos ⟨by linarith, h7⟩, h6]; ring
        · rw [if_neg (fun h => h7 h.2)]; linarith
    · have h6 : r.stop = t + dt := le_antisymm h1 (not_lt.1 h4)
      rw [if_neg h4, if_neg (show ¬ insideStep r t dt from fun h => h4 h.2)]
      by_cases h7 : r.start < t + dt
      · rw [if_pos ⟨h7, by linarith⟩]
        by_cases h5 : t < r.start
        · rw [if_pos h5, h6]; ring
        · have h8 : r.start = t := le_antisymm (not_lt.1 h5) h2
          rw [if_neg h5, h6, h8]; ring
      · rw [if_neg (fun h => h7 h.1)]; linarith
  · rw [min_eq_right h1, max_eq_right h2, max_eq_right (by linarith),
      if_neg (show ¬ insideStep r t dt from fun h => absurd h.1 (not_lt.2 h2)), if_neg (not_lt.2 h1),
      if_neg (not_lt.2 h2), if_pos ⟨by linarith, by linarith⟩]
    ring
  · rw [min_eq_right h1, max_eq_left h2, if_neg (show ¬ insideStep r t dt from fun h => absurd h.2 (not_lt.2 h1)),
      if_neg (not_lt.2 h1)]
    by_cases h3 : r.start < t + dt
    · rw [if_pos ⟨h3, by linarith⟩, max_eq_right (by linarith)]
      by_cases h5 : t < r.start
      · rw [if_pos h5]; ring
      · rw [if_neg h5]; have : r.start = t := le_antisymm (not_lt.1 h5) h2; rw [this]; ring
    · rw [if_neg (fun h => h3 h.1), max_eq_left (by linarith)]; ring

theorem common_split (a b c d e : ℚ) (hab : a ≤ b) (h1 : c ≤ d) (h2 : d ≤ e) :
    common a b c d + common a b d e = common a b c e := by
  unfold common
  rcases le_total b d with h3 | h3 <;> rcases le_total a d with h4 | h4
  · rw [min_eq_left h3, min_eq_left (le_trans h3 h2), max_eq_right h4,
      max_eq_left (show b - d ≤ 0 by linarith)]; ring
  · have : b = d := le_antisymm h3 (le_trans h4 hab)
    have : a = d := le_antisymm (by linarith) h4
    subst this
    subst b
    rw [min_eq_left (le_refl _), min_eq_left h2, max_eq_left h1, max_eq_left (le_refl a)]
    simp
  · rw [min_eq_right h3, max_eq_right h4]
    have hm : 0 ≤ min b e - d := by
      have := le_min h3 h2; linarith
    have hM : 0 ≤ d - max a c := by
      have := max_le h4 h1; linarith
    rw [max_eq_right hm, max_eq_right hM,
      max_eq_right (show (0 : ℚ) ≤ min b e - max a c by linarith)]; ring
  · rw [min_eq_right h3, max_eq_left h4, max_eq_left (le_trans h1 h4),
      max_eq_left (show d - a ≤ 0 by linarith)]; ring

/-- Over any number of consecutive steps the durations add up to the common
part of the active range and the simulated period, provided that no step
strictly contains the whole active range. Missing for the full claim: short
operations inside of one step, for which it is false. -/
theorem C34_duration_partial (r : Range) (t0 dt : ℚ) (hr : r.start ≤ r.stop) (hdt : 0 < dt)
    (n : Nat) (h : ∀ k < n, ¬ insideStep r (t0 + k * dt) dt) :
    workedTotal r t0 dt n = common r.start r.stop t0 (t0 + n * dt) := by
  induction n with
  | zero =>
    unfold workedTotal common
    simp only [Nat.cast_zero, zero_mul, add_zero]
    rw [max_eq_left]
    have h1 := min_le_right r.stop t0
    have h2 := le_max_right r.start t0
    linarith
  | succ n ih =>
    unfold workedTotal
    rw [ih (fun k hk => h k (Nat.lt_succ_of_lt hk)), C34_one_step r _ _ hr hdt,
      if_neg (h n (Nat.lt_succ_self n)), add_zero]
    have e : t0 + (n : ℚ) * dt + dt = t0 + ((n + 1 : Nat) : ℚ) * dt := by push_cast; ring
    rw [e]
    apply common_split _ _ _ _ _ hr
    · have : (0 : ℚ) ≤ n * dt := mul_nonneg (Nat.cast_nonneg n) hdt.le
      linarith
    · push_cast; linarith

/-- Hence an operation whose range is covered by the run works for exactly
`stop - start`, and at the rate `amount / (stop - start)` handles exactly the
amount. -/
theorem C34_amount_partial (r : Range) (t0 dt amount : ℚ) (hr : r.start < r.stop) (hdt : 0 < dt)
    (n : Nat) (h : ∀ k < n, ¬ insideStep r (t0 + k * dt) dt)
    (h0 : t0 ≤ r.start) (h1 : r.stop ≤ t0 + n * dt) :
    workedTotal r t0 dt n = r.stop - r.start ∧
    amount / (r.stop - r.start) * workedTotal r t0 dt n = amount := by
  have e : workedTotal r t0 dt n = r.stop - r.start := by
    rw [C34_duration_partial r t0 dt hr.le hdt n h]
    unfold common
    rw [min_eq_left h1, max_eq_left h0, max_eq_right (by linarith)]
  refine ⟨e, ?_⟩
  rw [e]
  have : r.stop - r.start ≠ 0 := by linarith
  field_simp

/-- An operation from second 600 to second 1200, in steps of 900 s from 0: it
works for 600 s, as it should; one from 600 to 800, inside of the first step,
works for 800 s instead of 200 s and so handles four times its amount. -/
theorem C34_counterexample :
    workedTotal ⟨600, 1200⟩ 0 900 2 = 600 ∧
    workedTotal ⟨600, 800⟩ 0 900 2 = 800 ∧
    (∀ (amount : ℚ), amount / (800 - 600) * workedTotal ⟨600, 800⟩ 0 900 2 = 4 * amount) := by
  have e : workedTotal ⟨600, 800⟩ 0 900 2 = 800 := by decide +kernel
  refine ⟨by decide +kernel, e, fun amount => ?_⟩
  rw [e]; ring

example : ∀ k < 2, ¬ insideStep ⟨600, 1200⟩ ((0 : ℚ) + (k : Nat) * 900) 900 := by
  intro k hk
  rcases k with _ | _ | k
  · decide +kernel
  · decide +kernel
  · omega

/-! ### C35: marking -/

theorem sum_pos' (l : List ℚ) (h : ∀ x ∈ l, 0 < x) (hne : l ≠ []) : 0 < l.sum := by
  have h0 : ∀ l : List ℚ, (∀ x ∈ l, 0 < x) → 0 ≤ l.sum := by
    intro l
    induction l with
    | nil => intro _; simp
    | cons a l ih =>
      intro h
      have h1 := h a (List.mem_cons_self)
      have h2 := ih (fun x hx => h x (List.mem_cons_of_mem _ hx))
      rw [List.sum_cons]; linarith
  cases l with
  | nil => exact absurd rfl hne
  | cons a l =>
    have h1 := h a (List.mem_cons_self)
    have h2 := h0 l (fun x hx => h x (List.mem_cons_of_mem _ hx))
    rw [List.sum_cons]; linarith

theorem relabel_spec (new : Nat) (es : List El) : ∀ (n : Nat),
    (relabel new n es).length = es.length ∧
    ∀ (i : Nat) (e : El), es[i]? = some e →
      (relabel new n es)[i]? = some
        (if sel surfaceWeather e = true ∧ (es.take i).countP (sel surfaceWeather) < n
          then { e with fate := new } else e) := by
  induction es with
  | nil => intro n; simp [relabel]
  | cons a es ih =>
    intro n
    unfold relabel
    by_cases ha : sel surfaceWeather a = true
    · rw [if_pos ha]
      cases n with
      | zero =>
        refine ⟨by simp [(ih 0).1], ?_⟩
        intro i e he
        cases i with
        | zero => simp at he; subst he; simp
        | succ i =>
          have := (ih 0).2 i e (by simpa using he)
          simpa using this
      | succ n =>
        refine ⟨by simp [(ih n).1], ?_⟩
        intro i e he
        cases i with
        | zero => simp at he; subst he; simp [ha]
        | succ i =>
          have := (ih n).2 i e (by simpa using he)
          rw [List.getElem?_cons_succ, this, List.take_succ_cons, List.countP_cons_of_pos ha]
          simp only [Nat.add_lt_add_iff_right]
    · rw [if_neg ha]
      refine ⟨by simp [(ih n).1], ?_⟩
      intro i e he
      cases i with
      | zero => simp at he; subst he; simp [ha]
      | succ i =>
        have := (ih n).2 i e (by simpa using he)
        rw [List.getElem?_cons_succ, this, List.take_succ_cons, List.countP_cons_of_neg ha]

theorem cumsum_length (l : List ℚ) : ∀ acc, (cumsum acc l).length = l.length := by
  induction l with
  | nil => intro acc; rfl
  | cons x xs ih => intro acc; simp [cumsum, ih]

theorem cumsum_get (l : List ℚ) : ∀ (acc : ℚ) (i : Nat), i < l.length →
    (cumsum acc l)[i]? = some (acc + (l.take (i + 1)).sum) := by
  induction l with
  | nil => intro acc i h; simp at h
  | cons x xs ih =>
    intro acc i h
    cases i with
    | zero => simp [cumsum]
    | succ i =>
      simp only [cumsum, List.getElem?_cons_succ]
      rw [ih (acc + x) i (by simpa using h)]
      simp [add_assoc]

/-- The first `n` available elements, and no others, got the new fate. -/
def MarkedPrefix (new n : Nat) (es out : List El) : Prop :=
  out.length = es.length ∧
  ∀ (i : Nat) (e : El), es[i]? = some e →
    out[i]? = some (if sel surfaceWeather e = true ∧
        (es.take i).countP (sel surfaceWeather) < n then { e with fate := new } else e)

/-- Marking for a positive target: a prefix of the available elements gets the
mark; it holds the target or is everything; no shorter prefix holds the
target. Missing for the full claim: a target of zero. -/
theorem C35_marking_partial (mix : Bool) (new : Nat) (target : ℚ) (es : List El)
    (hfw : ∀ e ∈ es, e.fw < 1) (ht : 0 < target) :
    ∃ out n, mark mix new target es = some out ∧ MarkedPrefix new n es out ∧
      (target ≤ (((es.filter (sel surfaceWeather)).take n).map (curr mix)).sum ∨
        (n = (es.filter (sel surfaceWeather)).length ∧
          ((es.filter (sel surfaceWeather)).map (curr mix)).sum < target)) ∧
      ∀ m < n, (((es.filter (sel surfaceWeather)).take m).map (curr mix)).sum < target := by
  have hpos : ∀ e ∈ es.filter (sel surfaceWeather), 0 < curr mix e := by
    intro e he
    rw [List.mem_filter] at he
    have h1 := hfw e he.1
    have h2 : 0 < e.mass := by
      have := he.2
      unfold sel at this
      simp only [Bool.and_eq_true, decide_eq_true_eq] at this
      exact this.2
    unfold curr
    split
    · exact div_pos h2 (by linarith)
    · exact h2
  generalize hv : es.filter (sel surfaceWeather) = v at *
  unfold mark
  rw [hv]
  simp only [List.length_map]
  have hlt : ∀ m < v.length, ((v.take m).map (curr mix)).sum < (v.map (curr mix)).sum := by
    intro m hm
    have e : v = v.take m ++ v.drop m := (List.take_append_drop m v).symm
    conv_rhs => rw [e, List.map_append, List.sum_append]
    have hne : (v.drop m).map (curr mix) ≠ [] := by
      simp [List.drop_eq_nil_iff, hm]
    have : 0 < ((v.drop m).map (curr mix)).sum := by
      refine sum_pos' _ ?_ hne
      intro x hx
      rw [List.mem_map] at hx
      obtain ⟨a, ha, rfl⟩ := hx
      exact hpos a (List.mem_of_mem_drop ha)
    linarith
  by_cases hall : target ≥ (v.map (curr mix)).sum
  · rw [if_pos hall]
    refine ⟨_, v.length, rfl, relabel_spec new es v.length, ?_, ?_⟩
    · rcases eq_or_lt_of_le hall with h | h
      · left; rw [List.take_length]; exact h.ge
      · right; exact ⟨rfl, h⟩
    · intro m hm; exact lt_of_lt_of_le (hlt m hm) hall
  · rw [if_neg hall]
    have hall' : target < (v.map (curr mix)).sum := not_le.1 hall
    cases hf : (cumsum 0 (v.map (curr mix))).findIdx? (fun s => decide (s ≥ target)) with
    | none =>
      exfalso
      rw [List.findIdx?_eq_none_iff] at hf
      have hne : 0 < v.length := by
        rcases Nat.eq_zero_or_pos v.length with h | h
        · rw [List.length_eq_zero_iff] at h
          subst h; simp at hall'; linarith
        · exact h
      have hg := cumsum_get (v.map (curr mix)) 0 (v.length - 1) (by simp; omega)
      have hm := List.mem_of_getElem? hg
      have := hf _ hm
      rw [show v.length - 1 + 1 = (v.map (curr mix)).length by simp; omega, List.take_length] at this
      simp at this
      linarith
    | some ix =>
      rw [List.findIdx?_eq_some_iff_getElem] at hf
      obtain ⟨hi, h1, h2⟩ := hf
      have hi' : ix < v.length := by rw [cumsum_length] at hi; simpa using hi
      have val : ∀ j, j < v.length → ∀ (hj : j < (cumsum 0 (v.map (curr mix))).length),
          (cumsum 0 (v.map (curr mix)))[j] = ((v.take (j + 1)).map (curr mix)).sum := by
        intro j hj hj'
        have hg := cumsum_get (v.map (curr mix)) 0 j (by simpa using hj)
        rw [List.getElem?_eq_getElem hj'] at hg
        simp only [Option.some.injEq, zero_add] at hg
        rw [hg, List.map_take]
      refine ⟨_, ix + 1, rfl, relabel_spec new es (ix + 1), ?_, ?_⟩
      · left
        rw [val ix hi' hi] at h1
        simpa using h1
      · intro m hm
        cases m with
        | zero => simpa using ht
        | succ m =>
          have hmi : m < ix := by omega
          have := h2 m hmi
          rw [val m (by omega) (by omega)] at this
          simpa using this

/-- A target of zero (`amount=0`, the default, or efficiency 0) marks one
element, though nothing is to be removed. -/
theorem C35_counterexample :
    mark true 10 0 [⟨2, 5, 0, [5]⟩, ⟨2, 5, 0, [5]⟩] = some [⟨10, 5, 0, [5]⟩, ⟨2, 5, 0, [5]⟩] := by
  decide +kernel

example : mark true 10 12 [⟨2, 5, 0, [5]⟩, ⟨1, 9, 0, [9]⟩, ⟨2, 5, 1 / 2, [5]⟩, ⟨2, 4, 0, [4]⟩] =
    some [⟨10, 5, 0, [5]⟩, ⟨1, 9, 0, [9]⟩, ⟨10, 5, 1 / 2, [5]⟩, ⟨2, 4, 0, [4]⟩] := by
  decide +kernel

/-! ### C36: mass conservation of the removals -/

/-- A well-formed element: its mass is the sum of its components, none of which
is negative. -/
def WF (e : El) : Prop := e.mass = e.comps.sum ∧ ∀ c ∈ e.comps, 0 ≤ c

/-- Mass of all elements. -/
def totalMass (es : List El) : ℚ := (es.map El.mass).sum

/-- What a removal of the view `flag` that was asked for `rm` has to do: record
exactly the mass that disappeared, which is what was asked for or everything
there was; keep elements well formed; leave elements outside of the view, and
fates and water fractions, alone. -/
def Conserves (flag : Nat) (rm : ℚ) (es : List El) (o : Out) : Prop :=
  o.added = totalMass es - totalMass o.es ∧
  o.added = min rm (viewMass flag es) ∧ 0 ≤ o.added ∧
  o.es.length = es.length ∧
  ∀ (i : Nat) (e e' : El), es[i]? = some e → o.es[i]? = some e' →
    WF e' ∧ e'.fate = e.fate ∧ e'.fw = e.fw ∧ (sel flag e = false → e' = e)

theorem sum_map_mul (k : ℚ) (l : List ℚ) : (l.map (fun x => k * x)).sum = k * l.sum := by
  induction l with
  | nil => simp
  | cons x xs ih => simp [ih, mul_add]

theorem scale_wf {e : El} (h : WF e) {f : ℚ} (hf : f ≤ 1) : WF (scale f e) := by
  refine ⟨rfl, ?_⟩
  intro c hc
  unfold scale at hc
  simp only [List.mem_map] at hc
  obtain ⟨x, hx, rfl⟩ := hc
  exact mul_nonneg (by linarith) (h.2 x hx)

theorem scale_mass {e : El} (h : WF e) (f : ℚ) : (scale f e).mass = (1 - f) * e.mass := by
  unfold scale; simp only; rw [sum_map_mul, h.1]

theorem scaleView_mass (flag : Nat) (f : ℚ) (es : List El) (h : ∀ e ∈ es, WF e) :
    totalMass (scaleView flag f es) = totalMass es - f * viewMass flag es := by
  unfold totalMass scaleView viewMass
  induction es with
  | nil => simp
  | cons a es ih =>
    have ih' := ih (fun e he => h e (List.mem_cons_of_mem _ he))
    simp only [List.map_cons, List.sum_cons, List.filter_cons] at *
    rw [ih']
    by_cases ha : sel flag a = true
    · rw [if_pos ha, if_pos ha, scale_mass (h a (List.mem_cons_self))]
      simp only [List.map_cons, List.sum_cons]; ring
    · rw [if_neg ha, if_neg ha]; ring

theorem viewMass_pos {flag : Nat} {es : List El}
    (h : ¬ (es.filter (sel flag)).length = 0) : 0 < viewMass flag es := by
  unfold viewMass
  apply sum_pos'
  · intro x hx
    rw [List.mem_map] at hx
    obtain ⟨e, he, rfl⟩ := hx
    rw [List.mem_filter] at he
    have := he.2
    unfold sel at this
    simp only [Bool.and_eq_true, decide_eq_true_eq] at this
    exact this.2
  · intro hc
    apply h
    rw [List.map_eq_nil_iff] at hc
    rw [hc]; rfl

theorem viewMass_nil {flag : Nat} {es : List El}
    (h : (es.filter (sel flag)).length = 0) : viewMass flag es = 0 := by
  unfold viewMass
  rw [List.length_eq_zero_iff] at h
  rw [h]; rfl

theorem scaleView_conserves {flag : Nat} {es : List El} {rm f a : ℚ} (hwf : ∀ e ∈ es, WF e)
    (hf1 : f ≤ 1) (ha : a = f * viewMass flag es) (ham : a = min rm (viewMass flag es))
    (ha0 : 0 ≤ a) : Conserves flag rm es ⟨scaleView flag f es, a⟩ := by
  refine ⟨?_, ham, ha0, by simp [scaleView], ?_⟩
  · show a = totalMass es - totalMass (scaleView flag f es)
    rw [scaleView_mass flag f es hwf, ha]; ring
  · intro i e e' he he'
    have hwe := hwf e (List.mem_of_getElem? he)
    simp only [scaleView, List.getElem?_map, he, Option.map_some, Option.some.injEq] at he'
    subst he'
    by_cases hs : sel flag e = true
    · rw [if_pos hs]
      exact ⟨scale_wf hwe hf1, rfl, rfl, fun h => absurd hs (by simp [h])⟩
    · rw [if_neg hs]
      exact ⟨hwe, rfl, rfl, fun _ => rfl⟩

theorem nothing_conserves {flag : Nat} {es : List El} {rm : ℚ} (hwf : ∀ e ∈ es, WF e)
    (hrm : 0 ≤ rm) (h : (es.filter (sel flag)).length = 0) :
    Conserves flag rm es ⟨es, 0⟩ := by
  refine ⟨by simp, ?_, le_refl _, rfl, ?_⟩
  · show (0 : ℚ) = _
    rw [viewMass_nil h, min_eq_right hrm]
  · intro i e e' he he'
    simp only at he'
    rw [he] at he'
    simp only [Option.some.injEq] at he'
    subst he'
    exact ⟨hwf e (List.mem_of_getElem? he), rfl, rfl, fun _ => rfl⟩

theorem avgFracOil_range {flag : Nat} {es : List El} (hfw : ∀ e ∈ es, 0 ≤ e.fw ∧ e.fw ≤ 1) :
    0 ≤ avgFracOil flag es ∧ avgFracOil flag es ≤ 1 := by
  unfold avgFracOil
  simp only
  split
  · rename_i hp
    have key : 0 ≤ ((es.filter (sel flag)).map (fun e => e.mass * e.fw)).sum ∧
        ((es.filter (sel flag)).map (fun e => e.mass * e.fw)).sum ≤
          ((es.filter (sel flag)).map El.mass).sum := by
      clear hp
      have hm : ∀ e ∈ es.filter (sel flag), 0 ≤ e.mass * e.fw ∧ e.mass * e.fw ≤ e.mass := by
        intro e he
        rw [List.mem_filter] at he
        have h1 := hfw e he.1
        have h2 : 0 < e.mass := by
          have := he.2
          unfold sel at this
          simp only [Bool.and_eq_true, decide_eq_true_eq] at this
          exact this.2
        exact ⟨mul_nonneg h2.le h1.1, by nlinarith⟩
      generalize es.filter (sel flag) = v at hm
      induction v with
      | nil => simp
      | cons a v ih =>
        have := ih (fun e he => hm e (List.mem_cons_of_mem _ he))
        have h2 := hm a (List.mem_cons_self)
        simp only [List.map_cons, List.sum_cons]
        exact ⟨by linarith [this.1, h2.1], by linarith [this.2, h2.2]⟩
    have h1 : ((es.filter (sel flag)).map (fun e => e.mass * e.fw)).sum /
        ((es.filter (sel flag)).map El.mass).sum ≤ 1 := by
      rw [div_le_one hp]; exact key.2
    have h2 := div_nonneg key.1 hp.le
    exact ⟨by linarith, by linarith⟩
  · norm_num

/-- Skimming conserves mass and takes what was asked for, or all there is. -/
theorem C36_skim (rate kg eff ts : ℚ) (es : List El) (hwf : ∀ e ∈ es, WF e)
    (hfw : ∀ e ∈ es, 0 ≤ e.fw ∧ e.fw ≤ 1)
    (h1 : 0 ≤ rate) (h2 : 0 ≤ kg) (h3 : 0 ≤ eff) (h4 : 0 ≤ ts) :
    Conserves skimFlag (kg * (rate * avgFracOil skimFlag es * ts) * eff) es
      (skim rate kg eff ts es) := by
  have ha := (avgFracOil_range (flag := skimFlag) hfw).1
  have hrm : 0 ≤ kg * (rate * avgFracOil skimFlag es * ts) * eff :=
    mul_nonneg (mul_nonneg h2 (mul_nonneg (mul_nonneg h1 ha) h4)) h3
  unfold skim
  generalize kg * (rate * avgFracOil skimFlag es * ts) * eff = rm at *
  split
  · rename_i h; exact nothing_conserves hwf hrm h
  · rename_i h
    have hp := viewMass_pos h
    simp only
    have hmul : min (rm / viewMass skimFlag es) 1 * viewMass skimFlag es =
        min rm (viewMass skimFlag es) := by
      rw [min_mul_of_nonneg _ _ hp.le, one_mul, div_mul_cancel₀ _ hp.ne']
    apply scaleView_conserves hwf (min_le_right _ _) rfl hmul
    rw [hmul]; exact le_min hrm hp.le

/-- Burning conserves mass. -/
theorem C36_burn (volRate rho eff ts : ℚ) (es : List El) (hwf : ∀ e ∈ es, WF e)
    (h1 : 0 ≤ volRate) (h2 : 0 ≤ rho) (h3 : 0 ≤ eff) (h4 : 0 ≤ ts) :
    Conserves burnFlag (rho * (volRate * eff * ts)) es (burn volRate rho eff ts es) := by
  have hrm : 0 ≤ rho * (volRate * eff * ts) := mul_nonneg h2 (mul_nonneg (mul_nonneg h1 h3) h4)
  unfold burn
  simp only
  generalize rho * (volRate * eff * ts) = rm at *
  split
  · rename_i h; exact nothing_conserves hwf hrm h
  · rename_i h
    have hp := viewMass_pos h
    have e : (if rm > viewMass burnFlag es then viewMass burnFlag es else rm) =
        min rm (viewMass burnFlag es) := by
      split
      · rw [min_eq_right (by linarith)]
      · rw [min_eq_left (by linarith)]
    rw [e]
    refine scaleView_conserves hwf ?_ ?_ rfl (le_min hrm hp.le)
    · rw [div_le_one hp]; exact min_le_right _ _
    · rw [div_mul_cancel₀ _ hp.ne']

/-- Chemical dispersion conserves mass. -/
theorem C36_disperse (rate ts : ℚ) (es : List El) (hwf : ∀ e ∈ es, WF e)
    (h1 : 0 ≤ rate) (h4 : 0 ≤ ts) :
    Conserves disperseFlag (rate * ts) es (disperse rate ts es) := by
  have hrm : 0 ≤ rate * ts := mul_nonneg h1 h4
  unfold disperse
  generalize rate * ts = rm at *
  split
  · rename_i h; exact nothing_conserves hwf hrm h
  · rename_i h
    have hp := viewMass_pos h
    simp only
    have hmul : min (rm / viewMass disperseFlag es) 1 * viewMass disperseFlag es =
        min rm (viewMass disperseFlag es) := by
      rw [min_mul_of_nonneg _ _ hp.le, one_mul, div_mul_cancel₀ _ hp.ne']
    apply scaleView_conserves hwf (min_le_right _ _) rfl hmul
    rw [hmul]; exact le_min hrm hp.le

/-- Manual beaching conserves mass. -/
theorem C36_beach (rm : ℚ) (es : List El) (hwf : ∀ e ∈ es, WF e) (hrm : 0 ≤ rm) :
    Conserves surfaceWeather rm es (beach rm es) := by
  unfold beach
  split
  · rename_i h; exact nothing_conserves hwf hrm h
  · rename_i h
    have hp := viewMass_pos h
    simp only
    split
    · rename_i hf
      have : viewMass surfaceWeather es < rm := by
        have := (one_lt_div hp).1 hf; exact this
      exact scaleView_conserves hwf (le_refl 1) (by ring) (min_eq_right this.le).symm hp.le
    · rename_i hf
      have hle : rm ≤ viewMass surfaceWeather es := by
        have := not_lt.1 hf; rwa [div_le_one hp] at this
      refine scaleView_conserves hwf (not_lt.1 hf) ?_ (min_eq_left hle).symm hrm
      rw [div_mul_cancel₀ _ hp.ne']

example : WF ⟨10, 5, 1 / 2, [2, 3]⟩ ∧
    (skim 1 1 1 4 [⟨10, 5, 1 / 2, [2, 3]⟩, ⟨2, 7, 0, [7]⟩]).es =
      [⟨10, 3, 1 / 2, [6 / 5, 9 / 5]⟩, ⟨2, 7, 0, [7]⟩] := by
  constructor
  · unfold WF; simp; norm_num
  · decide +kernel

/-! ### C50: sub-steps -/

/-- With two weathering sub-steps in a step a skimmer removes twice the amount
it is set to remove. -/
theorem C50_counterexample :
    (skimStep 1 1 1 10 [⟨10, 100, 0, [100]⟩] 1).added = 10 ∧
    (skimStep 1 1 1 10 [⟨10, 100, 0, [100]⟩] 2).added = 20 := by
  decide +kernel

theorem sel_scale {flag : Nat} {e : El} (h : WF e) {f : ℚ} (hf : f < 1)
    (hs : sel flag e = true) : sel flag (scale f e) = true := by
  unfold sel at *
  simp only [Bool.and_eq_true, decide_eq_true_eq] at *
  refine ⟨hs.1, ?_⟩
  rw [scale_mass h]
  exact mul_pos (by linarith) hs.2

theorem filter_scaleView {flag : Nat} {es : List El} (hwf : ∀ e ∈ es, WF e) {f : ℚ} (hf : f < 1) :
    (scaleView flag f es).filter (sel flag) = (es.filter (sel flag)).map (scale f) := by
  unfold scaleView
  induction es with
  | nil => rfl
  | cons a es ih =>
    have ih' := ih (fun e he => hwf e (List.mem_cons_of_mem _ he))
    simp only [List.map_cons, List.filter_cons] at *
    by_cases ha : sel flag a = true
    · rw [if_pos ha, if_pos ha, if_pos (sel_scale (hwf a (List.mem_cons_self)) hf ha), ih']; rfl
    · rw [if_neg ha, if_neg ha, if_neg ha, ih']

theorem viewMass_scaleView {flag : Nat} {es : List El} (hwf : ∀ e ∈ es, WF e) {f : ℚ}
    (hf : f < 1) : viewMass flag (scaleView flag f es) = (1 - f) * viewMass flag es := by
  unfold viewMass
  rw [filter_scaleView hwf hf, List.map_map, ← sum_map_mul, List.map_map]
  congr 1
  apply List.map_congr_left
  intro e he
  exact scale_mass (hwf e (List.mem_filter.1 he).1) f

theorem avgFracOil_scaleView {flag : Nat} {es : List El} (hwf : ∀ e ∈ es, WF e) {f : ℚ}
    (hf : f < 1) : avgFracOil flag (scaleView flag f es) = avgFracOil flag es := by
  have hm : ((scaleView flag f es).filter (sel flag)).map El.mass =
      ((es.filter (sel flag)).map El.mass).map (fun x => (1 - f) * x) := by
    rw [filter_scaleView hwf hf, List.map_map, List.map_map]
    apply List.map_congr_left
    intro e he
    exact scale_mass (hwf e (List.mem_filter.1 he).1) f
  have hw : ((scaleView flag f es).filter (sel flag)).map (fun e => e.mass * e.fw) =
      ((es.filter (sel flag)).map (fun e => e.mass * e.fw)).map (fun x => (1 - f) * x) := by
    rw [filter_scaleView hwf hf, List.map_map, List.map_map]
    apply List.map_congr_left
    intro e he
    simp only [Function.comp]
    rw [scale_mass (hwf e (List.mem_filter.1 he).1) f]
    show (1 - f) * e.mass * e.fw = _
    ring
  unfold avgFracOil
  simp only
  rw [hm, hw, sum_map_mul, sum_map_mul]
  have h1 : 0 < 1 - f := by linarith
  by_cases hp : 0 < ((es.filter (sel flag)).map El.mass).sum
  · rw [if_pos hp, if_pos (mul_pos h1 hp), mul_div_mul_left _ _ h1.ne']
  · rw [if_neg hp, if_neg]
    intro hc
    exact hp ((mul_pos_iff_of_pos_left h1).1 hc)

/-- In general `n` sub-steps remove `n` times the amount of the step, as long
as there is oil left: only with one sub-step the amount is right. -/
theorem C50_substeps_multiply (rate kg eff ts : ℚ) (es : List El) (hwf : ∀ e ∈ es, WF e)
    (hfw : ∀ e ∈ es, 0 ≤ e.fw ∧ e.fw ≤ 1)
    (h1 : 0 ≤ rate) (h2 : 0 ≤ kg) (h3 : 0 ≤ eff) (h4 : 0 ≤ ts) (n : Nat)
    (hen : n * (kg * (rate * avgFracOil skimFlag es * ts) * eff) < viewMass skimFlag es) :
    (skimStep rate kg eff ts es n).added =
      n * (kg * (rate * avgFracOil skimFlag es * ts) * eff) := by
  have ha := (avgFracOil_range (flag := skimFlag) hfw).1
  have hrm : 0 ≤ kg * (rate * avgFracOil skimFlag es * ts) * eff :=
    mul_nonneg (mul_nonneg h2 (mul_nonneg (mul_nonneg h1 ha) h4)) h3
  have key : (skimStep rate kg eff ts es n).added =
      n * (kg * (rate * avgFracOil skimFlag es * ts) * eff) ∧
      (∀ e ∈ (skimStep rate kg eff ts es n).es, WF e) ∧
      (∀ e ∈ (skimStep rate kg eff ts es n).es, 0 ≤ e.fw ∧ e.fw ≤ 1) ∧
      avgFracOil skimFlag (skimStep rate kg eff ts es n).es = avgFracOil skimFlag es ∧
      viewMass skimFlag (skimStep rate kg eff ts es n).es =
        viewMass skimFlag es - n * (kg * (rate * avgFracOil skimFlag es * ts) * eff) := by
    induction n with
    | zero => simp [skimStep]; exact ⟨hwf, hfw⟩
    | succ n ih =>
      have hlt : (n : ℚ) * (kg * (rate * avgFracOil skimFlag es * ts) * eff) <
          viewMass skimFlag es := by
        push_cast at hen; linarith
      obtain ⟨i1, i2, i3, i4, i5⟩ := ih hlt
      have hc := C36_skim rate kg eff ts _ i2 i3 h1 h2 h3 h4
      have hsome : ¬ ((skimStep rate kg eff ts es n).es.filter (sel skimFlag)).length = 0 := by
        intro h0
        have := viewMass_nil h0
        rw [i5] at this
        linarith
      have hvp := viewMass_pos hsome
      unfold skimStep
      simp only
      obtain ⟨c1, c2, c3, c4, c5⟩ := hc
      rw [i4, i5] at c2
      have hadd : (skim rate kg eff ts (skimStep rate kg eff ts es n).es).added =
          kg * (rate * avgFracOil skimFlag es * ts) * eff := by
        rw [c2, min_eq_left]
        push_cast at hen; linarith
      have hmem : ∀ e' ∈ (skim rate kg eff ts (skimStep rate kg eff ts es n).es).es,
          ∃ e ∈ (skimStep rate kg eff ts es n).es, WF e' ∧ e'.fw = e.fw := by
        intro e' he'
        obtain ⟨i, hi⟩ := List.getElem?_of_mem he'
        have hil : i < (skimStep rate kg eff ts es n).es.length := by
          rw [← c4]; exact (List.getElem?_eq_some_iff.1 hi).1
        have := c5 i _ e' (List.getElem?_eq_getElem hil) hi
        exact ⟨_, List.getElem_mem hil, this.1, this.2.2.1⟩
      have hfrac : (kg * (rate * avgFracOil skimFlag es * ts) * eff) /
          viewMass skimFlag (skimStep rate kg eff ts es n).es < 1 := by
        rw [div_lt_one hvp, i5]; push_cast at hen; linarith
      have hform : (skim rate kg eff ts (skimStep rate kg eff ts es n).es).es =
          scaleView skimFlag ((kg * (rate * avgFracOil skimFlag es * ts) * eff) /
            viewMass skimFlag (skimStep rate kg eff ts es n).es)
            (skimStep rate kg eff ts es n).es := by
        unfold skim
        rw [if_neg hsome, i4]
        simp only
        rw [min_eq_left hfrac.le]
      refine ⟨?_, ?_, ?_, ?_, ?_⟩
      · rw [i1, hadd]; push_cast; ring
      · intro e' he'
        obtain ⟨e, _, hw, _⟩ := hmem e' he'
        exact hw
      · intro e' he'
        obtain ⟨e, he, _, hw⟩ := hmem e' he'
        rw [hw]; exact i3 e he
      · rw [hform, avgFracOil_scaleView i2 hfrac, i4]
      · rw [hform, viewMass_scaleView i2 hfrac]
        have : viewMass skimFlag (skimStep rate kg eff ts es n).es ≠ 0 := hvp.ne'
        rw [sub_mul, one_mul, div_mul_cancel₀ _ this, i5]
        push_cast; ring
  exact key.1

/-- With one sub-step the amount is right. -/
theorem C50_one_substep_partial (rate kg eff ts : ℚ) (es : List El) (hwf : ∀ e ∈ es, WF e)
    (hfw : ∀ e ∈ es, 0 ≤ e.fw ∧ e.fw ≤ 1)
    (h1 : 0 ≤ rate) (h2 : 0 ≤ kg) (h3 : 0 ≤ eff) (h4 : 0 ≤ ts) :
    (skimStep rate kg eff ts es 1).added =
      min (kg * (rate * avgFracOil skimFlag es * ts) * eff) (viewMass skimFlag es) := by
  have := (C36_skim rate kg eff ts es hwf hfw h1 h2 h3 h4).2.1
  simp only [skimStep, zero_add]
  exact this

/-! ### C38: marking only once -/

/-- Two steps of a skimmer: in the second step, one element being marked
already, another element is marked as well. -/
theorem C38_counterexample :
    prepareSkim 10 [⟨2, 10, 0, [10]⟩, ⟨2, 10, 0, [10]⟩] =
      some [⟨10, 10, 0, [10]⟩, ⟨2, 10, 0, [10]⟩] ∧
    (skim 1 1 1 5 [⟨10, 10, 0, [10]⟩, ⟨2, 10, 0, [10]⟩]).es =
      [⟨10, 5, 0, [5]⟩, ⟨2, 10, 0, [10]⟩] ∧
    prepareSkim 10 [⟨10, 5, 0, [5]⟩, ⟨2, 10, 0, [10]⟩] =
      some [⟨10, 5, 0, [5]⟩, ⟨10, 10, 0, [10]⟩] := by
  decide +kernel

/-- With a mark in the container nothing is marked again. -/
theorem C38_marked (target : ℚ) (es : List El) :
    (∀ e ∈ es, e.fate = skimFlag → prepareSkim target es = some es) ∧ (∀ e ∈ es, e.fate = burnFlag → prepareBurn target es = some es) ∧
    (∀ e ∈ es, e.fate = disperseFlag → prepareDisperse target es = some es) := by
  have key : ∀ f : Nat, ∀ e ∈ es, e.fate = f → ¬ es.countP (fun e => e.fate == f) = 0 := by
    intro f e he hf h
    rw [List.countP_eq_zero] at h
    exact h e he (by simp [hf])
  refine ⟨fun e he hf => ?_, fun e he hf => ?_, fun e he hf => ?_⟩
  · unfold prepareSkim; rw [if_neg (key _ e he hf)]
  · unfold prepareBurn; rw [if_neg (key _ e he hf)]
  · unfold prepareDisperse; rw [if_neg (key _ e he hf)]

/-- Indeed a skimmer's own mark never satisfies its test for a mark. -/
theorem C38_skim_never_seen (target : ℚ) (es out : List El)
    (h0 : es.countP (fun e => e.fate == skimFlag) = 0)
    (h : prepareSkim target es = some out) :
    out.countP (fun e => e.fate == skimFlag) = 0 := by
  have hrel : ∀ (n : Nat) (es : List El), (∀ e ∈ es, e.fate ≠ skimFlag) →
      ∀ e ∈ relabel (skimFlag ||| surfaceWeather) n es, e.fate ≠ skimFlag := by
    intro n es
    induction es generalizing n with
    | nil => intro _ e he; simp [relabel] at he
    | cons a es ih =>
      intro h
      have ha := h a (List.mem_cons_self)
      have h' := fun e he => h e (List.mem_cons_of_mem _ he)
      unfold relabel
      intro e he
      split at he
      · cases n with
        | zero =>
          rcases List.mem_cons.1 he with rfl | he
          · exact ha
          · exact ih 0 h' e he
        | succ n =>
          rcases List.mem_cons.1 he with rfl | he
          · show ¬ (skimFlag ||| surfaceWeather) = skimFlag
            decide
          · exact ih n h' e he
      · rcases List.mem_cons.1 he with rfl | he
        · exact ha
        · exact ih n h' e he
  have h0' : ∀ e ∈ es, e.fate ≠ skimFlag := by
    intro e he hc
    rw [List.countP_eq_zero] at h0
    exact h0 e he (by simp [hc])
  have fin : ∀ n, (relabel (skimFlag ||| surfaceWeather) n es).countP
      (fun e => e.fate == skimFlag) = 0 := by
    intro n
    rw [List.countP_eq_zero]
    intro e he hc
    exact hrel n es h0' e he (by simpa using hc)
  unfold prepareSkim at h
  rw [if_pos h0] at h
  unfold mark at h
  simp only at h
  split at h
  · simp only [Option.some.injEq] at h; subst h; exact fin _
  · split at h
    · simp at h
    · simp only [Option.some.injEq] at h; subst h; exact fin _

/-- Burning and dispersing mark only while no element is marked; once some
element carries the mark nothing more is marked, whatever else happens to the
elements in between, as long as one of them keeps the mark. -/
theorem C38_once_partial (es : List El) (target : ℚ) :
    (es.any (fun e => e.fate == burnFlag) = true → prepareBurn target es = some es) ∧
    (es.any (fun e => e.fate == disperseFlag) = true → prepareDisperse target es = some es) := by
  have key : ∀ f, es.any (fun e => e.fate == f) = true →
      ¬ es.countP (fun e => e.fate == f) = 0 := by
    intro f h h0
    rw [List.any_eq_true] at h
    obtain ⟨e, he, hf⟩ := h
    rw [List.countP_eq_zero] at h0
    exact h0 e he hf
  constructor
  · intro h; unfold prepareBurn; rw [if_neg (key _ h)]
  · intro h; unfold prepareDisperse; rw [if_neg (key _ h)]

/-- A burn's or dispersion's own mark does satisfy its test: if anything was
available the next preparation changes nothing. -/
theorem C38_burn_twice (target target' : ℚ) (es out : List El)
    (hfw : ∀ e ∈ es, e.fw < 1) (ht : 0 < target)
    (hav : es.any (sel surfaceWeather) = true) (h : prepareBurn target es = some out) :
    prepareBurn target' out = some out := by
  by_cases h0 : es.countP (fun e => e.fate == burnFlag) = 0
  · unfold prepareBurn at h
    rw [if_pos h0] at h
    obtain ⟨out', n, hm, hpre, hor, hmin⟩ := C35_marking_partial true burnFlag target es hfw ht
    rw [hm] at h
    simp at h
    subst h
    apply (C38_once_partial out' target').1
    rw [List.any_eq_true] at hav ⊢
    -- the first available element is marked
    have hne : es.filter (sel surfaceWeather) ≠ [] := by
      obtain ⟨e, he, hs⟩ := hav
      intro hc
      have : e ∈ es.filter (sel surfaceWeather) := List.mem_filter.2 ⟨he, hs⟩
      rw [hc] at this; simp at this
    have hn : 0 < n := by
      rcases Nat.eq_zero_or_pos n with hz | hz
      · subst hz
        rcases hor with h1 | ⟨h1, _⟩
        · simp at h1; linarith
        · exfalso; apply hne; exact List.length_eq_zero_iff.1 h1.symm
      · exact hz
    -- index of the first available element
    have hidx : (es.findIdx (sel surfaceWeather)) < es.length := by
      rw [List.findIdx_lt_length]; exact hav
    have hsel : sel surfaceWeather es[es.findIdx (sel surfaceWeather)] = true :=
      List.findIdx_getElem
    have hcnt : (es.take (es.findIdx (sel surfaceWeather))).countP (sel surfaceWeather) = 0 := by
      rw [List.countP_eq_zero]
      intro x hx
      rw [List.mem_take_iff_getElem] at hx
      obtain ⟨i, hi, rfl⟩ := hx
      exact Bool.eq_false_iff.1 (List.not_of_lt_findIdx (p := sel surfaceWeather) (by omega))
    have := hpre.2 _ _ (List.getElem?_eq_getElem hidx)
    rw [hcnt, if_pos ⟨hsel, hn⟩] at this
    exact ⟨_, List.mem_of_getElem? this, by simp⟩
  · have e : out = es := by
      unfold prepareBurn at h
      rw [if_neg h0] at h
      simpa using h.symm
    subst e
    unfold prepareBurn
    rw [if_neg h0]

example : prepareBurn 10 [⟨2, 10, 0, [10]⟩, ⟨2, 10, 0, [10]⟩] =
    some [⟨16, 10, 0, [10]⟩, ⟨2, 10, 0, [10]⟩] := by decide +kernel

/-! ### C51: efficiency -/

/-- A usable efficiency: unset, or a number between 0 and 1. -/
def usable : Eff → Prop
  | .none => True
  | .nan => False
  | .val x => 0 ≤ x ∧ x ≤ 1

/-- Constructing with an invalid efficiency, or setting one while it is unset,
gives NaN; and a dispersion without an efficiency cannot be run at all. -/
theorem C51_counterexample :
    initEff (.val (3 / 2)) = .nan ∧ setEff .none (.val (-1)) = .nan ∧
    ∀ m f, sprayMass m f (initEff .none) = none := by
  refine ⟨by decide +kernel, by decide +kernel, fun m f => rfl⟩

/-- From a numeric efficiency, whatever is assigned and however often, the
efficiency stays usable until `None` is assigned. -/
theorem C51_efficiency_partial (x0 : ℚ) (h0 : 0 ≤ x0 ∧ x0 ≤ 1) (news : List Eff)
    (hn : ∀ e ∈ news, e ≠ .none) :
    ∃ x, news.foldl setEff (.val x0) = .val x ∧ 0 ≤ x ∧ x ≤ 1 := by
  induction news generalizing x0 with
  | nil => exact ⟨x0, rfl, h0⟩
  | cons a news ih =>
    have ih' := fun x hx => ih x hx (fun e he => hn e (List.mem_cons_of_mem _ he))
    rw [List.foldl_cons]
    cases a with
    | none => exact absurd rfl (hn .none (List.mem_cons_self))
    | nan => exact ih' x0 h0
    | val y =>
      unfold setEff
      simp only
      split
      · rename_i hy; exact ih' y hy
      · exact ih' x0 h0

example : [Eff.val (1 / 2), .val 7, .nan].foldl setEff (.val 1) = .val (1 / 2) := by decide +kernel

/-! ### C37: manual beaching -/

/-- Times strictly increase. -/
def Asc : ℚ → List (ℚ × ℚ) → Prop
  | _, [] => True
  | a, (b, _) :: rest => a < b ∧ Asc b rest

/-- The observed mass beached by time `t`, an observation being spread evenly
over the time since the one before it. -/
def beached : ℚ → List (ℚ × ℚ) → ℚ → ℚ
  | _, [], _ => 0
  | a, (b, m) :: rest, t => m * (max 0 (min 1 ((t - a) / (b - a)))) + beached b rest t

theorem beached_cons (a b m t : ℚ) (rest : List (ℚ × ℚ)) : beached a ((b, m) :: rest) t =
    m * (max 0 (min 1 ((t - a) / (b - a)))) + beached b rest t := rfl

/-- Time of the last observation. -/
def lastTime : ℚ → List (ℚ × ℚ) → ℚ
  | a, [] => a
  | _, (b, _) :: rest => lastTime b rest

theorem lastTime_ge {a : ℚ} {l : List (ℚ × ℚ)} (h : Asc a l) : a ≤ lastTime a l := by
  induction l generalizing a with
  | nil => exact le_refl _
  | cons x l ih =>
    obtain ⟨b, m⟩ := x
    exact le_trans h.1.le (ih h.2)

theorem beached_before {a : ℚ} {l : List (ℚ × ℚ)} (h : Asc a l) {t : ℚ} (ht : t ≤ a) :
    beached a l t = 0 := by
  induction l generalizing a with
  | nil => rfl
  | cons x l ih =>
    obtain ⟨b, m⟩ := x
    rw [beached_cons]
    have h1 : 0 < b - a := by have := h.1; linarith
    have h2 : (t - a) / (b - a) ≤ 0 := div_nonpos_of_nonpos_of_nonneg (by linarith) h1.le
    rw [min_eq_right (by linarith), max_eq_left h2, ih h.2 (by have := h.1; linarith)]
    ring

theorem beached_after {a : ℚ} {l : List (ℚ × ℚ)} (h : Asc a l) {t : ℚ}
    (ht : lastTime a l ≤ t) : beached a l t = (l.map Prod.snd).sum := by
  induction l generalizing a with
  | nil => rfl
  | cons x l ih =>
    obtain ⟨b, m⟩ := x
    rw [beached_cons]
    have h1 : 0 < b - a := by have := h.1; linarith
    have hb : b ≤ t := le_trans (lastTime_ge h.2) ht
    have h2 : 1 ≤ (t - a) / (b - a) := by rw [one_le_div h1]; linarith
    rw [min_eq_left h2, max_eq_right (by norm_num), ih h.2 ht]
    simp

theorem beached_head {a b m t : ℚ} {l : List (ℚ × ℚ)} (h : a < b) (h1 : a ≤ t) (h2 : t ≤ b) :
    beached a ((b, m) :: l) t = m / (b - a) * (t - a) + beached b l t := by
  rw [beached_cons]
  have hp : 0 < b - a := by linarith
  have h3 : (t - a) / (b - a) ≤ 1 := by rw [div_le_one hp]; linarith
  have h4 : 0 ≤ (t - a) / (b - a) := div_nonneg (by linarith) hp.le
  rw [min_eq_right h3, max_eq_right h4]
  ring

theorem rmLoop_eq (times rate : List ℚ) : ∀ (rest : List (ℚ × ℚ)) (a : ℚ) (i : Nat) (t remain rm : ℚ)
    (f : Nat), times.drop i = a :: rest.map Prod.fst → rate.drop i = rates a rest → Asc a rest →
    a ≤ t → (∀ x ∈ rest.head?, t ≤ x.1) → 0 ≤ remain → t + remain ≤ lastTime a rest →
    rest.length < f →
    rmLoop times rate f i t remain rm =
      some (rm + (beached a rest (t + remain) - beached a rest t)) := by
  intro rest
  induction rest with
  | nil =>
    intro a i t remain rm f ht hr hasc hat hhd h0 hl hf
    have hz : remain = 0 := by
      unfold lastTime at hl; linarith
    subst hz
    cases f with
    | zero => simp at hf
    | succ f => unfold rmLoop; rw [if_neg (lt_irrefl 0)]; simp
  | cons x rest ih =>
    obtain ⟨b, m⟩ := x
    intro a i t remain rm f ht hr hasc hat hhd h0 hl hf
    cases f with
    | zero => simp at hf
    | succ f =>
      have hab : a < b := hasc.1
      have htb : t ≤ b := hhd (b, m) rfl
      unfold rmLoop
      by_cases hp : remain > 0
      · rw [if_pos hp]
        have e1 : times[i + 1]? = some b := by
          have := congrArg (fun l => l[1]?) ht
          simpa [List.getElem?_drop] using this
        have e2 : rate[i]? = some (m / (b - a)) := by
          have := congrArg (fun l => l[0]?) hr
          simpa [List.getElem?_drop, rates] using this
        rw [e1, e2]
        simp only
        have ht' : times.drop (i + 1) = b :: rest.map Prod.fst := by
          have := congrArg List.tail ht
          simpa [List.tail_drop] using this
        have hr' : rate.drop (i + 1) = rates b rest := by
          have := congrArg List.tail hr
          simpa [List.tail_drop, rates] using this
        have hz : beached b rest t = 0 := beached_before hasc.2 htb
        rcases le_total remain (b - t) with hc | hc
        · rw [min_eq_left hc]
          cases f with
          | zero => simp at hf
          | succ f =>
            unfold rmLoop
            rw [if_neg (by linarith)]
            rw [beached_head hab (by linarith) (by linarith), beached_head hab hat htb, hz,
              beached_before hasc.2 (show t + remain ≤ b by linarith)]
            congr 1; ring
        · rw [min_eq_right hc]
          rw [ih b (i + 1) b (remain - (b - t)) _ f ht' hr' hasc.2 (le_refl b) ?_ (by linarith) ?_ ?_]
          · have e : b + (remain - (b - t)) = t + remain := by ring
            rw [e, beached_before hasc.2 (le_refl b), beached_head hab hat htb, hz]
            have : beached a ((b, m) :: rest) (t + remain) = m + beached b rest (t + remain) := by
              rw [beached_cons]
              have hp2 : 0 < b - a := by linarith
              have h3 : 1 ≤ (t + remain - a) / (b - a) := by rw [one_le_div hp2]; linarith
              rw [min_eq_left h3, max_eq_right (by norm_num)]; simp
            rw [this]
            have hne : b - a ≠ 0 := by linarith
            congr 1
            field_simp
            ring
          · intro x hx
            cases rest with
            | nil => simp at hx
            | cons y rest =>
              simp at hx
              subst hx
              exact hasc.2.1.le
          · have e : b + (remain - (b - t)) = t + remain := by ring
            rw [e]; exact hl
          · simp at hf; omega
      · rw [if_neg hp]
        have : remain = 0 := le_antisymm (not_lt.1 hp) h0
        subst this
        simp

theorem getLast_filter_range (n : Nat) (p : Nat → Bool) {i : Nat} (hi : i < n) (hpi : p i = true)
    (hmax : ∀ j, i < j → j < n → p j = false) :
    ((List.range n).filter p).getLast? = some i := by
  have e : List.range n = List.range (i + 1) ++ (List.range (n - (i + 1))).map (i + 1 + ·) := by
    rw [← List.range_add]; congr 1; omega
  rw [e, List.filter_append]
  have h2 : ((List.range (n - (i + 1))).map (i + 1 + ·)).filter p = [] := by
    rw [List.filter_eq_nil_iff]
    intro x hx
    rw [List.mem_map] at hx
    obtain ⟨k, hk, rfl⟩ := hx
    rw [List.mem_range] at hk
    rw [hmax _ (by omega) (by omega)]; simp
  rw [h2, List.append_nil, List.range_succ, List.filter_append]
  simp [hpi]

/-- The suffix of the series that `t` falls into. -/
theorem lastIdx_spec (a : ℚ) (obs : List (ℚ × ℚ)) (h : Asc a obs) {t : ℚ} (hat : a ≤ t) :
    ∃ (i : Nat) (a' : ℚ), i ≤ obs.length ∧
      lastIdx t (a :: obs.map Prod.fst) = some i ∧
      (a :: obs.map Prod.fst).drop i = a' :: (obs.drop i).map Prod.fst ∧
      (rates a obs).drop i = rates a' (obs.drop i) ∧
      Asc a' (obs.drop i) ∧ a' ≤ t ∧ (∀ x ∈ (obs.drop i).head?, t ≤ x.1) ∧
      lastTime a' (obs.drop i) = lastTime a obs ∧
      ∀ u v, a' ≤ u → a' ≤ v →
        beached a obs u - beached a obs v = beached a' (obs.drop i) u - beached a' (obs.drop i) v := by
  have mono : ∀ (obs : List (ℚ × ℚ)) (a : ℚ), Asc a obs → ∀ j : Nat, j < (obs.map Prod.fst).length →
      a < (obs.map Prod.fst).getD j 0 := by
    intro obs
    induction obs with
    | nil => intro a _ j hj; simp at hj
    | cons x obs ih =>
      obtain ⟨b, m⟩ := x
      intro a ha j hj
      cases j with
      | zero => simpa using ha.1
      | succ j =>
        have := ih b ha.2 j (by simpa using hj)
        simp only [List.map_cons, List.getD_cons_succ]
        exact lt_trans ha.1 this
  -- by induction on the series, with the index characterised
  suffices H : ∃ (i : Nat) (a' : ℚ), i ≤ obs.length ∧
      ((a :: obs.map Prod.fst).getD i 0 ≤ t) ∧
      (∀ j, i < j → j < obs.length + 1 → t < (a :: obs.map Prod.fst).getD j 0) ∧
      (a :: obs.map Prod.fst).drop i = a' :: (obs.drop i).map Prod.fst ∧
      (rates a obs).drop i = rates a' (obs.drop i) ∧
      Asc a' (obs.drop i) ∧ a' ≤ t ∧ (∀ x ∈ (obs.drop i).head?, t ≤ x.1) ∧
      lastTime a' (obs.drop i) = lastTime a obs ∧
      ∀ u v, a' ≤ u → a' ≤ v →
        beached a obs u - beached a obs v = beached a' (obs.drop i) u - beached a' (obs.drop i) v by
    obtain ⟨i, a', h1, h2, h3, h4⟩ := H
    refine ⟨i, a', h1, ?_, h4⟩
    unfold lastIdx
    apply getLast_filter_range
    · simp; omega
    · simpa using h2
    · intro j hj hj'
      have := h3 j hj (by simpa using hj')
      simp only [decide_eq_false_iff_not, ge_iff_le, not_le]
      exact this
  induction obs generalizing a with
  | nil =>
    refine ⟨0, a, le_refl _, by simpa using hat, ?_, rfl, rfl, trivial, hat, by simp, rfl, by simp⟩
    intro j h1 h2; simp at h2; omega
  | cons x obs ih =>
    obtain ⟨b, m⟩ := x
    rcases lt_or_ge t b with htb | htb
    · refine ⟨0, a, Nat.zero_le _, by simpa using hat, ?_, rfl, rfl, h, hat, ?_, rfl, by simp⟩
      · intro j hj hj'
        cases j with
        | zero => omega
        | succ j =>
          simp only [List.getD_cons_succ, List.map_cons]
          cases j with
          | zero => simpa using htb
          | succ j =>
            simp only [List.getD_cons_succ]
            exact lt_trans htb (mono obs b h.2 j (by simp at hj' ⊢; omega))
      · intro x hx; simp at hx; subst hx; exact htb.le
    · obtain ⟨i, a', h1, h2, h3, h4, h5, h6, h7, h8, h9, h10⟩ := ih b h.2 htb
      have hba' : b ≤ a' := by
        have hd : (b :: obs.map Prod.fst).getD i 0 = a' := by
          have := congrArg (fun l => l[0]?) h4
          simp only [List.getElem?_drop, Nat.add_zero, List.getElem?_cons_zero] at this
          rw [List.getD_eq_getElem?_getD, this]; rfl
        cases i with
        | zero => simp at hd; rw [hd]
        | succ i =>
          simp only [List.getD_cons_succ] at hd
          rw [← hd]
          exact (mono obs b h.2 i (by simp; omega)).le
      refine ⟨i + 1, a', by simp; omega, ?_, ?_, ?_, ?_, h6, h7, h8, h9, ?_⟩
      · simpa using h2
      · intro j hj hj'
        cases j with
        | zero => omega
        | succ j =>
          have := h3 j (by omega) (by simp at hj'; omega)
          simpa using this
      · simpa using h4
      · simpa [rates] using h5
      · intro u v hu hv
        rw [List.drop_succ_cons, ← h10 u v hu hv]
        have hfull : ∀ w, a' ≤ w → beached a ((b, m) :: obs) w = m + beached b obs w := by
          intro w hw
          rw [beached_cons]
          have hp2 : 0 < b - a := by have := h.1; linarith
          have h3 : 1 ≤ (w - a) / (b - a) := by rw [one_le_div hp2]; linarith
          rw [min_eq_left h3, max_eq_right (by norm_num)]; simp
        rw [hfull u hu, hfull v hv]; ring

/-- The mass for a time interval within the active range is what was beached
in it. -/
theorem removeMass_eq (s : Series) (h : Asc s.start s.obs) (t ts : ℚ) (h0 : s.start ≤ t)
    (hts : 0 ≤ ts) (hl : t + ts ≤ lastTime s.start s.obs) :
    removeMass s ts t =
      some (beached s.start s.obs (t + ts) - beached s.start s.obs t) := by
  obtain ⟨i, a', h1, h2, h4, h5, h6, h7, h8, h9, h10⟩ := lastIdx_spec s.start s.obs h h0
  unfold removeMass Series.times
  rw [h2]
  simp only
  rw [rmLoop_eq _ _ (s.obs.drop i) a' i t ts 0 _ h4 h5 h6 h7 h8 hts (by rw [h9]; exact hl)
    (by simp; omega)]
  rw [h10 (t + ts) t (by linarith) h7, zero_add]

theorem range_stop (s : Series) : s.range.stop = lastTime s.start s.obs := by
  unfold Series.range Series.times
  have : ∀ (l : List (ℚ × ℚ)) (a : ℚ), ((a :: l.map Prod.fst).getLast?) = some (lastTime a l) := by
    intro l
    induction l with
    | nil => intro a; rfl
    | cons x l ih =>
      obtain ⟨b, m⟩ := x
      intro a
      simp only [List.map_cons, List.getLast?_cons_cons]
      exact ih b
  rw [this]; rfl

theorem beachStep_eq (s : Series) (h : Asc s.start s.obs) (t dt : ℚ) (hdt : 0 < dt)
    (hal : s.start ≤ t ∨ t + dt ≤ s.start) :
    beachStep s t dt =
      some (beached s.start s.obs (t + dt) - beached s.start s.obs t) := by
  unfold beachStep active
  have hs : s.range.start = s.start := rfl
  rw [range_stop, hs]
  by_cases ha : t + dt > s.start ∧ lastTime s.start s.obs > t
  · rw [if_pos (by simpa using ha)]
    have h0 : s.start ≤ t := by
      rcases hal with h | h
      · exact h
      · exact absurd ha.1 (not_lt.2 h)
    unfold timestep
    rw [range_stop, hs]
    simp only [if_neg (not_lt.2 h0)]
    by_cases hc : lastTime s.start s.obs < t + dt
    · rw [if_pos hc, removeMass_eq s h t _ h0 (by linarith [ha.2]) (by linarith)]
      have e : t + (lastTime s.start s.obs - t) = lastTime s.start s.obs := by ring
      rw [e, beached_after h (le_refl _), beached_after h hc.le]
    · rw [if_neg hc, removeMass_eq s h t _ h0 hdt.le (not_lt.1 hc)]
  · rw [if_neg (by simpa using ha)]
    rcases not_and_or.1 ha with h1 | h1
    · rw [beached_before h (not_lt.1 h1), beached_before h (by have := not_lt.1 h1; linarith)]; simp
    · rw [beached_after h (not_lt.1 h1), beached_after h (by have := not_lt.1 h1; linarith)]; simp

/-- Manual beaching asks, over a run that covers the active range, for exactly
the sum of the observed amounts, and over any part of it for what was observed
by then, if the active start falls on a step of the grid (or before the run).
Missing for the full claim: an active start between two steps, for which the
code raises. -/
theorem C37_beaching_partial (s : Series) (h : Asc s.start s.obs) (t0 dt : ℚ) (hdt : 0 < dt)
    (hal : s.start ≤ t0 ∨ ∃ k : Nat, s.start = t0 + k * dt) (n : Nat) :
    beachTotal s t0 dt n =
      some (beached s.start s.obs (t0 + n * dt) - beached s.start s.obs t0) ∧
    (t0 ≤ s.start → lastTime s.start s.obs ≤ t0 + n * dt →
      beachTotal s t0 dt n = some (s.obs.map Prod.snd).sum) := by
  have key : beachTotal s t0 dt n =
      some (beached s.start s.obs (t0 + n * dt) - beached s.start s.obs t0) := by
    induction n with
    | zero => simp [beachTotal]
    | succ n ih =>
      unfold beachTotal
      rw [ih, beachStep_eq s h _ dt hdt]
      · simp only
        congr 1
        have e : t0 + (n : ℚ) * dt + dt = t0 + ((n + 1 : Nat) : ℚ) * dt := by push_cast; ring
        rw [e]; ring
      · rcases hal with h1 | ⟨k, hk⟩
        · left
          have : (0 : ℚ) ≤ n * dt := mul_nonneg (Nat.cast_nonneg n) hdt.le
          linarith
        · rcases Nat.lt_or_ge n k with hnk | hnk
          · right
            rw [hk]
            have : ((n + 1 : Nat) : ℚ) * dt ≤ (k : ℚ) * dt :=
              mul_le_mul_of_nonneg_right (Nat.cast_le.2 hnk) hdt.le
            push_cast at this
            linarith
          · left
            rw [hk]
            have : (k : ℚ) * dt ≤ (n : ℚ) * dt :=
              mul_le_mul_of_nonneg_right (Nat.cast_le.2 hnk) hdt.le
            linarith
  refine ⟨key, fun h0 h1 => ?_⟩
  rw [key, beached_before h h0, beached_after h h1, sub_zero]

/-- An active start in the middle of a step: the step raises. -/
theorem C37_counterexample :
    Asc 30 [(90, 100)] ∧ beachStep ⟨30, [(90, 100)]⟩ 0 60 = none := by
  refine ⟨⟨by norm_num, trivial⟩, ?_⟩
  decide +kernel

/-- Observations at 100 s and 170 s, steps of 60 s. -/
example : Asc 0 [(100, 50), (170, 7)] ∧ beachTotal ⟨0, [(100, 50), (170, 7)]⟩ 0 60 3 = some 57 := by
  refine ⟨⟨by norm_num, by norm_num, trivial⟩, ?_⟩
  decide +kernel

end Verif.Cleanup
