import Verif.Output.Model
import Mathlib.Tactic.Ring
import Mathlib.Tactic.Linarith
/-!
# Properties C27–C30: which steps are written
-/
namespace Verif.Output

/-- how many whole output intervals `P` have elapsed after `k` steps of length `ts` -/
def intervals (ts P : Int) (k : Nat) : Int := (k * ts) / P

/-- a plain outputter with an output time step -/
def Plain (c : Cfg) (P : Int) : Prop := c.on = true ∧ c.single = false ∧ c.ostart = none ∧ c.ots = some P

theorem write_k (c : Cfg) (s : St) (k : Nat) (b : Bool) :
    (writeOutput c s (k + 1) b).write = ((b && c.last) || s.write) := by
  unfold writeOutput
  cases (b && c.last) <;> simp

theorem write_dt (c : Cfg) (s : St) (k : Nat) (b : Bool) :
    (writeOutput c s k b).dt = s.dt ∧ (writeOutput c s k b).isFirst = s.isFirst ∧
    (writeOutput c s k b).mstart = s.mstart := by
  unfold writeOutput
  split <;> split <;> exact ⟨rfl, rfl, rfl⟩

theorem stateAt_mstart (c : Cfg) (t0 ts : Int) (L k : Nat) : (stateAt c t0 ts L k).mstart = t0 := by
  induction k with
  | zero => rw [stateAt, (write_dt _ _ _ _).2.2]; rfl
  | succ k ih =>
    rw [stateAt, (write_dt _ _ _ _).2.2]
    simp only [prepareStep, cadence]
    repeat' split
    all_goals exact ih

/-- arithmetic of the accumulator -/
theorem acc_step (P ts : Int) (hP : 0 < P) (hts : 0 < ts) (k : Nat) :
    ((k * ts % P + ts) % P = ((k + 1 : Nat) : Int) * ts % P) ∧
    (P ≤ k * ts % P + ts ↔ intervals ts P k < intervals ts P (k + 1)) := by
  have e : ((k + 1 : Nat) : Int) * ts = k * ts + ts := by push_cast; ring
  have hm := Int.emod_add_mul_ediv (k * ts) P
  have h0 := Int.emod_nonneg (k * ts) (show P ≠ 0 by omega)
  have h1 := Int.emod_lt_of_pos (k * ts) hP
  constructor
  · rw [e, Int.emod_add_emod]
  · unfold intervals
    rw [e]
    generalize hq : k * ts / P = q at *
    generalize hr : k * ts % P = r at *
    have e2 : (k * ts + ts) / P = q + (r + ts) / P := by
      have : (k * ts + ts) = (r + ts) + P * q := by omega
      rw [this, Int.add_mul_ediv_left _ _ (by omega)]; ring
    rw [e2]
    constructor
    · intro h
      have : 1 ≤ (r + ts) / P := by rw [Int.le_ediv_iff_mul_le hP]; omega
      omega
    · intro h
      by_contra hc
      have : (r + ts) / P = 0 := Int.ediv_eq_zero_of_lt (by omega) (by omega)
      omega

/-- the state of a forward plain run: the accumulator is `k·ts mod P` -/
theorem forward_dt (c : Cfg) (P t0 ts : Int) (L : Nat) (hc : Plain c P) (hP : 0 < P) (hts : 0 < ts) (k : Nat) :
    (stateAt c t0 ts L k).dt = k * ts % P := by
  obtain ⟨h1, h2, h3, h4⟩ := hc
  induction k with
  | zero => rw [stateAt, (write_dt _ _ _ _).1]; simp [prepareRun]
  | succ k ih =>
    rw [stateAt, (write_dt _ _ _ _).1]
    simp only [prepareStep, h1, h3, cadence, h2, h4]
    rw [ih]
    have h0 := Int.emod_nonneg (k * ts) (show P ≠ 0 by omega)
    have := acc_step P ts hP hts k
    simp only [Bool.not_true, Bool.false_eq_true, if_false]
    split
    · simp only
      rw [Int.fmod_eq_emod_of_nonneg _ (by omega), this.1]
    · rename_i h
      show k * ts % P + ts = _
      rw [← this.1]
      exact (Int.emod_eq_of_lt (by omega) (by omega)).symm

/-- **C27.** Forward run, output interval `P`, any time step: step `k+1` is written iff the number of whole output
intervals elapsed increases at it, or it is the last step and `output_last_step` is set. No drift, for any number of
steps. -/
theorem C27_forward_cadence (c : Cfg) (P t0 ts : Int) (L : Nat) (hc : Plain c P) (hP : 0 < P) (hts : 0 < ts)
    (k : Nat) :
    written c t0 ts L (k + 1) = true ↔
      intervals ts P k < intervals ts P (k + 1) ∨ (k + 1 = L ∧ c.last = true) := by
  have hdt := forward_dt c P t0 ts L hc hP hts k
  obtain ⟨h1, h2, h3, h4⟩ := hc
  have h0 := Int.emod_nonneg (k * ts) (show P ≠ 0 by omega)
  have hacc := (acc_step P ts hP hts k).2
  unfold written
  rw [stateAt, write_k]
  simp only [h1, prepareStep, h3, cadence, h2, h4, hdt, Bool.true_and, Bool.not_true, Bool.false_eq_true, if_false,
    Bool.or_eq_true, Bool.and_eq_true, decide_eq_true_eq]
  rw [← hacc]
  split
  · simp only [or_true, true_iff]; left; omega
  · simp only [Bool.false_eq_true, or_false]
    constructor
    · exact fun h => Or.inr h
    · rintro (h | h)
      · omega
      · exact h

/-- **C27**, consequence: if the model step is at least the output interval, every step is written. -/
theorem C27_every_step (c : Cfg) (P t0 ts : Int) (L : Nat) (hc : Plain c P) (hP : 0 < P) (hts : P ≤ ts) (k : Nat) :
    written c t0 ts L (k + 1) = true := by
  rw [C27_forward_cadence c P t0 ts L hc hP (by omega)]
  left
  rw [← (acc_step P ts hP (by omega) k).2]
  have h0 := Int.emod_nonneg (k * ts) (show P ≠ 0 by omega)
  omega

/-- **C27**, consequence: with `ts ≤ P` the number of outputs among steps 1..k is exactly the number of whole output
intervals elapsed (`output_last_step` off). -/
theorem C27_count (c : Cfg) (P t0 ts : Int) (L : Nat) (hc : Plain c P) (hP : 0 < P) (hts : 0 < ts) (hle : ts ≤ P)
    (hl : c.last = false) (k : Nat) :
    (((List.range k).countP (fun i => written c t0 ts L (i + 1)) : Nat) : Int) = intervals ts P k := by
  induction k with
  | zero => simp [intervals]
  | succ k ih =>
    rw [List.range_succ, List.countP_append]
    push_cast
    rw [ih]
    have hw := C27_forward_cadence c P t0 ts L hc hP hts k
    simp only [hl, Bool.false_eq_true, and_false, or_false] at hw
    have e : ((k + 1 : Nat) : Int) * ts = k * ts + ts := by push_cast; ring
    have hstep : intervals ts P (k + 1) ≤ intervals ts P k + 1 := by
      unfold intervals
      rw [e]
      have : (k * ts + ts) / P ≤ (k * ts + P * 1) / P := Int.ediv_le_ediv hP (by omega)
      rwa [Int.add_mul_ediv_left _ _ (by omega)] at this
    have hmono : intervals ts P k ≤ intervals ts P (k + 1) := by
      unfold intervals; rw [e]; exact Int.ediv_le_ediv hP (by omega)
    simp only [List.countP_cons, List.countP_nil]
    split
    · rename_i h
      have := hw.1 h
      push_cast; omega
    · rename_i h
      have : ¬ intervals ts P k < intervals ts P (k + 1) := fun h' => h (hw.2 h')
      push_cast; omega

example : Plain { ots := some 2500 } 2500 ∧
    (List.range 10).map (fun k => written { ots := some 2500, last := false } 0 1000 99 (k + 1)) =
      [false, false, true, false, true, false, false, true, false, true] := ⟨⟨rfl, rfl, rfl, rfl⟩, by decide⟩

/-! ## C28 -/

/-- the claim of C28 -/
def C28_claim : Prop := ∀ (c : Cfg) (P t0 ts : Int) (L k : Nat), Plain c P → 0 < P → 0 < ts →
  written c t0 (-ts) L k = written c t0 ts L k

/-- **C28 is false of the code**: with steps of 1000 s and an output interval of 2500 s the forward run writes step 5,
the backward run does not. -/
theorem C28_counterexample : ¬ C28_claim := by
  intro h
  have := h { ots := some 2500 } 2500 0 1000 99 5 ⟨rfl, rfl, rfl, rfl⟩ (by decide) (by decide)
  revert this
  decide

/-- even with a model step longer than the output interval a backward run misses steps -/
theorem C28_counterexample_long : written { ots := some 2500 } 0 (-3000) 99 2 = false ∧
    written { ots := some 2500 } 0 3000 99 2 = true := by decide

theorem natAbs_dt_forward {x y : Int} (h : 0 ≤ x) (hy : 0 < y) : ((x + y).natAbs : Int) = x + y := by omega

/-- accumulator of a backward run when the step divides the interval -/
theorem backward_dt_div (c : Cfg) (t0 ts : Int) (m : Nat) (hm : 0 < m) (L : Nat) (hc : Plain c (m * ts))
    (hts : 0 < ts) (k : Nat) : (stateAt c t0 (-ts) L k).dt = -(((k % m : Nat) : Int) * ts) := by
  obtain ⟨h1, h2, h3, h4⟩ := hc
  induction k with
  | zero => rw [stateAt, (write_dt _ _ _ _).1]; simp [prepareRun]
  | succ k ih =>
    rw [stateAt, (write_dt _ _ _ _).1]
    simp only [prepareStep, h1, h3, cadence, h2, h4]
    rw [ih]
    simp only [Bool.not_true, Bool.false_eq_true, if_false]
    have hlt : k % m < m := Nat.mod_lt _ hm
    have hmt : 0 < (m : Int) * ts := by positivity
    have hsum : -(((k % m : Nat) : Int) * ts) + -ts = -((((k % m) + 1 : Nat) : Int) * ts) := by push_cast; ring
    rw [hsum]
    have habs : ((-((((k % m) + 1 : Nat) : Int) * ts)).natAbs : Int) = (((k % m) + 1 : Nat) : Int) * ts := by
      rw [Int.natAbs_neg, Int.natAbs_of_nonneg (by positivity)]
    have habs2 : (((m : Int) * ts).natAbs : Int) = m * ts := Int.natAbs_of_nonneg (by positivity)
    by_cases heq : k % m + 1 = m
    · have hmod : (k + 1) % m = 0 := by
        rw [Nat.add_mod]
        rcases Nat.lt_or_ge 1 m with h | h
        · rw [Nat.mod_eq_of_lt h, heq, Nat.mod_self]
        · have : m = 1 := by omega
          subst this; exact Nat.mod_one _
      rw [if_pos (by rw [heq]; simp)]
      simp only [heq, hmod]
      rw [Int.fmod_eq_emod_of_nonneg _ (by omega)]
      simp
    · have hmod : (k + 1) % m = k % m + 1 := by
        rw [Nat.add_mod]
        have h1m : 1 < m := by omega
        rw [Nat.mod_eq_of_lt h1m, Nat.mod_eq_of_lt (by omega)]
      rw [if_neg, hmod]
      intro hge
      have hge' : (m : Int) * ts ≤ (((k % m) + 1 : Nat) : Int) * ts := by
        rw [← habs, ← habs2]; exact_mod_cast hge
      have : (m : Int) ≤ ((k % m + 1 : Nat) : Int) := le_of_mul_le_mul_right hge' hts
      omega

/-- accumulator of a backward run when the interval divides the step -/
theorem backward_dt_mul (c : Cfg) (t0 P : Int) (m : Nat) (hm : 0 < m) (L : Nat) (hc : Plain c P)
    (hP : 0 < P) (k : Nat) : (stateAt c t0 (-(m * P)) L k).dt = 0 := by
  obtain ⟨h1, h2, h3, h4⟩ := hc
  induction k with
  | zero => rw [stateAt, (write_dt _ _ _ _).1]; simp [prepareRun]
  | succ k ih =>
    rw [stateAt, (write_dt _ _ _ _).1]
    simp only [prepareStep, h1, h3, cadence, h2, h4]
    rw [ih]
    simp only [Bool.not_true, Bool.false_eq_true, if_false, Int.zero_add]
    rw [if_pos]
    · simp only
      rw [Int.fmod_eq_emod_of_nonneg _ (by omega), ← Int.neg_mul]
      simp
    · rw [Int.natAbs_neg, Int.natAbs_mul]
      simp only [Int.natAbs_natCast]
      exact Nat.le_mul_of_pos_left _ hm

theorem intervals_div (ts : Int) (m k : Nat) (hm : 0 < m) (hts : 0 < ts) :
    intervals ts (m * ts) k < intervals ts (m * ts) (k + 1) ↔ k % m + 1 = m := by
  have hd : ∀ j : Nat, intervals ts (m * ts) j = ((j / m : Nat) : Int) := by
    intro j
    unfold intervals
    rw [Int.mul_ediv_mul_of_pos_left _ _ hts]
    norm_cast
  rw [hd, hd]
  norm_cast
  rw [Nat.succ_div]
  have hlt : k % m < m := Nat.mod_lt _ hm
  have hdvd : m ∣ k + 1 ↔ k % m + 1 = m := by
    rw [Nat.dvd_iff_mod_eq_zero]
    constructor
    · intro h
      by_contra hne
      rw [Nat.add_mod] at h
      have h1m : 1 < m := by omega
      rw [Nat.mod_eq_of_lt h1m, Nat.mod_eq_of_lt (by omega)] at h
      omega
    · intro h
      rw [Nat.add_mod]
      rcases Nat.lt_or_ge 1 m with h' | h'
      · rw [Nat.mod_eq_of_lt h', h, Nat.mod_self]
      · have : m = 1 := by omega
        subst this; exact Nat.mod_one _
  rw [← hdvd]
  split <;> simp_all

/-- **C28, part that holds**: the backward run writes the same steps as the forward run when the output interval is a
multiple of the time step, or the time step a multiple of the output interval. Missing: all other ratios. -/
theorem C28_backward_partial (c : Cfg) (P t0 ts : Int) (L : Nat) (hc : Plain c P) (hP : 0 < P) (hts : 0 < ts)
    (hdvd : (∃ m : Nat, P = m * ts) ∨ (∃ m : Nat, ts = m * P)) (k : Nat) :
    written c t0 (-ts) L k = written c t0 ts L k := by
  cases k with
  | zero => rfl
  | succ k =>
    rw [Bool.eq_iff_iff, C27_forward_cadence c P t0 ts L hc hP hts]
    rcases hdvd with ⟨m, rfl⟩ | ⟨m, rfl⟩
    · have hm : 0 < m := by
        rcases Nat.eq_zero_or_pos m with rfl | h
        · simp at hP
        · exact h
      have hdt := backward_dt_div c t0 ts m hm L hc hts k
      obtain ⟨h1, h2, h3, h4⟩ := hc
      rw [intervals_div ts m k hm hts]
      unfold written
      rw [stateAt, write_k]
      simp only [h1, prepareStep, h3, cadence, h2, h4, hdt, Bool.true_and, Bool.not_true, Bool.false_eq_true, if_false,
        Bool.or_eq_true, Bool.and_eq_true, decide_eq_true_eq]
      have hsum : -(((k % m : Nat) : Int) * ts) + -ts = -((((k % m) + 1 : Nat) : Int) * ts) := by push_cast; ring
      rw [hsum]
      have habs : ((-((((k % m) + 1 : Nat) : Int) * ts)).natAbs : Int) = (((k % m) + 1 : Nat) : Int) * ts := by
        rw [Int.natAbs_neg, Int.natAbs_of_nonneg (by positivity)]
      have habs2 : (((m : Int) * ts).natAbs : Int) = m * ts := Int.natAbs_of_nonneg (by positivity)
      have hiff : ((-((((k % m) + 1 : Nat) : Int) * ts)).natAbs ≥ ((m : Int) * ts).natAbs) ↔ k % m + 1 = m := by
        have hlt : k % m < m := Nat.mod_lt _ hm
        constructor
        · intro hge
          have hge' : (m : Int) * ts ≤ (((k % m) + 1 : Nat) : Int) * ts := by
            rw [← habs, ← habs2]; exact_mod_cast hge
          have : (m : Int) ≤ ((k % m + 1 : Nat) : Int) := le_of_mul_le_mul_right hge' hts
          omega
        · intro h; rw [h]; simp
      split
      · rename_i h; simp [hiff.1 h]
      · rename_i h
        have : ¬ (k % m + 1 = m) := fun h' => h (hiff.2 h')
        simp [this]
    · have hm : 0 < m := by
        rcases Nat.eq_zero_or_pos m with rfl | h
        · simp at hts
        · exact h
      have hdt := backward_dt_mul c t0 P m hm L hc hP k
      have hinc : intervals (m * P) P k < intervals (m * P) P (k + 1) := by
        rw [← (acc_step P (m * P) hP hts k).2]
        have h0 := Int.emod_nonneg (k * (m * P)) (show P ≠ 0 by omega)
        have : P ≤ m * P := by nlinarith [show (1 : Int) ≤ m by omega]
        omega
      obtain ⟨h1, h2, h3, h4⟩ := hc
      unfold written
      rw [stateAt, write_k]
      simp only [h1, prepareStep, h3, cadence, h2, h4, hdt, Bool.true_and, Bool.not_true, Bool.false_eq_true, if_false,
        Bool.or_eq_true, Bool.and_eq_true, decide_eq_true_eq, Int.zero_add, hinc, true_or, iff_true]
      rw [if_pos]
      · right; rfl
      · rw [Int.natAbs_neg, Int.natAbs_mul]
        simp only [Int.natAbs_natCast]
        exact Nat.le_mul_of_pos_left _ hm

example : Plain { ots := some 3600 } 3600 ∧ ∃ m : Nat, (3600 : Int) = m * 900 := ⟨⟨rfl, rfl, rfl, rfl⟩, 4, rfl⟩

/-! ## C29 -/

/-- an outputter without output interval, start time or single step -/
def EveryStep (c : Cfg) : Prop := c.on = true ∧ c.single = false ∧ c.ostart = none ∧ c.ots = none

/-- the claim of C29 -/
def C29_claim : Prop := ∀ (c : Cfg) (t0 ts : Int) (L k : Nat), EveryStep c →
  written c t0 ts L k = (decide (0 < k) || c.zero || (decide (k = L) && c.last))

/-- without interval the flag only changes at step 0 and at the last step -/
theorem every_write (c : Cfg) (t0 ts : Int) (L : Nat) (hc : EveryStep c) (k : Nat) (hk : k ≤ L) :
    (stateAt c t0 ts L k).write = (c.zero || (decide (k = L) && c.last)) := by
  obtain ⟨h1, h2, h3, h4⟩ := hc
  induction k with
  | zero =>
    simp only [stateAt, writeOutput, prepareRun, h2, h3]
    by_cases h : 0 = L <;> cases c.last <;> simp [h]
  | succ k ih =>
    rw [stateAt, write_k]
    simp only [prepareStep, h1, h3, cadence, h2, h4]
    simp only [Bool.not_true, Bool.false_eq_true, if_false]
    rw [ih (by omega)]
    have : ¬ k = L := by omega
    simp [this, Bool.or_comm]

/-- **C29, part that holds**: with `output_zero_step` on, every step is written (forward or backward). Missing:
`output_zero_step = False`. -/
theorem C29_every_step_partial (c : Cfg) (t0 ts : Int) (L : Nat) (hc : EveryStep c) (hz : c.zero = true) (k : Nat)
    (hk : k ≤ L) : written c t0 ts L k = true := by
  unfold written
  rw [every_write c t0 ts L hc k hk, hz, hc.1]
  rfl

/-- **C29 is false of the code**: with `output_zero_step = False` and no `output_timestep` *nothing* is written before
the last step, for every run. -/
theorem C29_nothing_written (c : Cfg) (t0 ts : Int) (L : Nat) (hc : EveryStep c) (hz : c.zero = false) (k : Nat)
    (hk : k < L) : written c t0 ts L k = false := by
  unfold written
  rw [every_write c t0 ts L hc k (by omega), hz]
  have : ¬ k = L := by omega
  simp [this]

theorem C29_counterexample : ¬ C29_claim := by
  intro h
  have h1 := h { zero := false } 0 900 5 2 ⟨rfl, rfl, rfl, rfl⟩
  rw [C29_nothing_written { zero := false } 0 900 5 ⟨rfl, rfl, rfl, rfl⟩ rfl 2 (by decide)] at h1
  revert h1; decide

example : EveryStep {} := ⟨rfl, rfl, rfl, rfl⟩

/-! ## C30 -/

/-- the claim of C30 for a run in direction `ts`: nothing is written before the start time, and the first step that
reaches it is written (`S` lies after the model start in the direction of the run) -/
def C30_claim : Prop := ∀ (c : Cfg) (t0 ts S : Int) (L : Nat), c.on = true → c.ostart = some S → ts ≠ 0 →
  0 < (S - t0) * ts →
  (∀ k ≤ L, (S - (t0 + k * ts)) * ts > 0 → written c t0 ts L k = false) ∧
  (∀ k ≤ L, (S - (t0 + k * ts)) * ts ≤ 0 → (∀ j < k, (S - (t0 + j * ts)) * ts > 0) → written c t0 ts L k = true)

/-- **C30 is false of the code (1)**: step 0 is written even when it lies before the start time
(`output_zero_step` is on by default). -/
theorem C30_counterexample_zero : ¬ C30_claim := by
  intro h
  have := (h { ostart := some 3600 } 0 900 3600 10 rfl rfl (by decide) (by decide)).1 0 (by decide) (by decide)
  revert this
  decide

/-- **C30 is false of the code (2)**: in a backward run with a start time, the steps *before* it are written and
those after it are not. -/
theorem C30_counterexample_backward :
    (List.range 8).map (fun k => written { ostart := some (-3600), zero := false, last := false } 0 (-900) 99 (k + 1)) =
      [false, false, false, true, false, false, false, false] ∧
    (List.range 8).map (fun k => written { ostart := some (-3600), ots := some 900, zero := false, last := false }
        0 (-900) 99 (k + 1)) =
      [true, true, true, true, false, false, false, false] := by decide

/-- **C30 is false of the code (3)**: a start time before the model start makes step 1 be written whatever the output
interval. -/
theorem C30_start_before_model : written { ostart := some (-5), ots := some 3600, zero := false, last := false }
    0 900 99 1 = true := by decide

theorem before_start (c : Cfg) (t0 ts S : Int) (L : Nat) (hon : c.on = true) (hs : c.ostart = some S) (hS : t0 < S)
    (k : Nat) (hlt : t0 + k * ts < S) (hts : 0 < ts) :
    (stateAt c t0 ts L k).isFirst = true ∧ (stateAt c t0 ts L k).dt = 0 ∧
    (0 < k → (stateAt c t0 ts L k).write = (decide (k = L) && c.last)) := by
  induction k with
  | zero =>
    rw [stateAt]
    obtain ⟨e1, e2, e3⟩ := write_dt c (prepareRun c t0) 0 (decide (0 = L))
    rw [e1, e2]
    exact ⟨rfl, rfl, by simp⟩
  | succ k ih =>
    have hlt' : t0 + k * ts < S := by push_cast at hlt; nlinarith
    obtain ⟨i1, i2, i3⟩ := ih hlt'
    rw [stateAt]
    obtain ⟨e1, e2, e3⟩ := write_dt c (prepareStep c (stateAt c t0 ts L k) ts (t0 + k * ts)) (k + 1) (decide (k + 1 = L))
    rw [e1, e2, write_k]
    have hm := stateAt_mstart c t0 ts L k
    have hcond : t0 + k * ts + ts < S := by push_cast at hlt; nlinarith
    have hp : prepareStep c (stateAt c t0 ts L k) ts (t0 + k * ts) = { stateAt c t0 ts L k with write := false } := by
      simp only [prepareStep, hon, hs, hm]
      rw [if_pos (show S ≠ t0 by omega), if_pos hcond]
      simp
    rw [hp]
    exact ⟨i1, i2, by simp⟩

theorem at_start (c : Cfg) (t0 ts S : Int) (L : Nat) (hon : c.on = true) (hs : c.ostart = some S) (hS : t0 < S)
    (hts : 0 < ts) (j : Nat) (h1 : t0 + j * ts < S) (h2 : S ≤ t0 + ((j + 1 : Nat) : Int) * ts) :
    (stateAt c t0 ts L (j + 1)).write = true ∧ (stateAt c t0 ts L (j + 1)).isFirst = false ∧
    (stateAt c t0 ts L (j + 1)).dt = 0 := by
  obtain ⟨i1, i2, i3⟩ := before_start c t0 ts S L hon hs hS j h1 hts
  rw [stateAt]
  obtain ⟨e1, e2, e3⟩ := write_dt c (prepareStep c (stateAt c t0 ts L j) ts (t0 + j * ts)) (j + 1) (decide (j + 1 = L))
  rw [e1, e2, write_k]
  have hm := stateAt_mstart c t0 ts L j
  have hge : S ≤ t0 + j * ts + ts := by push_cast at h2; nlinarith
  have hp : prepareStep c (stateAt c t0 ts L j) ts (t0 + j * ts) =
      { stateAt c t0 ts L j with write := true, isFirst := false } := by
    simp only [prepareStep, hon, hs, hm]
    rw [if_pos (show S ≠ t0 by omega), if_neg (show ¬ t0 + j * ts + ts < S by omega)]
    simp only [Bool.not_true, Bool.false_eq_true, if_false]
    by_cases he : t0 + j * ts + ts = S
    · rw [if_pos he]
    · rw [if_neg he, if_pos (Or.inl ⟨by omega, hts⟩), i1]
      simp
  rw [hp]
  exact ⟨by simp, rfl, i2⟩

/-- **C30, part that holds**: in a forward run with a start time after the model start, no step `k ≥ 1` before the
start time is written (except the last one if `output_last_step` is on), and the first step at or after it is.
Missing: step 0, backward runs, start times before the model start. -/
theorem C30_start_time_partial (c : Cfg) (t0 ts S : Int) (L : Nat) (hon : c.on = true) (hs : c.ostart = some S)
    (hS : t0 < S) (hts : 0 < ts) :
    (∀ k : Nat, 0 < k → t0 + k * ts < S → written c t0 ts L k = (decide (k = L) && c.last)) ∧
    (∀ j : Nat, t0 + j * ts < S → S ≤ t0 + ((j + 1 : Nat) : Int) * ts → written c t0 ts L (j + 1) = true) := by
  constructor
  · intro k hk hlt
    have := (before_start c t0 ts S L hon hs hS k hlt hts).2.2 hk
    unfold written; rw [this, hon]; simp
  · intro j h1 h2
    have := (at_start c t0 ts S L hon hs hS hts j h1 h2).1
    unfold written; rw [this, hon]; rfl

/-- **C30**, and from that step on the cadence of C27 counts from it: step `j+1+i+1` is written iff the number of whole
output intervals since step `j+1` increases (or it is the last step). -/
theorem C30_cadence_from_start (c : Cfg) (t0 ts S P : Int) (L : Nat) (hon : c.on = true) (hs : c.ostart = some S)
    (hsi : c.single = false) (ho : c.ots = some P) (hP : 0 < P) (hS : t0 < S) (hts : 0 < ts) (j : Nat)
    (h1 : t0 + j * ts < S) (h2 : S ≤ t0 + ((j + 1 : Nat) : Int) * ts) (i : Nat) :
    (written c t0 ts L (j + 1 + (i + 1)) = true ↔
      intervals ts P i < intervals ts P (i + 1) ∨ (j + 1 + (i + 1) = L ∧ c.last = true)) := by
  have key : ∀ i : Nat, (stateAt c t0 ts L (j + 1 + i)).isFirst = false ∧ (stateAt c t0 ts L (j + 1 + i)).dt = i * ts % P := by
    intro i
    induction i with
    | zero =>
      obtain ⟨a, b, d⟩ := at_start c t0 ts S L hon hs hS hts j h1 h2
      exact ⟨b, by simpa using d⟩
    | succ i ih =>
      have e : j + 1 + (i + 1) = (j + 1 + i) + 1 := by omega
      rw [e, stateAt]
      obtain ⟨e1, e2, e3⟩ := write_dt c (prepareStep c (stateAt c t0 ts L (j + 1 + i)) ts (t0 + ((j + 1 + i : Nat) : Int) * ts))
        (j + 1 + i + 1) (decide (j + 1 + i + 1 = L))
      rw [e1, e2]
      have hm := stateAt_mstart c t0 ts L (j + 1 + i)
      have hgt : S < t0 + ((j + 1 + i : Nat) : Int) * ts + ts := by push_cast at h2 ⊢; nlinarith
      have hp : prepareStep c (stateAt c t0 ts L (j + 1 + i)) ts (t0 + ((j + 1 + i : Nat) : Int) * ts) =
          cadence c (stateAt c t0 ts L (j + 1 + i)) ts := by
        simp only [prepareStep, hon, hs, hm]
        rw [if_pos (show S ≠ t0 by omega), if_neg (show ¬ t0 + ((j + 1 + i : Nat) : Int) * ts + ts < S by omega),
          if_neg (show ¬ t0 + ((j + 1 + i : Nat) : Int) * ts + ts = S by omega), if_pos (Or.inl ⟨by omega, hts⟩), ih.1]
        simp
      rw [hp]
      simp only [cadence, hsi, ho, ih.2, Bool.false_eq_true, if_false]
      have h0 := Int.emod_nonneg (i * ts) (show P ≠ 0 by omega)
      have hacc := acc_step P ts hP hts i
      split
      · simp only
        rw [Int.fmod_eq_emod_of_nonneg _ (by omega), hacc.1]
        exact ⟨ih.1, rfl⟩
      · simp only
        rw [← hacc.1]
        exact ⟨ih.1, (Int.emod_eq_of_lt (by omega) (by omega)).symm⟩
  have ih := key i
  have e : j + 1 + (i + 1) = (j + 1 + i) + 1 := by omega
  unfold written
  rw [e, stateAt, write_k]
  have hm := stateAt_mstart c t0 ts L (j + 1 + i)
  have hgt : S < t0 + ((j + 1 + i : Nat) : Int) * ts + ts := by push_cast at h2 ⊢; nlinarith
  have hp : prepareStep c (stateAt c t0 ts L (j + 1 + i)) ts (t0 + ((j + 1 + i : Nat) : Int) * ts) =
      cadence c (stateAt c t0 ts L (j + 1 + i)) ts := by
    simp only [prepareStep, hon, hs, hm]
    rw [if_pos (show S ≠ t0 by omega), if_neg (show ¬ t0 + ((j + 1 + i : Nat) : Int) * ts + ts < S by omega),
      if_neg (show ¬ t0 + ((j + 1 + i : Nat) : Int) * ts + ts = S by omega), if_pos (Or.inl ⟨by omega, hts⟩), ih.1]
    simp
  rw [hp]
  simp only [cadence, hsi, ho, ih.2, hon, Bool.false_eq_true, if_false, Bool.true_and, Bool.or_eq_true,
    Bool.and_eq_true, decide_eq_true_eq]
  have h0 := Int.emod_nonneg (i * ts) (show P ≠ 0 by omega)
  rw [← (acc_step P ts hP hts i).2]
  split
  · simp only [or_true, true_iff]; left; omega
  · simp only [Bool.false_eq_true, or_false]
    constructor
    · exact fun h => Or.inr h
    · rintro (h | h)
      · omega
      · exact h

example : (fun c : Cfg => c.on = true ∧ c.ostart = some 2000 ∧ c.single = false ∧ c.ots = some 1800)
    { ostart := some 2000, ots := some 1800 } ∧
    (List.range 8).map (fun k => written { ostart := some 2000, ots := some 1800, last := false } 0 900 99 (k + 1)) =
      [false, false, true, false, true, false, true, false] := ⟨⟨rfl, rfl, rfl, rfl⟩, by decide⟩

/-- An output interval below one second is accepted and stored as 0, which makes the first step raise
ZeroDivisionError (`Int.fmod _ 0` stands for the raising remainder). -/
theorem C27_subsecond_interval : setOts 500000 = some 0 ∧ setOts 0 = none ∧ setOts (-1) = none := by decide

/-! ## C57 -/

/-- the step a single output belongs to in a forward run: step 0 without a start time or with that of the model,
otherwise the first later step at or after the start time -/
def IsTarget (c : Cfg) (t0 ts : Int) (k : Nat) : Prop :=
  ((c.ostart = none ∨ c.ostart = some t0) ∧ k = 0) ∨
  (∃ S, c.ostart = some S ∧ S ≠ t0 ∧ 0 < k ∧ S ≤ t0 + k * ts ∧ ∀ j : Nat, 0 < j → j < k → t0 + j * ts < S)

/-- the claim of C57: with a single output, the only steps written are the target and, if asked for, the first and the
last -/
def C57_claim (ts : Int) : Prop := ∀ (c : Cfg) (t0 : Int) (L k : Nat), c.on = true → c.single = true →
  (written c t0 ts L k = true ↔ IsTarget c t0 ts k ∨ (k = 0 ∧ c.zero = true) ∨ (k = L ∧ c.last = true))

theorem single_cadence (c : Cfg) (s : St) (ts : Int) (h : c.single = true) : cadence c s ts = { s with write := false } := by
  unfold cadence; rw [if_pos h]

theorem single_no_start (c : Cfg) (t0 ts : Int) (L k : Nat) (hon : c.on = true) (hsi : c.single = true)
    (hs : c.ostart = none ∨ c.ostart = some t0) :
    (stateAt c t0 ts L k).write = (decide (k = 0) || (decide (k = L) && c.last)) := by
  cases k with
  | zero =>
    rw [stateAt]
    unfold writeOutput prepareRun
    rcases hs with h | h <;> simp [hsi, h]
  | succ k =>
    rw [stateAt, write_k]
    have hm := stateAt_mstart c t0 ts L k
    have : prepareStep c (stateAt c t0 ts L k) ts (t0 + k * ts) = { stateAt c t0 ts L k with write := false } := by
      unfold prepareStep
      rcases hs with h | h
      · simp [hon, h, single_cadence c _ ts hsi]
      · simp [hon, h, hm, single_cadence c _ ts hsi]
    rw [this]
    simp

/-- with a start time other than the model's: `isFirst` stays set until the start time is reached, and the step that
reaches it is written -/
theorem single_start (c : Cfg) (t0 ts S : Int) (L k : Nat) (hon : c.on = true) (hsi : c.single = true)
    (hs : c.ostart = some S) (hne : S ≠ t0) (hts : 0 < ts) :
    ((stateAt c t0 ts L k).isFirst = true ↔ k = 0 ∨ t0 + k * ts < S) ∧
    (0 < k → ((stateAt c t0 ts L k).write = true ↔
      (S ≤ t0 + k * ts ∧ (k = 1 ∨ t0 + ((k : Int) - 1) * ts < S)) ∨ (k = L ∧ c.last = true))) := by
  induction k with
  | zero =>
    rw [stateAt]
    obtain ⟨e1, e2, e3⟩ := write_dt c (prepareRun c t0) 0 (decide (0 = L))
    rw [e2]
    exact ⟨by simp [prepareRun], by simp⟩
  | succ k ih =>
    obtain ⟨i1, _⟩ := ih
    have hm := stateAt_mstart c t0 ts L k
    rw [stateAt]
    obtain ⟨e1, e2, e3⟩ := write_dt c (prepareStep c (stateAt c t0 ts L k) ts (t0 + k * ts)) (k + 1) (decide (k + 1 = L))
    rw [e2, write_k]
    have hk : t0 + ((k + 1 : Nat) : Int) * ts = t0 + k * ts + ts := by push_cast; ring
    have hk' : t0 + (((k + 1 : Nat) : Int) - 1) * ts = t0 + k * ts := by push_cast; ring
    have hk1 : k + 1 = 1 ↔ k = 0 := by omega
    rw [hk, hk', hk1]
    have hsc := single_cadence c (stateAt c t0 ts L k) ts hsi
    have hp : (prepareStep c (stateAt c t0 ts L k) ts (t0 + k * ts)).isFirst =
        ((stateAt c t0 ts L k).isFirst && decide (t0 + k * ts + ts < S)) ∧
        (prepareStep c (stateAt c t0 ts L k) ts (t0 + k * ts)).write =
        (((stateAt c t0 ts L k).isFirst || decide (t0 + k * ts + ts = S)) && !decide (t0 + k * ts + ts < S)) := by
      unfold prepareStep
      simp only [hon, hs, hm, hne, hsc, Bool.not_true, Bool.false_eq_true, if_false, ne_eq, not_false_eq_true, if_true]
      rcases lt_trichotomy (t0 + k * ts + ts) S with h | h | h
      · rw [if_pos h]; simp [h]
      · rw [if_neg (by omega), if_pos h]; simp [h]
      · rw [if_neg (by omega), if_neg (by omega), if_pos (Or.inl ⟨h, hts⟩)]
        cases hf : (stateAt c t0 ts L k).isFirst <;> simp [not_lt_of_gt h, ne_of_gt h]
    rw [hp.1, hp.2]
    constructor
    · simp only [Bool.and_eq_true, decide_eq_true_eq, i1, Nat.succ_ne_zero, false_or]
      constructor
      · exact fun h => h.2
      · intro h; exact ⟨Or.inr (by omega), h⟩
    · intro _
      simp only [Bool.or_eq_true, Bool.and_eq_true, decide_eq_true_eq, i1, Bool.not_eq_true', decide_eq_false_iff_not]
      constructor
      · rintro (h | h)
        · exact Or.inr h
        · left
          refine ⟨by omega, ?_⟩
          rcases h.1 with h' | h'
          · exact h'
          · right; omega
      · rintro (h | h)
        · right; exact ⟨Or.inl h.2, by omega⟩
        · left; exact h

/-- **C57, forward runs.** -/
theorem C57_single_partial (ts : Int) (hts : 0 < ts) : C57_claim ts := by
  intro c t0 L k hon hsi
  unfold written IsTarget
  rw [hon, Bool.true_and]
  by_cases hs : c.ostart = none ∨ c.ostart = some t0
  · rw [single_no_start c t0 ts L k hon hsi hs]
    simp only [Bool.or_eq_true, Bool.and_eq_true, decide_eq_true_eq]
    constructor
    · rintro (h | h)
      · exact Or.inl (Or.inl ⟨hs, h⟩)
      · exact Or.inr (Or.inr h)
    · rintro ((⟨_, h⟩ | ⟨S, h, hne, _⟩) | ⟨h, _⟩ | h)
      · exact Or.inl h
      · rcases hs with h' | h' <;> rw [h'] at h
        · exact absurd h (by simp)
        · cases h; exact absurd rfl hne
      · exact Or.inl h
      · exact Or.inr h
  · obtain ⟨S, hS, hne⟩ : ∃ S, c.ostart = some S ∧ S ≠ t0 := by
      cases h : c.ostart with
      | none => exact absurd (Or.inl h) hs
      | some S => exact ⟨S, rfl, fun e => hs (Or.inr (by rw [h, e]))⟩
    obtain ⟨_, i2⟩ := single_start c t0 ts S L k hon hsi hS hne hts
    rcases Nat.eq_zero_or_pos k with h0 | h0
    · subst h0
      rw [stateAt]
      unfold writeOutput prepareRun
      simp only [hS, hsi, if_true]
      have : (some S == some t0) = false := by simpa using hne
      simp only [this]
      by_cases hl : 0 = L <;> cases c.last <;> cases c.zero <;> simp [hl, hne]
    · rw [i2 h0]
      constructor
      · rintro (⟨h1, h2⟩ | h)
        · refine Or.inl (Or.inr ⟨S, hS, hne, h0, h1, ?_⟩)
          intro j hj hjk
          rcases h2 with h2 | h2
          · omega
          · have : (j : Int) ≤ (k : Int) - 1 := by omega
            nlinarith
        · exact Or.inr (Or.inr h)
      · rintro ((⟨h, _⟩ | ⟨S', h, _, _, h1, h2⟩) | ⟨h, _⟩ | h)
        · exact absurd h hs
        · rw [hS] at h; cases h
          left
          refine ⟨h1, ?_⟩
          by_cases hk : k = 1
          · exact Or.inl hk
          · right
            have := h2 (k - 1) (by omega) (by omega)
            have e : ((k - 1 : Nat) : Int) = (k : Int) - 1 := by omega
            rw [e] at this; exact this
        · omega
        · exact Or.inr h

/-- two targets are the same step: with `output_zero_step` and `output_last_step` off, at most one step is written -/
theorem C57_at_most_one (ts : Int) (hts : 0 < ts) (c : Cfg) (t0 : Int) (L k k' : Nat) (hon : c.on = true)
    (hsi : c.single = true) (hz : c.zero = false) (hl : c.last = false) (h : written c t0 ts L k = true)
    (h' : written c t0 ts L k' = true) : k = k' := by
  rw [C57_single_partial ts hts c t0 L k hon hsi] at h
  rw [C57_single_partial ts hts c t0 L k' hon hsi] at h'
  simp only [hz, hl, and_false, or_false, Bool.false_eq_true] at h h'
  rcases h with ⟨a, b⟩ | ⟨S, a, b, d, e, f⟩
  · rcases h' with ⟨a', b'⟩ | ⟨S', a', b', d', e', f'⟩
    · omega
    · rcases a with a | a <;> rw [a] at a'
      · exact absurd a' (by simp)
      · cases a'; exact absurd rfl b'
  · rcases h' with ⟨a', b'⟩ | ⟨S', a', b', d', e', f'⟩
    · rcases a' with a' | a' <;> rw [a'] at a
      · exact absurd a (by simp)
      · cases a; exact absurd rfl b
    · rw [a] at a'; cases a'
      rcases Nat.lt_trichotomy k k' with hlt | heq | hgt
      · have := f' k d hlt; omega
      · exact heq
      · have := f k' d' hgt; omega

/-- **C57 is false of the code for backward runs**: a start time between two steps is never reached, so a single output
is not written at all; the claim would want step 4. -/
theorem C57_counterexample_backward :
    (List.range 9).map (fun k => written { single := true, ostart := some (-3000), zero := false, last := false }
      0 (-900) 99 k) = [false, false, false, false, false, false, false, false, false] := by decide

example : (List.range 6).map (fun k => written { single := true, zero := false, last := false } 0 900 99 k) =
      [true, false, false, false, false, false] ∧
    (List.range 6).map (fun k => written { single := true, ostart := some 2000, zero := false, last := false } 0 900 99 k) =
      [false, false, false, true, false, false] := by decide

end Verif.Output
