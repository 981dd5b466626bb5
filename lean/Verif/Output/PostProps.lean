import Verif.Output.PostModel

/-!
# C174: output after a run
-/
namespace Verif.Output

/-- **C174**, as one would expect: writing after the run, from the cache, writes the steps that are written during a run. -/
def C174_claim : Prop := ∀ (c : Cfg) (s0 : St) (t0 ts : Int) (L k : Nat), k ≤ L → ts ≠ 0 →
  (∀ p, c.ots = some p → 0 < p) → postWritten c s0 t0 ts L k = written c t0 ts L k

/-- Any state before. -/
def anyState : St := ⟨0, 0, true, true, false⟩

/-- Without `output_last_step` the last step is written if the step before is: the last is not prepared. -/
theorem C174_counterexample : ¬ C174_claim := by
  intro h
  have := h { ots := some 1800, last := false } anyState 0 900 3 3 (by decide) (by decide)
    (by intro p hp; cases hp; decide)
  revert this; decide

/-- In a run with a step of one day the seconds of a step are 0: no step but the first and the last is written. -/
theorem C174_counterexample_day :
    written { ots := some 86400 } 0 86400 5 2 = true ∧ postWritten { ots := some 86400 } anyState 0 86400 5 2 = false := by
  decide

/-- In a run backwards a step of 15 minutes is taken for 23 hours and 45 minutes: every step is written. -/
theorem C174_counterexample_backward :
    written { ots := some 3600 } 0 (-900) 9 1 = false ∧ postWritten { ots := some 3600 } anyState 0 (-900) 9 1 = true := by
  decide

/-- An outputter that has been used in a run before has written its first output: with a start between two steps, the
first step after it is left out. -/
theorem C174_counterexample_used :
    written { ots := some 3600, ostart := some 1000 } 0 900 9 2 = true ∧
    postWritten { ots := some 3600, ostart := some 1000 } { anyState with isFirst := false } 0 900 9 2 = false := by
  decide

/-- The same state as far as it matters. -/
def Same (c : Cfg) (a b : St) : Prop :=
  a.mstart = b.mstart ∧ a.dt = b.dt ∧ a.write = b.write ∧ a.singleAtStart = b.singleAtStart ∧
  (c.ostart = none ∨ a.isFirst = b.isFirst)

theorem same_cadence (c : Cfg) (a b : St) (ts : Int) (h : Same c a b) : Same c (cadence c a ts) (cadence c b ts) := by
  obtain ⟨h1, h2, h3, h4, h5⟩ := h
  unfold cadence
  cases c.single with
  | true => exact ⟨h1, h2, rfl, h4, h5⟩
  | false =>
    cases hp : c.ots with
    | none => exact ⟨h1, h2, h3, h4, h5⟩
    | some p =>
      simp only [Bool.false_eq_true, if_false]
      rw [h2]
      split
      · exact ⟨h1, rfl, rfl, h4, h5⟩
      · exact ⟨h1, rfl, rfl, h4, h5⟩

theorem same_step (c : Cfg) (a b : St) (ts mt : Int) (h : Same c a b) :
    Same c (prepareStep c a ts mt) (prepareStep c b ts mt) := by
  have hc := same_cadence c a b ts h
  unfold prepareStep
  cases c.on with
  | false => exact h
  | true =>
    simp only [Bool.not_true, Bool.false_eq_true, if_false]
    obtain ⟨h1, h2, h3, h4, h5⟩ := h
    cases ho : c.ostart with
    | none => exact hc
    | some S =>
      have h6 : a.isFirst = b.isFirst := by
        rcases h5 with h | h
        · rw [ho] at h; cases h
        · exact h
      simp only [h1, h6]
      split
      · split
        · exact ⟨rfl, h2, rfl, h4, Or.inr rfl⟩
        · split
          · exact ⟨rfl, h2, rfl, h4, Or.inr rfl⟩
          · split
            · split
              · exact ⟨rfl, h2, rfl, h4, Or.inr rfl⟩
              · exact hc
            · exact hc
      · exact hc

theorem same_write (c : Cfg) (a b : St) (k : Nat) (l : Bool) (h : Same c a b) :
    Same c (writeOutput c a k l) (writeOutput c b k l) := by
  obtain ⟨h1, h2, h3, h4, h5⟩ := h
  unfold writeOutput
  by_cases hk : k = 0 <;> cases (l && c.last) <;> simp only [hk, if_true, if_false, Bool.false_eq_true] <;>
    first
    | exact ⟨h1, h2, h3, h4, h5⟩
    | exact ⟨h1, h2, rfl, h4, h5⟩
    | exact ⟨h1, h2, by simp [h4], h4, h5⟩

/-- What holds: in a run forwards with a step below one day, with the last step written, and an outputter that has no start
time or has not been used. -/
theorem C174_partial (c : Cfg) (s0 : St) (t0 ts : Int) (L k : Nat) (hk : k ≤ L) (h0 : 0 < ts) (h1 : ts < 86400)
    (hl : c.last = true) (hf : c.ostart = none ∨ s0.isFirst = true) :
    postWritten c s0 t0 ts L k = written c t0 ts L k := by
  have hs : secondsOf ts = ts := by
    unfold secondsOf
    rw [Int.fmod_eq_emod_of_nonneg _ (by decide), Int.emod_eq_of_lt (by omega) h1]
  have ind : ∀ k, k < L → Same c (postAt c s0 t0 ts L k) (stateAt c t0 ts L k) := by
    intro k
    induction k with
    | zero =>
      intro _
      rw [postAt, stateAt]
      simp only [writeOutput, postRun, prepareRun]
      have hd : decide (0 = L) = false := by simp; omega
      rw [hd]
      simp only [Bool.false_and, Bool.false_eq_true, if_false]
      exact ⟨rfl, rfl, rfl, rfl, hf.imp id id⟩
    | succ k ih =>
      intro hk
      rw [postAt, stateAt]
      simp only [if_pos hk, hs]
      exact same_write c _ _ _ _ (same_step c _ _ _ _ (ih (by omega)))
  unfold postWritten written
  rcases Nat.lt_or_eq_of_le hk with h | h
  · rw [(ind k h).2.2.1]
  · subst h
    congr 1
    cases k with
    | zero =>
      rw [postAt, stateAt]
      simp [writeOutput, hl]
    | succ k =>
      rw [postAt, stateAt]
      simp [writeOutput, hl]

example : postWritten { ots := some 3600 } anyState 0 900 9 4 = true ∧ postWritten { ots := some 3600 } anyState 0 900 9 5 = false := by
  decide

end Verif.Output
