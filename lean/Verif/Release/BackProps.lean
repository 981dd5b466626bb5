import Verif.Release.BackModel
import Verif.Release.Props
import Mathlib.Tactic.Linarith
import Mathlib.Tactic.Ring
import Mathlib.Tactic.Positivity
/-!
# C315: a spill appears when the clock reaches its time
-/
namespace Verif.Release

/-- The clock has reached `R` at the time `T`: a run backwards reaches later times first. -/
def Reached (dt T R : ℚ) : Prop := if dt < 0 then T ≤ R else R ≤ T

/-- C315 in full: an instantaneous spill at or after the start (in the direction of the run) is in the output of a step as a whole if the clock has reached its time, and not at all before. -/
def C315_claim : Prop := ∀ (c : Cfg) (dt : ℚ) (p : Prepared) (spec scale S : ℚ) (k : Nat), dt ≠ 0 → c.dur = 0 → prepare c dt = some p → (dt < 0 → c.rt ≤ S) → (0 < dt → S ≤ c.rt) →
  (Reached dt (S + k * dt) c.rt → releasedAt p spec scale S dt k = maxRelease c dt) ∧ (¬ Reached dt (S + k * dt) c.rt → releasedAt p spec scale S dt k = 0)

theorem prepare_inst (c : Cfg) (ts : ℚ) (p : Prepared) (h : c.dur = 0) (hp : prepare c ts = some p) :
    p.rt = c.rt ∧ p.times = [c.rt, c.rt + 1] ∧ p.vals = [(maxRelease c ts : ℚ), (maxRelease c ts : ℚ)] := by
  unfold prepare at hp
  split_ifs at hp
  cases hp
  simp [times, vals, numTs_inst c ts h, h]

/-- the number of elements of an instantaneous release after a time -/
theorem numAfter_inst (c : Cfg) (ts : ℚ) (p : Prepared) (h : c.dur = 0) (hp : prepare c ts = some p) (t : ℚ) :
    numAfter p t = if t < c.rt then 0 else (maxRelease c ts : Int) := by
  obtain ⟨h1, h2, h3⟩ := prepare_inst c ts p h hp
  unfold numAfter
  rw [h1]
  split_ifs with ht
  · rfl
  · have hs : seriesAt p.times p.vals t = (maxRelease c ts : ℚ) := by
      unfold seriesAt
      rw [h2, h3]
      simp only [List.length_cons, List.length_nil]
      norm_num
      intro h4 h5
      have h6 : searchsorted [c.rt, c.rt + 1] t = 1 := by
        unfold searchsorted
        rw [List.takeWhile_cons_of_pos (by simpa using h4), List.takeWhile_cons_of_neg (by simpa using h5)]
        rfl
      rw [h6]
      simp
    rw [hs]
    exact Int.ceil_natCast _

theorem runCalls_append (p : Prepared) (spec scale : ℚ) (s : Spill) (cs ds : List Call) :
    (runCalls p spec scale s (cs ++ ds)).1 = (runCalls p spec scale (runCalls p spec scale s cs).1 ds).1 := by
  induction cs generalizing s with
  | nil => rfl
  | cons c cs ih => simp only [List.cons_append, runCalls, ih]

theorem releasedAt_zero (p : Prepared) (spec scale S dt : ℚ) : releasedAt p spec scale S dt 0 = max 0 (numAfter p S) := by
  unfold releasedAt stepCalls
  simp only [runCalls]
  rw [(release_step p spec scale fresh _).1]
  rfl

theorem releasedAt_succ (p : Prepared) (spec scale S dt : ℚ) (k : Nat) :
    releasedAt p spec scale S dt (k + 1) = max (max (releasedAt p spec scale S dt k) (numAfter p (S + k * dt + dt / 2))) (numAfter p (S + (k + 1) * dt)) := by
  conv_lhs => unfold releasedAt stepCalls
  rw [runCalls_append]
  simp only [runCalls]
  rw [(release_step p spec scale _ _).1, (release_step p spec scale _ _).1]
  rfl

/-- C315, for runs forwards: everything is there exactly from the time of the release on (what is missing: runs backwards, `C315_at_once`). -/
theorem C315_partial (c : Cfg) (dt : ℚ) (p : Prepared) (spec scale S : ℚ) (hd : 0 < dt) (h0 : c.dur = 0) (hp : prepare c dt = some p) (k : Nat) :
    releasedAt p spec scale S dt k = if c.rt ≤ S + k * dt then (maxRelease c dt : Int) else 0 := by
  have hN : (0 : Int) ≤ maxRelease c dt := Int.natCast_nonneg _
  induction k with
  | zero =>
    rw [releasedAt_zero, numAfter_inst c dt p h0 hp]
    simp only [Nat.cast_zero, zero_mul, add_zero]
    split_ifs with h1 h2 h2
    · linarith
    · rfl
    · exact max_eq_right hN
    · linarith
  | succ k ih =>
    rw [releasedAt_succ, ih, numAfter_inst c dt p h0 hp, numAfter_inst c dt p h0 hp]
    have e : S + ((k + 1 : Nat) : ℚ) * dt = S + k * dt + dt := by push_cast; ring
    have e' : S + ((k : ℚ) + 1) * dt = S + k * dt + dt := by ring
    rw [e, e']
    split_ifs <;> first | linarith | simp [hN]

/-- C315, for a run backwards from the time of the release: everything is there from the beginning, as it should be. -/
theorem C315_start (c : Cfg) (dt : ℚ) (p : Prepared) (spec scale : ℚ) (_hd : dt < 0) (h0 : c.dur = 0) (hp : prepare c dt = some p) (k : Nat) :
    releasedAt p spec scale c.rt dt k = maxRelease c dt := by
  have hN : (0 : Int) ≤ maxRelease c dt := Int.natCast_nonneg _
  induction k with
  | zero =>
    rw [releasedAt_zero, numAfter_inst c dt p h0 hp, if_neg (lt_irrefl _)]
    exact max_eq_right hN
  | succ k ih =>
    rw [releasedAt_succ, ih, numAfter_inst c dt p h0 hp, numAfter_inst c dt p h0 hp]
    split_ifs <;> simp [hN]

/-- C315. What a run backwards does: a spill at a time that the clock will reach is there as a whole from the first output on, long before. -/
theorem C315_at_once (c : Cfg) (dt : ℚ) (p : Prepared) (spec scale S : ℚ) (h0 : c.dur = 0) (hp : prepare c dt = some p) (hS : c.rt ≤ S) (k : Nat) :
    releasedAt p spec scale S dt k = maxRelease c dt := by
  have hN : (0 : Int) ≤ maxRelease c dt := Int.natCast_nonneg _
  induction k with
  | zero =>
    rw [releasedAt_zero, numAfter_inst c dt p h0 hp, if_neg (not_lt.2 hS)]
    exact max_eq_right hN
  | succ k ih =>
    rw [releasedAt_succ, ih, numAfter_inst c dt p h0 hp, numAfter_inst c dt p h0 hp]
    split_ifs <;> simp [hN]

/-- C315. A spill at a time that the clock of a run backwards has passed at the start is never there. -/
theorem C315_never (c : Cfg) (dt : ℚ) (p : Prepared) (spec scale S : ℚ) (hd : dt < 0) (h0 : c.dur = 0) (hp : prepare c dt = some p) (hS : S < c.rt) (k : Nat) :
    releasedAt p spec scale S dt k = 0 := by
  induction k with
  | zero =>
    rw [releasedAt_zero, numAfter_inst c dt p h0 hp, if_pos hS]
    rfl
  | succ k ih =>
    have hk : (k : ℚ) * dt ≤ 0 := mul_nonpos_of_nonneg_of_nonpos (Nat.cast_nonneg k) hd.le
    rw [releasedAt_succ, ih, numAfter_inst c dt p h0 hp, numAfter_inst c dt p h0 hp, if_pos (by linarith), if_pos (by linarith [show ((k : ℚ) + 1) * dt = k * dt + dt by ring])]
    rfl

/-- ten elements at noon, in a run backwards from the midnight after -/
def noon : Cfg := { rt := 43200, dur := 0, amount := .total 10, mass := 1000 }

theorem noon_ready : ∃ p, prepare noon (-900) = some p := by
  unfold prepare ratio
  rw [numTs_inst noon (-900) rfl]
  norm_num [noon]

/-- C315 fails: in a run backwards from midnight the elements of a spill at noon are there at once, and drift for twelve hours before they are spilled. -/
theorem C315_counterexample : ¬ C315_claim := by
  intro h
  obtain ⟨p, hp⟩ := noon_ready
  have := (h noon (-900) p 1 1 86400 0 (by norm_num) rfl hp (by norm_num [noon]) (by norm_num)).2 (by unfold Reached; norm_num [noon])
  rw [C315_at_once noon (-900) p 1 1 86400 rfl hp (by norm_num [noon]) 0] at this
  simp [maxRelease, noon] at this

/-- Forwards from the midnight before: the spill is there from the output at noon on (step 48 of 900 s). -/
example : ∃ p, prepare noon 900 = some p ∧ releasedAt p 1 1 0 900 47 = 0 ∧ releasedAt p 1 1 0 900 48 = 10 := by
  have hp : ∃ p, prepare noon 900 = some p := by
    unfold prepare ratio
    rw [numTs_inst noon 900 rfl]
    norm_num [noon]
  obtain ⟨p, hp⟩ := hp
  refine ⟨p, hp, ?_, ?_⟩ <;> rw [C315_partial noon 900 p 1 1 0 (by norm_num) rfl hp] <;> norm_num [noon, maxRelease]

end Verif.Release
