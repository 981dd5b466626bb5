import Verif.Clock.Model
/-!
# Properties C11–C15: model clock, number of steps, full run, restarts, sub-steps
-/
namespace Verif.Clock
open Verif.Py

/-! ## C11 -/

/-- Specification: before the first step the clock shows the start time, at step `n` it shows `start + n·dt`. -/
def ClockLaw (s : State) : Prop :=
  (s.n = -1 ∧ s.mt = s.start) ∨ (0 ≤ s.n ∧ ∃ t, s.ts = some t ∧ s.mt = s.start + s.n * t)

/-- no zero time step is ever given (and the automatic one is not zero) -/
def Op.NonZero : Op → Prop
  | .setTimeStep a => a.us ≠ 0
  | .step auto _ => auto ≠ 0
  | _ => True

structure Inv (s : State) : Prop where
  law : ClockLaw s
  nz : s.ts ≠ some 0

theorem rewind_law (s : State) : ClockLaw (rewind s) := Or.inl ⟨rfl, rfl⟩

theorem resetNum_ok {s : State} (h : s.ts ≠ some 0) :
    resetNum s = .ok { s with num := s.ts.map (fun t => 1 + Int.fdiv s.dur t) } := by
  unfold resetNum
  cases ht : s.ts with
  | none => simp
  | some t =>
    have : t ≠ 0 := fun e => h (by rw [ht, e])
    simp [this]

theorem setTimeStep_ok (s : State) (a : StepArg) (h : a.us ≠ 0) :
    setTimeStep s a = (rewind { s with ts := some a.us, num := some (1 + Int.fdiv s.dur a.us) }, none) := by
  simp only [setTimeStep]
  rw [resetNum_ok (s := { s with ts := some a.us }) (by simpa using h)]
  rfl

/-- what the two directions of the `run_backwards` setter do when the step is not zero -/
theorem setBackward_eq (s : State) (b : Bool) (h : s.ts ≠ some 0) :
    setBackward s b = (if s.backward = b then s else
      rewind { s with
        backward := b
        dur := if b then (if 0 < s.dur then -s.dur else s.dur) else (if s.dur < 0 then -s.dur else s.dur)
        ts := s.ts.map (fun t => if b then (if 0 < t then -t else t) else (if t < 0 then -t else t))
        num := match s.ts with
          | some t => if b then (if 0 < t then some (1 + Int.fdiv (if 0 < s.dur then -s.dur else s.dur) (-t)) else s.num)
              else (if t < 0 then some (1 + Int.fdiv (if s.dur < 0 then -s.dur else s.dur) (-t)) else s.num)
          | none => s.num }, none) := by
  unfold setBackward
  by_cases hb : s.backward = b
  · simp [hb]
  · simp only [hb, if_false]
    cases b with
    | true =>
      simp only [if_true]
      cases ht : s.ts with
      | none => simp [rewind]
      | some t =>
        have ht0 : t ≠ 0 := fun e => h (by rw [ht, e])
        have hne : (StepArg.delta (-t)).us ≠ 0 := by simp [StepArg.us, ht0]
        by_cases hp : 0 < t
        · simp only [hp, if_true, setTimeStep_ok _ _ hne]
          simp [rewind, StepArg.us]
          omega
        · simp [hp, rewind]
    | false =>
      simp only [Bool.false_eq_true, if_false]
      cases ht : s.ts with
      | none => simp [rewind]
      | some t =>
        have ht0 : t ≠ 0 := fun e => h (by rw [ht, e])
        have hne : (StepArg.delta (-t)).us ≠ 0 := by simp [StepArg.us, ht0]
        by_cases hp : t < 0
        · simp only [hp, if_true, setTimeStep_ok _ _ hne]
          simp [rewind, StepArg.us]
          omega
        · simp [hp, rewind]

theorem setDuration_eq (s : State) (d : Int) (h : s.ts ≠ some 0) :
    setDuration s d = ({ (if d < s.dur then rewind s else s) with
      dur := d, num := s.ts.map (fun t => 1 + Int.fdiv d t) }, none) := by
  unfold setDuration
  have e : (if d < s.dur then rewind s else s).ts = s.ts := by split <;> rfl
  simp only
  rw [resetNum_ok (by simpa [e] using h)]
  simp [e]

theorem setupStep_ok (s : State) (auto : Int) (h : s.ts ≠ some 0) (ha : auto ≠ 0) :
    setupStep s auto = .ok { s with
      ts := some (s.ts.getD auto)
      num := match s.ts with | some _ => s.num | none => some (1 + Int.fdiv s.dur auto) } := by
  unfold setupStep
  cases ht : s.ts with
  | none => simp [resetNum, ha]
  | some t =>
    cases s
    simp_all

theorem step_inv {s : State} (h : Inv s) (auto : Int) (ha : auto ≠ 0) (o : Outcome) : Inv (step s auto o).1 := by
  have hnz := h.nz
  unfold step
  split
  · rename_i hn
    have hmt : s.mt = s.start := by
      rcases h.law with h | h
      · exact h.2
      · omega
    rw [setupStep_ok s auto hnz ha]
    have hts : some (s.ts.getD auto) ≠ some 0 := by
      cases ht : s.ts with
      | none => simpa using ha
      | some t => rw [ht] at hnz; simpa using hnz
    cases o
    · simp only [reduceCtorEq, if_false]
      exact ⟨Or.inr ⟨by simp [setCurrent, hn], _, rfl, rfl⟩, hts⟩
    · exact ⟨Or.inl ⟨hn, hmt⟩, hnz⟩
    · simp only [if_true]
      exact ⟨Or.inl ⟨hn, hmt⟩, hts⟩
    · simp only [reduceCtorEq, if_false, if_true]
      exact ⟨Or.inr ⟨by simp [setCurrent, hn], _, rfl, rfl⟩, hts⟩
  · rename_i hn
    split
    · rename_i num t h1 h2
      have h0 : 0 ≤ s.n := by rcases h.law with h | h <;> omega
      split
      · exact h
      · split
        · exact ⟨h.law, hnz⟩
        · split
          · exact ⟨Or.inr ⟨by simp [setCurrent]; omega, t, h2, rfl⟩, hnz⟩
          · exact ⟨Or.inr ⟨by simp [setCurrent]; omega, t, h2, rfl⟩, hnz⟩
    · exact h

theorem exec_inv {s : State} (h : Inv s) (op : Op) (hop : op.NonZero) : Inv (exec s op) := by
  cases op with
  | step auto o => exact step_inv h auto hop o
  | rewind => exact ⟨rewind_law s, h.nz⟩
  | setStart t => exact ⟨rewind_law _, h.nz⟩
  | setTimeStep a =>
    simp only [exec, setTimeStep_ok s a hop]
    exact ⟨rewind_law _, by simpa [rewind, Op.NonZero] using hop⟩
  | setDuration d =>
    simp only [exec, setDuration_eq s d h.nz]
    split
    · exact ⟨Or.inl ⟨rfl, rfl⟩, h.nz⟩
    · exact ⟨h.law, h.nz⟩
  | setBackward b =>
    simp only [exec, setBackward_eq s b h.nz]
    split
    · exact h
    · refine ⟨rewind_law _, ?_⟩
      have := h.nz
      show s.ts.map _ ≠ _
      cases ht : s.ts with
      | none => simp
      | some t =>
        have ht0 : t ≠ 0 := fun e => this (by rw [ht, e])
        simp only [Option.map_some, ne_eq, Option.some.injEq]
        split <;> split <;> omega
  | setUncertain u =>
    simp only [exec, setUncertain]
    split
    · exact h
    · exact ⟨rewind_law _, h.nz⟩
  | setMap => exact ⟨rewind_law _, h.nz⟩

theorem init_inv {start dur : Int} {ts : Option StepArg} {b u : Bool} {s : State}
    (hts : ∀ a, ts = some a → a.us ≠ 0) (h : init start dur ts b u = .ok s) : Inv s := by
  unfold init at h
  cases ts with
  | none =>
    cases b with
    | true => simp [resetNum] at h; subst h; exact ⟨Or.inl ⟨rfl, rfl⟩, by simp⟩
    | false => simp [resetNum] at h; subst h; exact ⟨Or.inl ⟨rfl, rfl⟩, by simp⟩
  | some a =>
    have ha := hts a rfl
    simp only [setTimeStep_ok _ a ha] at h
    rw [resetNum_ok (by simpa [rewind] using ha)] at h
    simp only [rewind] at h
    cases b with
    | false =>
      simp only [Bool.false_eq_true, if_false, Except.ok.injEq] at h
      subst h; exact ⟨Or.inl ⟨rfl, rfl⟩, by simpa using ha⟩
    | true =>
      simp only [if_true] at h
      split at h
      · rw [setTimeStep_ok _ _ (by simp [StepArg.us]; exact ha)] at h
        simp only [Except.ok.injEq] at h
        subst h; exact ⟨Or.inl ⟨rfl, rfl⟩, by simpa [StepArg.us, rewind] using ha⟩
      · simp only [Except.ok.injEq] at h
        subst h; exact ⟨Or.inl ⟨rfl, rfl⟩, by simpa using ha⟩

theorem run_inv (ops : List Op) {s : State} (h : Inv s) (hops : ∀ op ∈ ops, op.NonZero) : Inv (ops.foldl exec s) := by
  induction ops generalizing s with
  | nil => exact h
  | cons op ops ih =>
    exact ih (exec_inv h op (hops op (by simp))) (fun o ho => hops o (List.mem_cons_of_mem _ ho))

/-- **C11.** In every state reachable from a newly made model by any sequence of steps (successful or failing at any
point), rewinds and setter calls with non-zero time steps, the clock law holds. -/
theorem C11_clock (start dur : Int) (ts : Option StepArg) (b u : Bool) (s : State)
    (hts : ∀ a, ts = some a → a.us ≠ 0) (hi : init start dur ts b u = .ok s)
    (ops : List Op) (hops : ∀ op ∈ ops, op.NonZero) : ClockLaw (ops.foldl exec s) :=
  (run_inv ops (init_inv hts hi) hops).law

/-- The proviso of C11 is needed: assigning a zero time step raises ZeroDivisionError, but the step is already
stored and the model not rewound, so afterwards the clock law fails. -/
theorem C11_zero_step_breaks : ∃ s, init 0 86400000000 (some (.delta 900000000)) false false = .ok s ∧
    ¬ ClockLaw ([Op.step 900000000 .ok, .step 900000000 .ok, .setTimeStep (.number 1 2)].foldl exec s) := by
  refine ⟨_, rfl, ?_⟩
  unfold ClockLaw
  decide

example : ∃ s, init 100 86400000000 (some (.delta 900000000)) false false = .ok s ∧
    ([Op.step 900000000 .ok, .step 900000000 .ok, .step 900000000 .failBefore, .step 900000000 .ok].foldl exec s).mt
      = 100 + 2 * 900000000 := ⟨_, rfl, by decide⟩

/-! ## C12 -/

/-- Specification: one initial step plus the whole steps that fit into the duration; none while no step is chosen. -/
def CountLaw (s : State) : Prop := s.num = s.ts.map (fun t => 1 + Int.fdiv s.dur t)

/-- the time step points in the direction of the run -/
def SignOk (s : State) : Prop := ∀ t, s.ts = some t → if s.backward then t < 0 else 0 < t

/-- the automatic step is only chosen in a forward run; time steps are given with the sign of the current direction -/
def Op.SignOk (s : State) : Op → Prop
  | .setTimeStep a => if s.backward then a.us < 0 else 0 < a.us
  | .step auto _ => 0 < auto ∧ (s.ts = none → s.backward = false)
  | _ => True

/-- every operation of the history is allowed when it happens -/
def SignOkRun (s : State) : List Op → Prop
  | [] => True
  | op :: ops => op.SignOk s ∧ SignOkRun (exec s op) ops

theorem SignOk.nz {s : State} (h : SignOk s) : s.ts ≠ some 0 := by
  intro e; have := h 0 e; split at this <;> omega

theorem count_step {s : State} (hs : SignOk s) (h : CountLaw s) (op : Op) (hop : op.SignOk s) :
    SignOk (exec s op) ∧ CountLaw (exec s op) := by
  have hnz := hs.nz
  cases op with
  | step auto o =>
    obtain ⟨ha, hb⟩ := hop
    simp only [exec]
    unfold step
    split
    · rw [setupStep_ok s auto hnz (by omega)]
      have key : SignOk { s with ts := some (s.ts.getD auto), num := match s.ts with
            | some _ => s.num | none => some (1 + Int.fdiv s.dur auto) } ∧
          CountLaw { s with ts := some (s.ts.getD auto), num := match s.ts with
            | some _ => s.num | none => some (1 + Int.fdiv s.dur auto) } := by
        cases ht : s.ts with
        | none =>
          refine ⟨?_, rfl⟩
          intro t e
          simp only [Option.getD_none, Option.some.injEq] at e
          subst e
          simp [hb ht, ha]
        | some t =>
          refine ⟨?_, ?_⟩
          · intro t' e
            simp only [Option.getD_some, Option.some.injEq] at e
            subst e
            exact hs t ht
          · have := h; unfold CountLaw at *; rw [ht] at this; simpa using this
      cases o
      · exact key
      · exact ⟨hs, h⟩
      · exact key
      · exact key
    · split
      · split
        · exact ⟨hs, h⟩
        · split
          · exact ⟨hs, h⟩
          · split <;> exact ⟨hs, h⟩
      · exact ⟨hs, h⟩
  | rewind => exact ⟨hs, h⟩
  | setStart t => exact ⟨hs, h⟩
  | setTimeStep a =>
    have ha : a.us ≠ 0 := by simp only [Op.SignOk] at hop; split at hop <;> omega
    simp only [exec, setTimeStep_ok s a ha]
    refine ⟨?_, rfl⟩
    intro t e
    simp only [rewind, Option.some.injEq] at e
    subst e; exact hop
  | setDuration d =>
    simp only [exec, setDuration_eq s d hnz]
    split
    · exact ⟨hs, rfl⟩
    · exact ⟨hs, rfl⟩
  | setBackward b =>
    simp only [exec, setBackward_eq s b hnz]
    split
    · exact ⟨hs, h⟩
    · rename_i hb
      cases ht : s.ts with
      | none =>
        refine ⟨by intro t e; simp [rewind] at e, ?_⟩
        have := h; unfold CountLaw at *; rw [ht] at this; simpa [rewind] using this
      | some t =>
        have hst := hs t ht
        cases b with
        | true =>
          have : s.backward = false := by simpa using hb
          simp only [this, Bool.false_eq_true, if_false] at hst
          refine ⟨?_, ?_⟩
          · intro t' e
            simp only [rewind, Option.map_some, if_true, hst, Option.some.injEq] at e
            subst e
            simp [rewind, hst]
          · simp [CountLaw, rewind, hst]
        | false =>
          have : s.backward = true := by simpa using hb
          simp only [this, if_true] at hst
          refine ⟨?_, ?_⟩
          · intro t' e
            simp only [rewind, Option.map_some, if_true, hst, Option.some.injEq, Bool.false_eq_true, if_false] at e
            subst e
            simp [rewind]; omega
          · simp [CountLaw, rewind, hst]
  | setUncertain u =>
    simp only [exec, setUncertain]
    split
    · exact ⟨hs, h⟩
    · exact ⟨hs, h⟩
  | setMap => exact ⟨hs, h⟩

theorem count_run (ops : List Op) {s : State} (hs : SignOk s) (h : CountLaw s) (hops : SignOkRun s ops) :
    CountLaw (ops.foldl exec s) := by
  induction ops generalizing s with
  | nil => exact h
  | cons op ops ih =>
    have := count_step hs h op hops.1
    exact ih this.1 this.2 hops.2

/-- **C12, part that holds**: starting from a forward model with a positive time step (or none), any history in
which time steps are given with the sign of the direction of the run keeps
`num_time_steps = 1 + floor(duration/time_step)`. Missing: time steps whose sign contradicts the direction
(`C12_counterexample`), backward runs with an automatically chosen time step (`C12_auto_step_backward`). -/
theorem C12_num_time_steps_partial (start dur : Int) (ts : Option StepArg) (u : Bool) (s : State)
    (hts : ∀ a, ts = some a → 0 < a.us) (hi : init start dur ts false u = .ok s)
    (ops : List Op) (hops : SignOkRun s ops) : CountLaw (ops.foldl exec s) := by
  have key : SignOk s ∧ CountLaw s := by
    unfold init at hi
    cases ts with
    | none =>
      simp [resetNum] at hi
      subst hi
      exact ⟨by intro t e; simp at e, rfl⟩
    | some a =>
      have ha := hts a rfl
      simp only [setTimeStep_ok _ a (by omega)] at hi
      rw [resetNum_ok (by simp [rewind]; omega)] at hi
      simp only [rewind, Bool.false_eq_true, if_false, Except.ok.injEq] at hi
      subst hi
      refine ⟨?_, rfl⟩
      intro t e
      simp only [Option.some.injEq] at e
      subst e; simpa using ha
  exact count_run ops key.1 key.2 hops

/-- the claim C12 in full -/
def C12_claim : Prop := ∀ (start dur : Int) (ts : Option StepArg) (b u : Bool) (s : State),
    (∀ a, ts = some a → a.us ≠ 0) → init start dur ts b u = .ok s →
    ∀ ops : List Op, (∀ op ∈ ops, op.NonZero) → CountLaw (ops.foldl exec s)

/-- **C12 is false of the code**: `Model(time_step=-900, duration=1 day, run_backwards=True)` flips the duration but
keeps the count computed with the old one (-95 instead of 97). -/
theorem C12_counterexample : ¬ C12_claim := by
  intro h
  have := h 0 86400000000 (some (.delta (-900000000))) true false _ (by simp [StepArg.us]) rfl [] (by simp)
  revert this
  unfold CountLaw
  decide

/-- the same through the setter: forward model, `time_step = -900`, then `run_backwards = True` -/
theorem C12_counterexample_setter : ∃ s, init 0 86400000000 (some (.delta 900000000)) false false = .ok s ∧
    ([Op.setTimeStep (.delta (-900000000)), .setBackward true].foldl exec s).num = some (-95) ∧
    ¬ CountLaw ([Op.setTimeStep (.delta (-900000000)), .setBackward true].foldl exec s) := by
  refine ⟨_, rfl, ?_⟩
  unfold CountLaw
  decide

/-- Related fault: a backward model without a time step gets a *positive* automatic step, so with its negative
duration the run is over after step 0. -/
theorem C12_auto_step_backward : ∃ s, init 0 86400000000 none true false = .ok s ∧
    (step s 900000000 .ok).2 = .output 0 0 false ∧
    (step (step s 900000000 .ok).1 900000000 .ok).2 = .stop := by
  refine ⟨_, rfl, ?_⟩
  decide

example : ∃ s, init 0 86400000000 (some (.delta 900000000)) false false = .ok s ∧
    SignOkRun s [.step 900000000 .ok, .setBackward true, .setTimeStep (.number (-1800) 1), .step 900000000 .ok,
      .setDuration (-7200000000), .setBackward false] := by
  refine ⟨_, rfl, ?_⟩
  simp only [SignOkRun, Op.SignOk]
  decide

/-! ## C13 -/

/-- the outputs a user expects from a run with time step `t` and `m` steps counted -/
def expected (start t m : Int) (n : Nat) : List Seen :=
  (List.range n).map (fun (k : Nat) => Seen.output (k : Int) (start + (k : Int) * t) (decide ((k : Int) + 1 = m)))

theorem range_map_succ {β : Type} (f : Nat → β) (d : Nat) :
    (List.range (d + 1)).map f = f 0 :: (List.range d).map (fun k => f (k + 1)) := by
  rw [List.range_succ_eq_map, List.map_cons, List.map_map]; rfl

theorem loop_mid (auto t m : Int) (d : Nat) : ∀ (s : State), 0 ≤ s.n → s.ts = some t → s.num = some m →
    s.mt = s.start + s.n * t → (m - 1 - s.n).toNat = d → ∀ fuel, d < fuel →
    ∃ s', loop auto fuel s = some (s', (List.range d).map (fun (k : Nat) => Seen.output (s.n + 1 + k)
        (s.start + (s.n + 1 + k) * t) (decide (s.n + 1 + (k : Int) + 1 = m)))) ∧
      s'.n = s.n + d ∧ s'.ts = some t ∧ s'.num = some m ∧ s'.mt = s.start + s'.n * t ∧ s'.start = s.start ∧
      (step s' auto .ok) = (s', .stop) := by
  induction d with
  | zero =>
    intro s h0 ht hm hmt hd fuel hf
    obtain ⟨fuel, rfl⟩ : ∃ f, fuel = f + 1 := ⟨fuel - 1, by omega⟩
    have hs : step s auto .ok = (s, .stop) := by
      unfold step
      rw [if_neg (by omega), hm, ht]
      simp only
      rw [if_pos (by omega)]
    refine ⟨s, ?_, by simp, ht, hm, by simpa using hmt, rfl, hs⟩
    simp [loop, hs]
  | succ d ih =>
    intro s h0 ht hm hmt hd fuel hf
    obtain ⟨fuel, rfl⟩ : ∃ f, fuel = f + 1 := ⟨fuel - 1, by omega⟩
    have hs : step s auto .ok = ({ setCurrent s (s.n + 1) t with dirty := true },
        .output (s.n + 1) (s.start + (s.n + 1) * t) (decide (s.n + 1 + 1 = m))) := by
      unfold step
      rw [if_neg (by omega), hm, ht]
      simp only
      rw [if_neg (by omega)]
      simp [setCurrent, isLast, hm]
      rw [eq_comm]
    obtain ⟨s', h1, h2, h3, h4, h5, h6, h7⟩ := ih { setCurrent s (s.n + 1) t with dirty := true }
      (by simp [setCurrent]; omega) ht hm rfl (by simp [setCurrent]; omega) fuel (by omega)
    refine ⟨s', ?_, by rw [h2]; simp [setCurrent]; omega, h3, h4, h5, h6, h7⟩
    simp only [loop, hs, h1]
    rw [range_map_succ]
    simp only [Option.some.injEq, Prod.mk.injEq, true_and, List.cons.injEq]
    refine ⟨by simp, ?_⟩
    apply List.map_congr_left
    intro k _
    have e : s.n + 1 + 1 + (k : Int) = s.n + 1 + ((k + 1 : Nat) : Int) := by omega
    show Seen.output (s.n + 1 + 1 + (k : Int)) (s.start + (s.n + 1 + 1 + (k : Int)) * t)
      (decide (s.n + 1 + 1 + (k : Int) + 1 = m)) = _
    rw [e]

/-- **C13.** `full_run()` from any state (with a non-zero time step, given or chosen automatically) produces exactly
`max 1 num_time_steps` outputs, numbered 0,1,2,… at `start, start+dt, …`, the output `num_time_steps-1` and only it
flagged as the last; then the next `step()` raises StopIteration and changes nothing. -/
theorem C13_full_run (s : State) (auto : Int) (ha : auto ≠ 0) (hnz : s.ts ≠ some 0) (m t : Int)
    (ht : t = s.ts.getD auto)
    (hm : some m = match s.ts with | some _ => s.num | none => some (1 + Int.fdiv s.dur auto)) :
    ∃ s' fuel0, (∀ fuel, fuel0 ≤ fuel →
      fullRun auto fuel s = some (s', expected s.start t m (max 1 m.toNat))) ∧
      s'.n = max 0 (m - 1) ∧ s'.mt = s.start + s'.n * t ∧
      step s' auto .ok = (s', .stop) := by
  have hs : step (rewind s) auto .ok =
      ({ s with ts := some t, num := some m, n := 0, mt := s.start, dirty := true },
        .output 0 s.start (decide (1 = m))) := by
    unfold step
    rw [if_pos (show (rewind s).n = -1 from rfl), setupStep_ok (rewind s) auto hnz ha]
    have e1 : (rewind s).ts = s.ts := rfl
    have e2 : (rewind s).num = s.num := rfl
    have e3 : (rewind s).dur = s.dur := rfl
    simp only [e1, e2, e3, ← hm, ← ht]
    simp [setCurrent, isLast, rewind, eq_comm]
  obtain ⟨s', h1, h2, h3, h4, h5, h6, h7⟩ : ∃ s', (∀ fuel, (m - 1).toNat < fuel →
      loop auto fuel { s with ts := some t, num := some m, n := 0, mt := s.start, dirty := true } =
        some (s', (List.range (m - 1).toNat).map (fun (k : Nat) => Seen.output (0 + 1 + k)
        (s.start + (0 + 1 + k) * t) (decide (0 + 1 + (k : Int) + 1 = m))))) ∧
      s'.n = 0 + ((m - 1).toNat : Int) ∧ s'.ts = some t ∧ s'.num = some m ∧ s'.mt = s.start + s'.n * t ∧
      s'.start = s.start ∧ step s' auto .ok = (s', .stop) := by
    obtain ⟨s', h1, h2, h3, h4, h5, h6, h7⟩ := loop_mid auto t m (m - 1).toNat
      { s with ts := some t, num := some m, n := 0, mt := s.start, dirty := true } (by simp) rfl rfl (by simp)
      (by simp) ((m - 1).toNat + 1) (by omega)
    refine ⟨s', ?_, h2, h3, h4, h5, h6, h7⟩
    intro fuel hf
    obtain ⟨s'', k1, k2, k3, k4, k5, k6, k7⟩ := loop_mid auto t m (m - 1).toNat
      { s with ts := some t, num := some m, n := 0, mt := s.start, dirty := true } (by simp) rfl rfl (by simp)
      (by simp) fuel hf
    have mono : ∀ (a b : Nat) (x : State) r, loop auto a x = some r → a ≤ b → loop auto b x = some r := by
      intro a
      induction a with
      | zero => intro b x r h; simp [loop] at h
      | succ a ih =>
        intro b x r h hab
        obtain ⟨b, rfl⟩ : ∃ b', b = b' + 1 := ⟨b - 1, by omega⟩
        simp only [loop] at h ⊢
        cases hstep : step x auto .ok with
        | mk y seen =>
          rw [hstep] at h
          cases seen with
          | stop => exact h
          | error => exact h
          | output p q w =>
            simp only at h ⊢
            cases hl : loop auto a y with
            | none => rw [hl] at h; simp at h
            | some r' => rw [hl] at h; rw [ih b y r' hl (by omega)]; exact h
    have := mono _ fuel _ _ h1 (by omega)
    exact this
  refine ⟨s', (m - 1).toNat + 2, ?_, by rw [h2]; omega, h5, h7⟩
  intro fuel hf
  obtain ⟨fuel, rfl⟩ : ∃ f, fuel = f + 1 := ⟨fuel - 1, by omega⟩
  simp only [fullRun, loop, hs, h1 fuel (by omega), expected]
  have e : max 1 m.toNat = (m - 1).toNat + 1 := by omega
  rw [e, range_map_succ]
  simp only [Option.some.injEq, Prod.mk.injEq, true_and, List.cons.injEq]
  refine ⟨by simp, ?_⟩
  apply List.map_congr_left
  intro k _
  have e : (0 : Int) + 1 + (k : Int) = ((k + 1 : Nat) : Int) := by omega
  rw [e]

example : ∃ s, init 0 2000000000 (some (.delta 900000000)) false false = .ok s ∧
    (fullRun 900000000 10 s).map Prod.snd =
      some [.output 0 0 false, .output 1 900000000 false, .output 2 1800000000 true] := ⟨_, rfl, by decide⟩

/-! ## C14 -/

/-- before the first step, at start time, with nothing released, cached or written -/
def Fresh (s : State) : Prop := s.n = -1 ∧ s.mt = s.start ∧ s.dirty = false

/-- **C14, part that holds** (all but the duration of a backward run, see `C14_counterexample`): the listed setters
restart the run; extending the duration of a forward run does not. -/
theorem C14_setters_restart_partial (s : State) (hnz : s.ts ≠ some 0) :
    (∀ t, Fresh (setStart s t)) ∧
    (∀ a : StepArg, a.us ≠ 0 → Fresh (setTimeStep s a).1 ∧ (setTimeStep s a).2 = none) ∧
    Fresh (setMap s) ∧
    (∀ u, u ≠ s.uncertain → Fresh (setUncertain s u)) ∧
    (∀ b, b ≠ s.backward → Fresh (setBackward s b).1 ∧ (setBackward s b).2 = none) ∧
    (∀ d, 0 ≤ d → d < s.dur → Fresh (setDuration s d).1 ∧ (setDuration s d).2 = none) ∧
    (∀ d, s.dur ≤ d → (setDuration s d).1.n = s.n ∧ (setDuration s d).1.mt = s.mt ∧
      (setDuration s d).1.dirty = s.dirty) := by
  refine ⟨fun t => ⟨rfl, rfl, rfl⟩, ?_, ⟨rfl, rfl, rfl⟩, ?_, ?_, ?_, ?_⟩
  · intro a ha; rw [setTimeStep_ok s a ha]; exact ⟨⟨rfl, rfl, rfl⟩, rfl⟩
  · intro u hu
    unfold setUncertain
    rw [if_neg (fun e => hu e.symm)]
    exact ⟨rfl, rfl, rfl⟩
  · intro b hb
    rw [setBackward_eq s b hnz, if_neg (fun e => hb e.symm)]
    exact ⟨⟨rfl, rfl, rfl⟩, rfl⟩
  · intro d _ hd
    rw [setDuration_eq s d hnz, if_pos hd]
    exact ⟨⟨rfl, rfl, rfl⟩, rfl⟩
  · intro d hd
    rw [setDuration_eq s d hnz, if_neg (by omega)]
    exact ⟨rfl, rfl, rfl⟩

/-- the claim about the duration for both directions -/
def C14_duration_claim : Prop := ∀ (s : State) (d : Int), s.ts ≠ some 0 → (0 ≤ d ↔ 0 ≤ s.dur) →
  d.natAbs < s.dur.natAbs → Fresh (setDuration s d).1

/-- **C14 is false of the code for backward runs**: shortening a backward run from one day to two hours after ten
steps does not restart the model (the next step raises StopIteration). -/
theorem C14_counterexample : ¬ C14_duration_claim ∧
    ∃ s, init 0 86400000000 (some (.delta 900000000)) true false = .ok s ∧
      let s10 := (List.replicate 10 (Op.step 900000000 .ok)).foldl exec s
      ((setDuration s10 (-7200000000)).1.n = 9 ∧
        (step (setDuration s10 (-7200000000)).1 900000000 .ok).2 = .stop) := by
  constructor
  · intro h
    have := h ⟨0, some (-900), -86400, true, 9, -8100, some 97, false, true⟩ (-7200) (by decide) (by decide) (by decide)
    revert this
    unfold Fresh
    decide
  · exact ⟨_, rfl, by decide⟩

/-- and the other way round: *extending* a backward run throws away what was computed -/
theorem C14_backward_extend_restarts (s : State) (hnz : s.ts ≠ some 0) (d : Int) (hd : d < s.dur) :
    Fresh (setDuration s d).1 := by
  rw [setDuration_eq s d hnz, if_pos hd]
  exact ⟨rfl, rfl, rfl⟩

example : Fresh (setDuration ⟨0, some 900, 86400, false, 9, 8100, some 97, false, true⟩ 7200).1 := by
  unfold Fresh; decide

/-! ## C15 -/

/-- Specification: the intervals start at `a`, follow each other without gap or overlap, have positive length and
end at `b`. -/
def Tiles : Int → Int → List (Int × Int) → Prop
  | a, b, [] => a = b
  | a, b, (s, d) :: t => s = a ∧ 0 < d ∧ Tiles (a + d) b t

theorem pairs_arith (sub : Int) (k : Nat) (c : Int) :
    pairs ((List.range (k + 1)).map (fun (i : Nat) => (c + i) * sub)) =
      (List.range k).map (fun (i : Nat) => ((c + i) * sub, sub)) := by
  induction k generalizing c with
  | zero => rfl
  | succ k ih =>
    have e1 : (List.range (k + 1 + 1)).map (fun (i : Nat) => (c + i) * sub) =
        c * sub :: (List.range (k + 1)).map (fun (i : Nat) => ((c + 1) + i) * sub) := by
      rw [range_map_succ]
      simp only [Int.natCast_zero, Int.add_zero, List.cons.injEq, true_and]
      apply List.map_congr_left; intro i _
      congr 1; omega
    have e2 : (List.range (k + 1)).map (fun (i : Nat) => (c + 1 + i) * sub) =
        (c + 1) * sub :: (List.range k).map (fun (i : Nat) => ((c + 1 + 1) + i) * sub) := by
      rw [range_map_succ]
      simp only [Int.natCast_zero, Int.add_zero, List.cons.injEq, true_and]
      apply List.map_congr_left; intro i _
      congr 1; omega
    rw [e1]
    have := ih (c + 1)
    rw [e2] at this ⊢
    simp only [pairs]
    rw [this, range_map_succ]
    simp only [List.cons.injEq, Prod.mk.injEq]
    refine ⟨⟨by simp, by rw [Int.add_mul]; omega⟩, ?_⟩
    apply List.map_congr_left; intro i _
    simp only [Prod.mk.injEq, and_true]
    congr 1; omega

theorem tiles_arith (sub mt b : Int) (hs : 0 < sub) (k : Nat) (tail : List (Int × Int)) :
    ∀ c : Int, Tiles (mt + (c + k) * sub) b tail →
    Tiles (mt + c * sub) b ((List.range k).map (fun (i : Nat) => (mt + (c + i) * sub, sub)) ++ tail) := by
  induction k with
  | zero => intro c h; simpa using h
  | succ k ih =>
    intro c h
    rw [range_map_succ]
    simp only [List.cons_append, Tiles]
    refine ⟨by simp, hs, ?_⟩
    have e : mt + c * sub + sub = mt + (c + 1) * sub := by rw [Int.add_mul]; omega
    rw [e]
    have := ih (c + 1) (by
      have e : c + 1 + (k : Int) = c + ((k + 1 : Nat) : Int) := by omega
      rw [e]; exact h)
    have e3 : (List.range k).map (fun (i : Nat) => (mt + (c + 1 + i) * sub, sub)) =
        (List.range k).map (fun (i : Nat) => (mt + (c + ((i + 1 : Nat) : Int)) * sub, sub)) := by
      apply List.map_congr_left; intro i _
      simp only [Prod.mk.injEq, and_true]
      have : c + 1 + (i : Int) = c + ((i + 1 : Nat) : Int) := by omega
      rw [this]
    rw [← e3]; exact this

/-- **C15.** For a whole-second time step `ts > 0` and `1 ≤ n ≤ ts`, the sub-steps tile `[mt, mt+ts]`: full ones of
length `floor(ts/n)` and, when they do not fill the step, one shorter one at the end. -/
theorem C15_substeps_tile (ts n mt : Int) (hn : 1 ≤ n) (hts : n ≤ ts) :
    ∃ (k : Nat) (tail : List (Int × Int)),
      split ts n mt = .ok ((List.range k).map (fun (i : Nat) => (mt + i * (ts / n), ts / n)) ++ tail) ∧
      Tiles mt (mt + ts) ((List.range k).map (fun (i : Nat) => (mt + i * (ts / n), ts / n)) ++ tail) ∧
      1 ≤ k ∧ (k : Int) = ts / (ts / n) ∧
      (tail = [] ∨ ∃ p, tail = [p] ∧ 0 < p.2 ∧ p.2 < ts / n) := by
  have hsub : 0 < ts / n := by
    have : 1 ≤ ts / n := by rw [Int.le_ediv_iff_mul_le (by omega)]; omega
    omega
  generalize hs : ts / n = sub at *
  have hfd : Int.fdiv ts n = sub := by rw [Int.fdiv_eq_ediv_of_nonneg _ (by omega), hs]
  have hle : sub ≤ ts := by
    rw [← hs]; exact Int.ediv_le_self _ (by omega)
  have hk1 : 1 ≤ ts / sub := by
    rw [Int.le_ediv_iff_mul_le hsub]; omega
  have hcount : (ts + 1 + sub - 1) / sub = ts / sub + 1 := by
    have : ts + 1 + sub - 1 = ts + sub * 1 := by omega
    rw [this, Int.add_mul_ediv_left _ _ (by omega)]
  obtain ⟨k, hk⟩ : ∃ k : Nat, (k : Int) = ts / sub := ⟨(ts / sub).toNat, by omega⟩
  have hrange : pyRange0 (ts + 1) sub = .ok ((List.range (k + 1)).map (fun (i : Nat) => (0 + (i : Int)) * sub)) := by
    unfold pyRange0
    rw [if_neg (by omega), if_pos hsub, hcount]
    have : (ts / sub + 1).toNat = k + 1 := by omega
    rw [this]; simp
  obtain ⟨k', rfl⟩ : ∃ k', k = k' + 1 := ⟨k - 1, by omega⟩
  have hlast : (pairs ((List.range (k' + 1 + 1)).map (fun (i : Nat) => (0 + (i : Int)) * sub))).getLast? =
      some ((k' : Int) * sub, sub) := by
    rw [pairs_arith, List.range_succ, List.map_append, List.map_cons, List.map_nil]
    simp
  have hmod := Int.emod_add_mul_ediv ts sub
  have hmod0 := Int.emod_nonneg ts (show sub ≠ 0 by omega)
  have hmodlt := Int.emod_lt_of_pos ts hsub
  have hsum : (k' : Int) * sub + sub = ts - ts % sub := by
    have : (k' : Int) * sub + sub = sub * (ts / sub) := by
      rw [← hk, Int.mul_comm sub]; push_cast; rw [Int.add_mul]; omega
    omega
  have hfm : Int.fmod ts sub = ts % sub := Int.fmod_eq_emod_of_nonneg _ (by omega)
  refine ⟨k' + 1, if ts % sub = 0 then [] else [(mt + (ts - ts % sub), ts % sub)], ?_, ?_, by omega, hk, ?_⟩
  · unfold split
    rw [if_neg (by omega)]
    simp only [hfd, hrange, hlast]
    rw [hsum, hfm, pairs_arith]
    by_cases h0 : ts % sub = 0
    · rw [if_neg (by omega)]
      simp [h0, Function.comp_def]
    · rw [if_pos (by omega)]
      simp [h0, Function.comp_def]
  · have := tiles_arith sub mt (mt + ts) hsub (k' + 1)
      (if ts % sub = 0 then [] else [(mt + (ts - ts % sub), ts % sub)]) 0
    simp only [Int.zero_mul, Int.add_zero, Int.zero_add] at this
    apply this
    have e : (((k' + 1 : Nat) : Int)) * sub = ts - ts % sub := by
      rw [← hsum]; push_cast; rw [Int.add_mul]; omega
    rw [e]
    split
    · simp only [Tiles]; omega
    · simp only [Tiles, true_and]; omega
  · split
    · exact Or.inl rfl
    · exact Or.inr ⟨_, rfl, by simp only; omega, by simp only; omega⟩

/-- **C15**, more sub-steps than seconds: rejected -/
theorem C15_too_many (ts n mt : Int) (hts : 0 ≤ ts) (hn : ts < n) : split ts n mt = .error .valueError := by
  have : Int.fdiv ts n = 0 := by
    rw [Int.fdiv_eq_ediv_of_nonneg _ (by omega)]
    exact Int.ediv_eq_zero_of_lt hts hn
  unfold split
  rw [if_neg (by omega)]
  simp [this, pyRange0]

/-- The number of sub-steps is *not* at most one more than requested, as the docstring says: 6 requested, 11 made. -/
theorem C15_docstring_count : (match split 11 6 0 with | .ok l => l.length | .error _ => 0) = 11 := by decide

example : split 900 4 1000 = .ok [(1000, 225), (1225, 225), (1450, 225), (1675, 225)] := by rfl
example : split 10 3 0 = .ok [(0, 3), (3, 3), (6, 3), (9, 1)] := by rfl

end Verif.Clock
