import Verif.Clock.Props
import Verif.Output.Props

/-!
# Continuing a run with a longer duration (C351)

A model that has come to its end goes on when its duration is made longer (`gnome/model.py` 628-637, `step` 1159-1226). The
statements are about the models of the clock and of the cadence of output; the only new definition is a run in which the flag
of the last step is given for any steps, as an outputter sees it in a run that was continued.
-/

namespace Verif.Run.Extend
open Verif.Clock

/-! ## The clock -/

/-- What is seen of a step but the flag that it is the last. -/
def bare : Seen → Seen
  | .output n t _ => .output n t false
  | x => x

theorem setDuration_num (s : State) {t : Int} (ht : s.ts = some t) (h0 : t ≠ 0) (x : Int) (hx : s.dur ≤ x) :
    setDuration s x = ({ s with dur := x, num := some (1 + Int.fdiv x t) }, none) := by
  unfold setDuration
  rw [if_neg (by omega)]
  simp [resetNum, ht, h0]

/-- The steps from number `a` on, `d` of them, of a run with `m` steps. -/
def steps (start t m a : Int) (d : Nat) : List Seen :=
  (List.range d).map fun (k : Nat) => Seen.output (a + k) (start + (a + k) * t) (decide (a + (k : Int) + 1 = m))

theorem loop_exact (auto t m : Int) (d : Nat) : ∀ (s : State), 0 ≤ s.n → s.ts = some t → s.num = some m → s.dirty = true →
    s.mt = s.start + s.n * t → m - 1 - s.n = d → ∀ fuel, d < fuel →
    loop auto fuel s = some ({ s with n := m - 1, mt := s.start + (m - 1) * t }, steps s.start t m (s.n + 1) d) := by
  induction d with
  | zero =>
      intro s h0 ht hm hdt hmt hd fuel hf
      obtain ⟨fuel, rfl⟩ : ∃ f, fuel = f + 1 := ⟨fuel - 1, by omega⟩
      have hs : step s auto .ok = (s, .stop) := by
        unfold step
        rw [if_neg (by omega), hm, ht]
        simp only
        rw [if_pos (by omega)]
      have hn : m - 1 = s.n := by omega
      simp only [loop, hs, steps, List.range_zero, List.map_nil, hn, ← hmt]
  | succ d ih =>
      intro s h0 ht hm hdt hmt hd fuel hf
      obtain ⟨fuel, rfl⟩ : ∃ f, fuel = f + 1 := ⟨fuel - 1, by omega⟩
      have hs : step s auto .ok = ({ s with mt := s.start + (s.n + 1) * t, n := s.n + 1, dirty := true },
          .output (s.n + 1) (s.start + (s.n + 1) * t) (decide (s.n + 1 + 1 = m))) := by
        unfold step
        rw [if_neg (by omega), hm, ht]
        simp only
        rw [if_neg (by omega)]
        simp [setCurrent, isLast, hm]
        exact ⟨ht, eq_comm⟩
      simp only [loop, hs]
      rw [ih { s with mt := s.start + (s.n + 1) * t, n := s.n + 1, dirty := true } (by simp; omega) ht hm rfl rfl (by simp; omega) fuel (by omega)]
      simp only [Option.some.injEq, Prod.mk.injEq, hdt, true_and]
      unfold steps
      rw [range_map_succ]
      simp only [List.cons.injEq]
      refine ⟨by simp, ?_⟩
      apply List.map_congr_left
      intro k _
      have e : s.n + 1 + 1 + (k : Int) = s.n + 1 + ((k + 1 : Nat) : Int) := by omega
      rw [e]

theorem full_exact (s : State) (auto t m : Int) (ht : s.ts = some t) (hm : s.num = some m) (h1 : 1 ≤ m) (fuel : Nat) (hf : m.toNat < fuel) :
    fullRun auto fuel s = some ({ s with n := m - 1, mt := s.start + (m - 1) * t, dirty := true }, steps s.start t m 0 m.toNat) := by
  obtain ⟨fuel, rfl⟩ : ∃ f, fuel = f + 1 := ⟨fuel - 1, by omega⟩
  have hs : step (rewind s) auto .ok = ({ s with n := 0, mt := s.start, dirty := true }, .output 0 s.start (decide (1 = m))) := by
    unfold step
    rw [if_pos (show (rewind s).n = -1 from rfl)]
    simp [setupStep, rewind, ht, setCurrent, isLast, hm, eq_comm]
  have hl := loop_exact auto t m (m - 1).toNat { s with n := 0, mt := s.start, dirty := true } (by simp) ht hm rfl (by simp) (by simp; omega) fuel (by omega)
  simp only [fullRun, loop, hs, hl]
  simp only [Option.some.injEq, Prod.mk.injEq, true_and]
  have e : m.toNat = (m - 1).toNat + 1 := by omega
  unfold steps
  rw [e, range_map_succ]
  simp only [List.cons.injEq]
  refine ⟨by simp, ?_⟩
  apply List.map_congr_left
  intro k _
  have e : (0 : Int) + 1 + (k : Int) = 0 + ((k + 1 : Nat) : Int) := by omega
  rw [e]

/-- A run forwards that has come to its end and is given a longer duration goes on with the steps that it would have had, and
ends in the state in which it would have ended. -/
theorem C351_clock (s : State) (auto t d2 : Int) (ht : s.ts = some t) (hp : 0 < t) (h1 : 0 ≤ s.dur) (h2 : s.dur ≤ d2)
    (hn : s.num = some (1 + Int.fdiv s.dur t)) :
    ∃ e1 e2 : State, ∃ o1 o2 o : List Seen, ∃ fuel0, ∀ fuel, fuel0 ≤ fuel →
      fullRun auto fuel s = some (e1, o1) ∧ loop auto fuel (setDuration e1 d2).1 = some (e2, o2) ∧
      fullRun auto fuel (setDuration s d2).1 = some (e2, o) ∧ (o1 ++ o2).map bare = o.map bare ∧
      (o.length : Int) = 1 + Int.fdiv d2 t ∧ ∀ x ∈ o.dropLast, bare x = x := by
  have q1 : 0 ≤ Int.fdiv s.dur t := Int.fdiv_nonneg h1 hp.le
  have q2 : Int.fdiv s.dur t ≤ Int.fdiv d2 t := by
    rw [Int.fdiv_eq_ediv_of_nonneg _ hp.le, Int.fdiv_eq_ediv_of_nonneg _ hp.le]
    exact Int.ediv_le_ediv hp h2
  generalize hm1 : 1 + Int.fdiv s.dur t = m1 at *
  generalize hm2 : 1 + Int.fdiv d2 t = m2 at *
  refine ⟨{ s with n := m1 - 1, mt := s.start + (m1 - 1) * t, dirty := true },
    { s with n := m2 - 1, mt := s.start + (m2 - 1) * t, dirty := true, dur := d2, num := some m2 },
    steps s.start t m1 0 m1.toNat, steps s.start t m2 (m1 - 1 + 1) (m2 - m1).toNat, steps s.start t m2 0 m2.toNat,
    m2.toNat + 1, fun fuel hf => ⟨full_exact s auto t m1 ht hn (by omega) fuel (by omega), ?_, ?_, ?_⟩⟩
  · rw [setDuration_num { s with n := m1 - 1, mt := s.start + (m1 - 1) * t, dirty := true } ht (by omega) d2 h2, hm2]
    exact loop_exact auto t m2 (m2 - m1).toNat { s with n := m1 - 1, mt := s.start + (m1 - 1) * t, dirty := true, dur := d2, num := some m2 } (by simp; omega) ht rfl rfl rfl (by simp; omega) fuel (by omega)
  · rw [setDuration_num s ht (by omega) d2 h2, hm2]
    exact full_exact { s with dur := d2, num := some m2 } auto t m2 ht rfl (by omega) fuel (by omega)
  · refine ⟨?_, ?_, ?_⟩
    · simp only [steps, List.map_append, List.map_map]
      have e : m2.toNat = m1.toNat + (m2 - m1).toNat := by omega
      rw [e, List.range_add, List.map_append, List.map_map]
      congr 1
      apply List.map_congr_left
      intro k _
      have e2 : m1 - 1 + 1 + (k : Int) = 0 + ((m1.toNat + k : Nat) : Int) := by omega
      simp only [Function.comp, bare, e2]
    · simp only [steps, List.length_map, List.length_range]
      omega
    · intro x hx
      simp only [steps] at hx
      have e : m2.toNat = (m2 - 1).toNat + 1 := by omega
      rw [e, List.range_succ, List.map_append, List.map_cons, List.map_nil, List.dropLast_concat, List.mem_map] at hx
      obtain ⟨k, hk, rfl⟩ := hx
      rw [List.mem_range] at hk
      simp [bare]
      omega

/-! ## Output -/

open Verif.Output in
/-- The outputter in a run in which the steps `last` are told to be the last one (`write_output` of model.py 1144-1148). -/
def stateL (c : Cfg) (t0 ts : Int) (last : Nat → Bool) : Nat → St
  | 0 => writeOutput c (prepareRun c t0) 0 (last 0)
  | k + 1 => writeOutput c (prepareStep c (stateL c t0 ts last k) ts (t0 + k * ts)) (k + 1) (last (k + 1))

open Verif.Output in
/-- Is step `k` written? -/
def writtenL (c : Cfg) (t0 ts : Int) (last : Nat → Bool) (k : Nat) : Bool := c.on && (stateL c t0 ts last k).write

open Verif.Output in
theorem stateL_run (c : Cfg) (t0 ts : Int) (L k : Nat) : stateL c t0 ts (fun k => decide (k = L)) k = stateAt c t0 ts L k := by
  induction k with
  | zero => rfl
  | succ k ih => simp only [stateL, stateAt, ih]

/-- The claim: in a run of `L₁` steps that is continued to `L₂` the same steps are written as in a run of `L₂` steps, but for the
last step of the first part, which is written if the last step is asked for. -/
def C351_claim_output : Prop :=
  ∀ (c : Verif.Output.Cfg) (t0 ts : Int) (L₁ L₂ k : Nat),
    writtenL c t0 ts (fun k => decide (k = L₁) || decide (k = L₂)) k =
      (Verif.Output.written c t0 ts L₂ k || (c.on && c.last && decide (k = L₁)))

open Verif.Output in
theorem C351_counterexample_output : ¬ C351_claim_output := by
  intro h
  have := h { zero := false } 0 900 1 3 2
  revert this
  decide

open Verif.Output in
/-- What is the same in two states but the flag for writing. -/
def Alike (a b : St) : Prop := a.mstart = b.mstart ∧ a.dt = b.dt ∧ a.isFirst = b.isFirst ∧ a.singleAtStart = b.singleAtStart

open Verif.Output in
theorem alike_eq {a b : St} (h : Alike a b) (hw : a.write = b.write) : a = b := by
  obtain ⟨h1, h2, h3, h4⟩ := h
  cases a; cases b; simp_all

open Verif.Output in
theorem alike_prepare (c : Cfg) {a b : St} (h : Alike a b) (ts mt : Int) : Alike (prepareStep c a ts mt) (prepareStep c b ts mt) := by
  obtain ⟨a1, a2, a3, a4, a5⟩ := a
  obtain ⟨b1, b2, b3, b4, b5⟩ := b
  obtain ⟨h1, h2, h3, h4⟩ := h
  simp only at h1 h2 h3 h4
  subst h1 h2 h3 h4
  have hc : Alike (cadence c ⟨a1, a2, a3, a4, a5⟩ ts) (cadence c ⟨a1, a2, b3, a4, a5⟩ ts) := by
    unfold cadence
    cases c.single
    · cases c.ots with
      | none => exact ⟨rfl, rfl, rfl, rfl⟩
      | some p => by_cases hq : p.natAbs ≤ (a2 + ts).natAbs <;> simp [Alike, hq]
    · exact ⟨rfl, rfl, rfl, rfl⟩
  unfold prepareStep
  cases c.on
  · exact ⟨rfl, rfl, rfl, rfl⟩
  · cases c.ostart with
    | none => exact hc
    | some S =>
        simp only [Bool.not_true, Bool.false_eq_true, if_false]
        by_cases g1 : S ≠ a1
        · simp only [if_pos g1]
          by_cases g2 : mt + ts < S
          · simp only [if_pos g2]; exact ⟨rfl, rfl, rfl, rfl⟩
          · simp only [if_neg g2]
            by_cases g3 : mt + ts = S
            · simp only [if_pos g3]; exact ⟨rfl, rfl, rfl, rfl⟩
            · simp only [if_neg g3]
              by_cases g4 : (mt + ts > S ∧ ts > 0) ∨ (mt + ts < S ∧ ts < 0)
              · simp only [if_pos g4]
                cases a4
                · exact hc
                · exact ⟨rfl, rfl, rfl, rfl⟩
              · simp only [if_neg g4]; exact hc
        · simp only [if_neg g1]; exact hc

open Verif.Output in
theorem alike_write (c : Cfg) {a b : St} (h : Alike a b) (k : Nat) (l m : Bool) : Alike (writeOutput c a k l) (writeOutput c b k m) := by
  obtain ⟨h1, h2, h3, h4⟩ := h
  unfold writeOutput
  cases k <;> cases l <;> cases m <;> cases c.last <;> simp [Alike, h1, h2, h3, h4]

open Verif.Output in
theorem write_last (c : Cfg) (s : St) (k : Nat) (l : Bool) : (writeOutput c s (k + 1) l).write = (s.write || (l && c.last)) := by
  cases l <;> cases h : c.last <;> simp [writeOutput, h]

open Verif.Output in
theorem mstart_prepare (c : Cfg) (s : St) (ts mt : Int) : (prepareStep c s ts mt).mstart = s.mstart := by
  have hc : (cadence c s ts).mstart = s.mstart := by
    unfold cadence
    cases c.single
    · cases c.ots with
      | none => rfl
      | some p => by_cases hq : p.natAbs ≤ (s.dt + ts).natAbs <;> simp [hq]
    · rfl
  unfold prepareStep
  cases c.on
  · rfl
  · cases c.ostart with
    | none => exact hc
    | some S =>
        simp only [Bool.not_true, Bool.false_eq_true, if_false]
        split_ifs <;> first | rfl | exact hc

open Verif.Output in
theorem mstart_run (c : Cfg) (t0 ts : Int) (last : Nat → Bool) (k : Nat) : (stateL c t0 ts last k).mstart = t0 := by
  induction k with
  | zero => simp only [stateL, writeOutput]; split_ifs <;> rfl
  | succ k ih =>
      have : ∀ (s : St) (l : Bool), (writeOutput c s (k + 1) l).mstart = s.mstart := by
        intro s l; cases l <;> cases h : c.last <;> simp [writeOutput, h]
      rw [stateL, this, mstart_prepare, ih]

open Verif.Output in
/-- Without output interval and before the start of output: the first output is still to come. -/
theorem first_run (c : Cfg) (t0 ts : Int) (last : Nat → Bool) (S : Int) (hS : c.ostart = some S) (hp : 0 < ts) (k : Nat) (hk : t0 + k * ts < S) :
    (stateL c t0 ts last k).isFirst = true := by
  have hw : ∀ (s : St) (k : Nat) (l : Bool), (writeOutput c s k l).isFirst = s.isFirst := by
    intro s k l; cases k <;> cases l <;> cases h : c.last <;> simp [writeOutput, h]
  induction k with
  | zero => rw [stateL, hw]; rfl
  | succ k ih =>
      have e : t0 + ((k + 1 : Nat) : Int) * ts = t0 + k * ts + ts := by push_cast; rw [Int.add_mul]; omega
      rw [e] at hk
      rw [stateL, hw]
      have hi := ih (by omega)
      unfold prepareStep
      cases c.on
      · exact hi
      · simp only [hS, Bool.not_true, Bool.false_eq_true, if_false, if_pos hk]
        split_ifs
        · exact hi
        · unfold cadence
          split_ifs
          · exact hi
          · split
            · exact hi
            · simp only
              split_ifs <;> exact hi

open Verif.Output in
/-- With the first step written and without output interval, nothing is written only before the start of output. -/
theorem quiet_run (c : Cfg) (t0 ts : Int) (last : Nat → Bool) (hz : c.zero = true) (ho : c.ots = none) (hs : c.single = false) (hon : c.on = true)
    (k : Nat) (hk : (stateL c t0 ts last k).write = false) : ∃ S, c.ostart = some S ∧ S ≠ t0 ∧ t0 + k * ts < S := by
  induction k with
  | zero =>
      exfalso
      revert hk
      cases last 0 <;> cases h : c.last <;> simp [stateL, writeOutput, hz]
  | succ k ih =>
      have e : t0 + ((k + 1 : Nat) : Int) * ts = t0 + k * ts + ts := by push_cast; rw [Int.add_mul]; omega
      rw [e]
      rw [stateL, write_last, Bool.or_eq_false_iff] at hk
      replace hk := hk.1
      have hm := mstart_run c t0 ts last k
      have hf := fun S hS hp => first_run c t0 ts last S hS hp k
      generalize stateL c t0 ts last k = s at *
      have hc : cadence c s ts = s := by simp [cadence, hs, ho]
      unfold prepareStep at hk
      simp only [hon, Bool.not_true, Bool.false_eq_true, if_false, hc] at hk
      cases hS : c.ostart with
      | none =>
          rw [hS] at hk
          obtain ⟨S, h1, _⟩ := ih hk
          rw [hS] at h1; cases h1
      | some S =>
          rw [hS] at hk
          simp only at hk
          refine ⟨S, rfl, ?_⟩
          have back : s.write = false → S ≠ t0 ∧ t0 + k * ts < S := by
            intro hw
            obtain ⟨S', h1, h2⟩ := ih hw
            rw [hS] at h1; cases h1; exact h2
          by_cases g1 : S ≠ s.mstart
          · rw [if_pos g1] at hk
            have g1' : S ≠ t0 := by rw [← hm]; exact g1
            by_cases g2 : t0 + k * ts + ts < S
            · exact ⟨g1', g2⟩
            · rw [if_neg g2] at hk
              by_cases g3 : t0 + k * ts + ts = S
              · rw [if_pos g3] at hk; cases hk
              · rw [if_neg g3] at hk
                by_cases g4 : (t0 + k * ts + ts > S ∧ ts > 0) ∨ (t0 + k * ts + ts < S ∧ ts < 0)
                · rw [if_pos g4] at hk
                  by_cases g5 : s.isFirst = true
                  · rw [if_pos g5] at hk; cases hk
                  · rw [if_neg g5] at hk
                    exact absurd (hf S hS (by omega) (back hk).2) g5
                · rw [if_neg g4] at hk
                  have := back hk
                  omega
          · rw [if_neg g1] at hk
            exact absurd (back hk).1 (by rw [← hm]; exact g1)

open Verif.Output in
/-- With an output interval or a single output a step does not look at the flag of the step before. -/
theorem write_same (c : Cfg) {a b : St} (h : Alike a b) (ts mt : Int) (hon : c.on = true) (hc : c.ots ≠ none ∨ c.single = true) :
    (prepareStep c a ts mt).write = (prepareStep c b ts mt).write := by
  obtain ⟨a1, a2, a3, a4, a5⟩ := a
  obtain ⟨b1, b2, b3, b4, b5⟩ := b
  obtain ⟨h1, h2, h3, h4⟩ := h
  simp only at h1 h2 h3 h4
  subst h1 h2 h3 h4
  have hq : cadence c ⟨a1, a2, a3, a4, a5⟩ ts = cadence c ⟨a1, a2, b3, a4, a5⟩ ts := by
    unfold cadence
    cases hs : c.single
    · cases ho : c.ots with
      | none => rw [ho, hs] at hc; simp at hc
      | some p => rfl
    · rfl
  unfold prepareStep
  rw [hon, hq]
  cases c.ostart with
  | none => rfl
  | some S =>
      simp only [Bool.not_true, Bool.false_eq_true, if_false]

open Verif.Output in
/-- A run that is continued writes the steps of the longer run, and the last step of its first part, if the first step is
written, an output interval is set, there is a single output, or the last step is not asked for. -/
theorem C351_output_partial (c : Cfg) (t0 ts : Int) (L₁ L₂ k : Nat)
    (hc : c.zero = true ∨ c.ots ≠ none ∨ c.single = true ∨ c.last = false) :
    writtenL c t0 ts (fun k => decide (k = L₁) || decide (k = L₂)) k =
      (written c t0 ts L₂ k || (c.on && c.last && decide (k = L₁))) := by
  cases hon : c.on with
  | false => simp [writtenL, written, hon]
  | true =>
    have hw : written c t0 ts L₂ k = (stateL c t0 ts (fun k => decide (k = L₂)) k).write := by simp [written, hon, stateL_run]
    rw [hw]
    simp only [writtenL, hon, Bool.true_and]
    have key : ∀ k, Alike (stateL c t0 ts (fun k => decide (k = L₁) || decide (k = L₂)) k) (stateL c t0 ts (fun k => decide (k = L₂)) k) ∧
        (stateL c t0 ts (fun k => decide (k = L₁) || decide (k = L₂)) k).write =
          ((stateL c t0 ts (fun k => decide (k = L₂)) k).write || (c.last && decide (k = L₁))) := by
      intro k
      induction k with
      | zero =>
          refine ⟨alike_write c ⟨rfl, rfl, rfl, rfl⟩ 0 _ _, ?_⟩
          simp only [stateL, writeOutput]
          cases c.last <;> cases decide (0 = L₁) <;> cases decide (0 = L₂) <;> simp
      | succ k ih =>
          obtain ⟨ia, iw⟩ := ih
          refine ⟨alike_write c (alike_prepare c ia _ _) _ _ _, ?_⟩
          have same : (prepareStep c (stateL c t0 ts (fun k => decide (k = L₁) || decide (k = L₂)) k) ts (t0 + k * ts)).write =
              (prepareStep c (stateL c t0 ts (fun k => decide (k = L₂)) k) ts (t0 + k * ts)).write := by
            by_cases he : (stateL c t0 ts (fun k => decide (k = L₁) || decide (k = L₂)) k).write = (stateL c t0 ts (fun k => decide (k = L₂)) k).write
            · rw [alike_eq ia he]
            · have hb : (stateL c t0 ts (fun k => decide (k = L₂)) k).write = false := by
                by_contra hb
                rw [Bool.not_eq_false] at hb
                rw [hb] at iw he
                exact he (by rw [iw]; rfl)
              have hl : c.last = true := by
                by_contra hl
                rw [Bool.not_eq_true] at hl
                rw [hl] at iw
                exact he (by rw [iw]; simp)
              by_cases hd : c.ots ≠ none ∨ c.single = true
              · exact write_same c ia _ _ hon hd
              · have ho : c.ots = none := by by_contra h; exact hd (Or.inl h)
                have hs : c.single = false := by cases h : c.single with | false => rfl | true => exact absurd (Or.inr h) hd
                have hz : c.zero = true := by
                  rcases hc with h | h | h | h
                  · exact h
                  · exact absurd (Or.inl h) hd
                  · exact absurd (Or.inr h) hd
                  · rw [hl] at h; cases h
                obtain ⟨S, hS, h1, h2⟩ := quiet_run c t0 ts _ hz ho hs hon k hb
                have ma := mstart_run c t0 ts (fun k => decide (k = L₁) || decide (k = L₂)) k
                have mb := mstart_run c t0 ts (fun k => decide (k = L₂)) k
                have fa := fun hp => first_run c t0 ts (fun k => decide (k = L₁) || decide (k = L₂)) S hS hp k h2
                have fb := fun hp => first_run c t0 ts (fun k => decide (k = L₂)) S hS hp k h2
                unfold prepareStep
                simp only [hon, Bool.not_true, Bool.false_eq_true, if_false, hS, ma, mb, if_pos h1]
                by_cases g2 : t0 + k * ts + ts < S
                · simp only [if_pos g2]
                · simp only [if_neg g2]
                  by_cases g3 : t0 + k * ts + ts = S
                  · simp only [if_pos g3]
                  · simp only [if_neg g3]
                    have hp : 0 < ts := by omega
                    simp only [fa hp, fb hp, if_true, if_pos (show (t0 + k * ts + ts > S ∧ ts > 0) ∨ (t0 + k * ts + ts < S ∧ ts < 0) from Or.inl ⟨by omega, hp⟩)]
          simp only [stateL, write_last, same]
          cases c.last <;> cases decide (k + 1 = L₁) <;> cases decide (k + 1 = L₂) <;> simp
    exact (key k).2

/-- Cases: a run of three steps that is continued by two, with an output every two steps. -/
example : (List.range 6).map (writtenL { ots := some 1800 } 0 900 fun k => decide (k = 3) || decide (k = 5)) = [true, false, true, true, true, true] ∧
    (List.range 6).map (Verif.Output.written { ots := some 1800 } 0 900 5) = [true, false, true, false, true, true] := by decide

end Verif.Run.Extend
