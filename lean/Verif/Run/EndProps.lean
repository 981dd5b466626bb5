import Mathlib.Data.List.Basic
import Verif.Run.EndModel

/-!
# C172, C173: what a step returns, and the end of a run
-/
namespace Verif.Run
open Verif.Py

theorem collect_get (k : Nat) (l : List Outp) (d : Dict String Info) (c : String) :
    (collect k l d).get? c = match (l.filter fun o => decide (o.cls = c) && (o.result k).isSome).getLast? with
      | some o => (o.result k).map .result
      | none => d.get? c := by
  induction l generalizing d with
  | nil => rfl
  | cons o l ih =>
    rw [collect, ih]
    cases hr : o.result k with
    | none => simp [hr]
    | some r =>
      by_cases hc : o.cls = c
      · subst hc
        cases hl : (l.filter fun x => decide (x.cls = o.cls) && (x.result k).isSome).getLast? with
        | none => rw [List.getLast?_eq_none_iff] at hl; simp [hr, hl, Dict.get?_set]
        | some x =>
          have : ((o :: l).filter fun x => decide (x.cls = o.cls) && (x.result k).isSome).getLast? = some x := by
            simp only [List.filter_cons, hr, decide_true, Option.isSome_some, Bool.and_true, if_true]
            rw [List.getLast?_cons, hl]; simp
          rw [this]
      · simp [hc, Dict.get?_set]

/-- **C172**, as one would expect: a step returns what every outputter has to say. -/
def C172_claim : Prop := ∀ (k : Nat) (v : Bool) (l : List Outp) (o : Outp) (r : Nat), o ∈ l → o.result k = some r →
  o.cls ≠ "valid" → o.cls ≠ "step_num" → (writeOutputs k v l).get? o.cls = some (.result r)

/-- Of two outputters of one class only what the last one returns is there. -/
theorem C172_counterexample : ¬ C172_claim := by
  intro h
  have := h 0 true [⟨"Renderer", fun _ => some 1⟩, ⟨"Renderer", fun _ => some 2⟩] ⟨"Renderer", fun _ => some 1⟩ 1 (by simp)
    rfl (by decide) (by decide)
  rw [writeOutputs, Dict.get?_set, if_neg (by decide), collect_get] at this
  simp at this

/-- What holds: the last outputter of a class that returns something; and the number of the step and whether the model is
valid are always there. -/
theorem C172_partial (k : Nat) (v : Bool) (l1 l2 : List Outp) (o : Outp) (r : Nat) (hr : o.result k = some r)
    (hlast : ∀ x ∈ l2, x.cls = o.cls → x.result k = none) (hv : o.cls ≠ "valid") :
    (writeOutputs k v (l1 ++ o :: l2)).get? o.cls = some (.result r) ∧
    (writeOutputs k v (l1 ++ o :: l2)).get? "valid" = some (.valid v) := by
  constructor
  · rw [writeOutputs, Dict.get?_set, if_neg (fun e => hv e.symm), collect_get]
    have h2 : (l2.filter fun x => decide (x.cls = o.cls) && (x.result k).isSome) = [] := by
      rw [List.filter_eq_nil_iff]
      intro x hx hc
      simp only [Bool.and_eq_true, decide_eq_true_eq] at hc
      rw [hlast x hx hc.1] at hc
      exact absurd hc.2 (by decide)
    have : ((l1 ++ o :: l2).filter fun x => decide (x.cls = o.cls) && (x.result k).isSome).getLast? = some o := by
      rw [List.filter_append, List.filter_cons, h2]
      simp [hr]
    rw [this]; simp [hr]
  · rw [writeOutputs, Dict.get?_set, if_pos rfl]

/-- The number of the step, unless a class is named so. -/
theorem C172_step (k : Nat) (v : Bool) (l : List Outp) (h : ∀ o ∈ l, o.cls ≠ "step_num") :
    (writeOutputs k v l).get? "step_num" = some (.stepNum k) := by
  rw [writeOutputs, Dict.get?_set, if_neg (by decide), collect_get]
  have : (l.filter fun x => decide (x.cls = "step_num") && (x.result k).isSome) = [] := by
    rw [List.filter_eq_nil_iff]
    intro x hx hc
    simp only [Bool.and_eq_true, decide_eq_true_eq] at hc
    exact h x hx hc.1
  rw [this]; rfl

example : (writeOutputs 3 true [⟨"Renderer", fun _ => some 1⟩, ⟨"NetCDFOutput", fun _ => none⟩]).get? "Renderer" = some (.result 1) := by
  decide

/-! ## C173 -/

/-- **C173**, as one would expect: every object is told of the end of a run, once. -/
def C173_claim : Prop := ∀ (bad : Nat → Bool) (L : Nat), (fullRun bad L).count .post = 1

/-- A run that goes well: twice. -/
theorem C173_counterexample : ¬ C173_claim := by
  intro h
  have := h (fun _ => false) 2
  revert this; decide

/-- A run whose first step fails after it has been set up: not at all. -/
theorem C173_counterexample_first : fullRun (fun _ => true) 2 = [.raised] := by decide

theorem runLoop_from (bad : Nat → Bool) (L k m : Nat) (fuel : Nat) (hk : 1 ≤ k) (hm : k + m = L + 1) (hf : fuel = m + 1) :
    (∀ j, k ≤ j → j ≤ L → bad j = false) →
    runLoop bad L k fuel = (List.range m).map (fun i => Ev.out (k + i)) ++ [.post, .post] := by
  induction m generalizing k fuel with
  | zero =>
    intro _
    subst hf
    have h1 : ¬ k = 0 := by omega
    have h2 : k > L := by omega
    simp [runLoop, oneStep, h1, h2]
  | succ m ih =>
    intro hb
    subst hf
    have h1 : ¬ k = 0 := by omega
    have h2 : ¬ k > L := by omega
    have h3 : bad k = false := hb k (Nat.le_refl _) (by omega)
    have e : (List.range (m + 1)).map (fun i => Ev.out (k + i)) = .out k :: (List.range m).map (fun i => Ev.out (k + 1 + i)) := by
      rw [List.range_succ_eq_map]
      simp only [List.map_cons, List.map_map, Nat.add_zero]
      congr 1
      apply List.map_congr_left
      intro a _
      simp only [Function.comp_apply]; congr 1; omega
    rw [e, List.cons_append, ← show runLoop bad L (k + 1) (m + 1) = _ ++ [.post, .post] from
      ih (k + 1) (m + 1) (by omega) (by omega) rfl (fun j h1 h2 => hb j (by omega) h2)]
    rw [runLoop]
    simp [oneStep, h1, h2, h3]

theorem runLoop_bad (bad : Nat → Bool) (L k m : Nat) (fuel : Nat) (hk : 1 ≤ k) (hm : k + m ≤ L) (hf : m < fuel)
    (hbad : bad (k + m) = true) :
    (∀ j, k ≤ j → j < k + m → bad j = false) →
    runLoop bad L k fuel = (List.range m).map (fun i => Ev.out (k + i)) ++ [.post, .raised] := by
  induction m generalizing k fuel with
  | zero =>
    intro _
    obtain ⟨f, rfl⟩ : ∃ f, fuel = f + 1 := ⟨fuel - 1, by omega⟩
    have h1 : ¬ k = 0 := by omega
    have h2 : ¬ k > L := by omega
    rw [Nat.add_zero] at hbad
    simp [runLoop, oneStep, h1, h2, hbad]
  | succ m ih =>
    intro hb
    obtain ⟨f, rfl⟩ : ∃ f, fuel = f + 1 := ⟨fuel - 1, by omega⟩
    have h1 : ¬ k = 0 := by omega
    have h2 : ¬ k > L := by omega
    have h3 : bad k = false := hb k (Nat.le_refl _) (by omega)
    have e : (List.range (m + 1)).map (fun i => Ev.out (k + i)) = .out k :: (List.range m).map (fun i => Ev.out (k + 1 + i)) := by
      rw [List.range_succ_eq_map]
      simp only [List.map_cons, List.map_map, Nat.add_zero]
      congr 1
      apply List.map_congr_left
      intro a _
      simp only [Function.comp_apply]; congr 1; omega
    rw [e, List.cons_append, ← show runLoop bad L (k + 1) f = _ ++ [.post, .raised] from
      ih (k + 1) f (by omega) (by omega) (by omega) (by rw [show k + 1 + m = k + (m + 1) by omega]; exact hbad)
        (fun j h1 h2 => hb j (by omega) (by omega))]
    rw [runLoop]
    simp [oneStep, h1, h2, h3]

/-- What happens instead: a run without errors gives the output of every step in order, then tells everyone twice; a run
that fails at a later step gives the output of the steps before, tells everyone once, and the error reaches the
user. -/
theorem C173_partial (bad : Nat → Bool) (L : Nat) :
    ((∀ j ≤ L, bad j = false) → fullRun bad L = (List.range (L + 1)).map .out ++ [.post, .post]) ∧
    (∀ m, 1 ≤ m → m ≤ L → bad m = true → (∀ j < m, bad j = false) →
      fullRun bad L = (List.range m).map .out ++ [.post, .raised]) := by
  have e : ∀ n, (List.range (n + 1)).map Ev.out = .out 0 :: (List.range n).map (fun i => Ev.out (1 + i)) := by
    intro n
    rw [List.range_succ_eq_map]
    simp only [List.map_cons, List.map_map]
    congr 1
    apply List.map_congr_left
    intro a _
    simp only [Function.comp_apply]; congr 1; omega
  constructor
  · intro h
    unfold fullRun
    rw [runLoop, e]
    have := runLoop_from bad L 1 L (L + 1) (by omega) (by omega) rfl (fun j _ h2 => h j h2)
    simp [oneStep, h 0 (by omega), this]
  · intro m h1 h2 h3 h4
    obtain ⟨n, rfl⟩ : ∃ n, m = n + 1 := ⟨m - 1, by omega⟩
    unfold fullRun
    rw [runLoop, e]
    have := runLoop_bad bad L 1 n (L + 1) (by omega) (by omega) (by omega) (by rw [Nat.add_comm]; exact h3)
      (fun j _ h => h4 j (by omega))
    simp [oneStep, h4 0 (by omega), this]

example : fullRun (fun n => decide (n = 2)) 5 = [.out 0, .out 1, .post, .raised] := by decide

end Verif.Run
