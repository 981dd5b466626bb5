import Verif.Output.CurJsonModel
import Mathlib.Tactic.Linarith
import Mathlib.Tactic.NormNum
import Mathlib.Tactic.Ring
import Mathlib.Data.List.Nodup

/-!
# C210: currents in the JSON output
-/
namespace Verif.Output.CurJson
open Verif.Py (Dict)

variable {V β : Type}

/-! ## Specification -/

/-- what is to be written: for each mover its velocities at the time of the step -/
def expected (shown : V → β) (now : Int) (ms : List (Mover V)) : List (Nat × List β) := ms.map fun m => (m.id, (m.vel now).map shown)

/-- **C210 in full** -/
def C210_claim : Prop := ∀ (now : Int) (ms : List (Mover Nat)), (ms.map (·.id)).Nodup → write id now ms = .ok (expected id now ms)

/-- a mover in C whose currents change with time -/
def Timed (m : Mover V) : Prop := m.kind ≠ .py ∧ m.kind ≠ .pattern false

/-- what makes the output fail: a grid of quads, or a mover in C after one in Python -/
inductive Fails : List (Mover V) → Prop
  | quads (m : Mover V) (ms : List (Mover V)) : m.kind = .quads → Fails (m :: ms)
  | after (m k : Mover V) (ms : List (Mover V)) : m.kind = .py → k ∈ ms → Timed k → Fails (m :: ms)
  | later (m : Mover V) (ms : List (Mover V)) : Fails ms → Fails (m :: ms)

/-! ## Lemmas -/

theorem set_new {κ ν : Type} [DecidableEq κ] (d : Dict κ ν) (k : κ) (v : ν) (h : k ∉ d.map Prod.fst) : Dict.set d k v = d ++ [(k, v)] := by
  induction d with
  | nil => rfl
  | cons p d ih =>
    simp only [List.map_cons, List.mem_cons, not_or] at h
    rw [Dict.set, if_neg (fun e => h.1 e.symm), ih h.2]
    rfl

theorem ask_date_py (m : Mover V) (now : Int) (h : m.kind = .py) : ask m (.date now) = .ok (m.vel now) := by
  simp [ask, h]

theorem loop_ok (shown : V → β) (now : Int) (ms : List (Mover V)) (out : Dict Nat (List β)) (t : Clock)
    (ht : t = .sec now ∨ (t = .date now ∧ ∀ m ∈ ms, ¬ Timed m)) (hf : ¬ Fails ms)
    (hn : (out.map Prod.fst ++ ms.map (·.id)).Nodup) :
    loop shown now t ms out = .ok (out ++ expected shown now ms) := by
  induction ms generalizing out t with
  | nil => simp [loop, expected]
  | cons m ms ih =>
    have hf1 : m.kind ≠ .quads := fun h => hf (.quads m ms h)
    have hf2 : m.kind = .py → ∀ k ∈ ms, ¬ Timed k := fun h k hk hT => hf (.after m k ms h hk hT)
    have hf3 : ¬ Fails ms := fun h => hf (.later m ms h)
    have hnew : m.id ∉ out.map Prod.fst := by
      intro h
      rw [List.nodup_append] at hn
      exact hn.2.2 m.id h m.id (by simp) rfl
    have key : ∀ t', (t' = .sec now ∨ (t' = .date now ∧ ∀ m ∈ ms, ¬ Timed m)) → ask m t' = .ok (m.vel now) →
        (match ask m t' with
          | .error e => .error e
          | .ok vs => loop shown now t' ms (out.set m.id (vs.map shown)) : Except Err (Dict Nat (List β))) = .ok (out ++ expected shown now (m :: ms)) := by
      intro t' ht' ha
      rw [ha]
      simp only
      rw [set_new _ _ _ hnew, ih _ t' ht' hf3 (by simpa using hn)]
      simp [expected]
    rw [loop]
    by_cases hp : m.kind = .py
    · simp only [hp, if_true]
      exact key _ (Or.inr ⟨rfl, hf2 hp⟩) (ask_date_py m now hp)
    · simp only [if_neg hp]
      rcases ht with rfl | ⟨rfl, hT⟩
      · refine key _ (Or.inl rfl) ?_
        unfold ask
        cases hk : m.kind with
        | py => exact absurd hk hp
        | pattern b => cases b <;> rfl
        | triangles b => rfl
        | regular => rfl
        | quads => exact absurd hk hf1
      · refine key _ (Or.inr ⟨rfl, fun k hk => hT k (by simp [hk])⟩) ?_
        have hm : m.kind = .pattern false := by
          by_contra hc
          exact hT m (by simp) ⟨hp, hc⟩
        simp [ask, hm]

theorem loop_date (shown : V → β) (now : Int) (ms : List (Mover V)) (out : Dict Nat (List β)) (h : ∃ k ∈ ms, Timed k) :
    loop shown now (.date now) ms out = .error .typeError := by
  induction ms generalizing out with
  | nil => obtain ⟨k, hk, _⟩ := h; exact absurd hk (by simp)
  | cons m ms ih =>
    rw [loop]
    by_cases hT : Timed m
    · simp only [if_neg hT.1]
      have : ask m (.date now) = .error .typeError := by
        unfold ask
        cases hk : m.kind with
        | py => exact absurd hk hT.1
        | pattern b => cases b
                       · exact absurd hk hT.2
                       · rfl
        | triangles b => rfl
        | regular => rfl
        | quads => rfl
      rw [this]
    · have hm : m.kind = .py ∨ m.kind = .pattern false := by
        by_cases h1 : m.kind = .py
        · exact Or.inl h1
        · right; by_contra h2; exact hT ⟨h1, h2⟩
      have hrest : ∃ k ∈ ms, Timed k := by
        obtain ⟨k, hk, hk'⟩ := h
        rcases List.mem_cons.mp hk with e | e
        · exact absurd (e ▸ hk') hT
        · exact ⟨k, e, hk'⟩
      have ha : ask m (.date now) = .ok (m.vel now) := by
        rcases hm with h | h <;> simp [ask, h]
      simp only [ite_self, ha]
      exact ih _ hrest

theorem loop_fails (shown : V → β) (now : Int) (ms : List (Mover V)) (hf : Fails ms) (out : Dict Nat (List β)) (t : Clock) :
    t = .sec now ∨ t = .date now → loop shown now t ms out = .error .typeError := by
  induction hf generalizing out t with
  | quads m ms h =>
    intro _
    rw [loop]
    simp only [h, reduceCtorEq, if_false]
    cases t <;> simp [ask, h]
  | after m k ms h hk hT =>
    intro _
    rw [loop]
    simp only [h, if_true, ask_date_py m now h]
    exact loop_date shown now ms _ ⟨k, hk, hT⟩
  | later m ms _ ih =>
    intro ht
    rw [loop]
    have ht' : (if m.kind = .py then Clock.date now else t) = .sec now ∨ (if m.kind = .py then Clock.date now else t) = .date now := by
      split_ifs
      · exact Or.inr rfl
      · exact ht
    cases hask : ask m (if m.kind = .py then Clock.date now else t) with
    | error e => cases e; rfl
    | ok vs => exact ih _ _ ht'

/-! ## C210 -/

/-- **C210 (partial)**: unless there is a grid of quads, or a mover in C whose currents change with time follows one in Python, the output has for each mover its velocities at the
time of the step; in those two cases, and in no others, it fails.
Missing for the full claim: those two cases (`C210_counterexample`, `C210_counterexample_quads`). -/
theorem C210_partial (shown : V → β) (now : Int) (ms : List (Mover V)) (hn : (ms.map (·.id)).Nodup) :
    (¬ Fails ms → write shown now ms = .ok (expected shown now ms)) ∧
    (Fails ms ↔ write shown now ms = .error .typeError) := by
  have h1 : ¬ Fails ms → write shown now ms = .ok (expected shown now ms) := fun h =>
    loop_ok shown now ms [] _ (Or.inl rfl) h (by simpa using hn)
  refine ⟨h1, fun h => loop_fails shown now ms h [] _ (Or.inl rfl), fun h => ?_⟩
  by_contra hc
  rw [h1 hc] at h
  exact absurd h (by simp)

/-- **C210, order**: putting the movers in Python last helps. -/
theorem C210_order (shown : V → β) (now : Int) (cs ps : List (Mover V)) (hc : ∀ m ∈ cs, m.kind ≠ .py ∧ m.kind ≠ .quads) (hp : ∀ m ∈ ps, m.kind = .py)
    (hn : ((cs ++ ps).map (·.id)).Nodup) : write shown now (cs ++ ps) = .ok (expected shown now (cs ++ ps)) := by
  refine (C210_partial shown now _ hn).1 fun hf => ?_
  have base : ∀ ps : List (Mover V), (∀ m ∈ ps, m.kind = .py) → ¬ Fails ps := by
    intro ps hp hf
    induction hf with
    | quads m ms h => rw [hp m (by simp)] at h; exact absurd h (by simp)
    | after m k ms h hk hT => exact hT.1 (hp k (by simp [hk]))
    | later m ms _ ih => exact ih fun x hx => hp x (by simp [hx])
  have : ∀ l : List (Mover V), Fails l → ∀ cs, (∀ m ∈ cs, m.kind ≠ .py ∧ m.kind ≠ .quads) → l = cs ++ ps → False := by
    intro l hf
    induction hf with
    | quads m ms h =>
      intro cs hc e
      cases cs with
      | nil => exact base ps hp (by rw [List.nil_append] at e; rw [← e]; exact .quads m ms h)
      | cons c cs =>
        simp only [List.cons_append, List.cons.injEq] at e
        exact (hc c (by simp)).2 (e.1 ▸ h)
    | after m k ms h hk hT =>
      intro cs hc e
      cases cs with
      | nil => exact base ps hp (by rw [List.nil_append] at e; rw [← e]; exact .after m k ms h hk hT)
      | cons c cs =>
        simp only [List.cons_append, List.cons.injEq] at e
        exact (hc c (by simp)).1 (e.1 ▸ h)
    | later m ms h ih =>
      intro cs hc e
      cases cs with
      | nil => exact base ps hp (by rw [List.nil_append] at e; rw [← e]; exact .later m ms h)
      | cons c cs =>
        simp only [List.cons_append, List.cons.injEq] at e
        exact ih cs (fun x hx => hc x (by simp [hx])) e.2
  exact this _ hf cs hc rfl

/-- **C210, speed**: for a rounding to two decimals, the speed written is that of the velocity up to 0.013. -/
theorem C210_speed (rnd : ℝ → ℝ) (h : ∀ x, |rnd x - x| ≤ 0.005) (v : ℝ × ℝ) :
    |magnitude rnd v - Real.sqrt (v.1 ^ 2 + v.2 ^ 2)| ≤ 0.013 := by
  have key : ∀ a b c d : ℝ, |c - a| ≤ 0.005 → |d - b| ≤ 0.005 → Real.sqrt (c ^ 2 + d ^ 2) ≤ Real.sqrt (a ^ 2 + b ^ 2) + 0.008 := by
    intro a b c d h1 h2
    have hs := Real.sqrt_nonneg (a ^ 2 + b ^ 2)
    have hsq := Real.sq_sqrt (by positivity : 0 ≤ a ^ 2 + b ^ 2)
    set s := Real.sqrt (a ^ 2 + b ^ 2) with hsdef
    apply Real.sqrt_le_iff.mpr
    refine ⟨by linarith, ?_⟩
    have e1 := abs_le.mp h1
    have e2 := abs_le.mp h2
    -- (a p + b q)² ≤ (a² + b²)(p² + q²)
    have hpq : (c - a) ^ 2 + (d - b) ^ 2 ≤ 0.008 ^ 2 := by
      have q1 : (c - a) ^ 2 ≤ 0.005 ^ 2 := sq_le_sq' (by linarith) (by linarith)
      have q2 : (d - b) ^ 2 ≤ 0.005 ^ 2 := sq_le_sq' (by linarith) (by linarith)
      norm_num at q1 q2 ⊢
      linarith
    have hcs : a * (c - a) + b * (d - b) ≤ s * 0.008 := by
      refine (le_abs_self _).trans (abs_le_of_sq_le_sq ?_ (by positivity))
      have : (a * (c - a) + b * (d - b)) ^ 2 ≤ (a ^ 2 + b ^ 2) * ((c - a) ^ 2 + (d - b) ^ 2) := by
        nlinarith [sq_nonneg (a * (d - b) - b * (c - a))]
      rw [mul_pow, hsq]
      exact this.trans (mul_le_mul_of_nonneg_left hpq (by positivity))
    have : c ^ 2 + d ^ 2 = (a ^ 2 + b ^ 2) + 2 * (a * (c - a) + b * (d - b)) + ((c - a) ^ 2 + (d - b) ^ 2) := by ring
    rw [this, ← hsq]
    nlinarith
  have k1 := key v.1 v.2 (rnd v.1) (rnd v.2) (h _) (h _)
  have k2 := key (rnd v.1) (rnd v.2) v.1 v.2 (by rw [abs_sub_comm]; exact h _) (by rw [abs_sub_comm]; exact h _)
  have k3 := abs_le.mp (h (Real.sqrt (rnd v.1 ^ 2 + rnd v.2 ^ 2)))
  unfold magnitude
  rw [abs_le]
  constructor <;> [skip; skip] <;> norm_num at * <;> linarith

/-- a cats mover, a grid of triangles and then a mover in Python -/
example : write id 3600 [⟨1, .pattern true, fun t => [t.toNat]⟩, ⟨2, .triangles true, fun _ => [7, 8]⟩, ⟨3, .py, fun _ => [9]⟩] =
    .ok [(1, [3600]), (2, [7, 8]), (3, [9])] := by decide

/-- **C210 is false of the code**: a cats mover with a tide after a mover in Python is handed a `datetime`. -/
theorem C210_counterexample :
    write id 3600 [⟨3, .py, fun _ => [9]⟩, ⟨1, .pattern true, fun _ => [7]⟩] = .error .typeError ∧ ¬ C210_claim := by
  have h1 : write id 3600 [⟨3, .py, fun _ => [9]⟩, ⟨1, .pattern true, fun _ => [7]⟩] = .error .typeError := by decide
  refine ⟨h1, fun h => ?_⟩
  rw [h _ _ (by decide)] at h1
  exact absurd h1 (by simp)

/-- **C210 is false of the code**: a grid of quads has no velocities. -/
theorem C210_counterexample_quads : write id 3600 [⟨1, .quads, fun _ => [7]⟩] = .error .typeError ∧ ¬ C210_claim := by
  have h1 : write id 3600 [⟨1, .quads, fun _ => [7]⟩] = .error .typeError := by decide
  refine ⟨h1, fun h => ?_⟩
  rw [h _ _ (by decide)] at h1
  exact absurd h1 (by simp)

end Verif.Output.CurJson
