import Verif.OutFiles.BudgetModel
import Mathlib.Tactic.Ring
import Mathlib.Tactic.Linarith
import Mathlib.Tactic.FieldSimp
import Mathlib.Data.Rat.Floor

/-!
# C201: the oil budget adds up
-/
namespace Verif.OutFiles
open Verif.Py (Dict)

/-! ## C201: the oil budget table -/

/-- Where oil can be: the names under which the weatherers and the cleanup keep it. -/
def fates : List String :=
  ["evaporated", "natural_dispersion", "sedimentation", "beached", "floating", "off_maps", "dissolution", "bio_degradation",
    "chem_dispersed", "burned", "skimmed", "boomed", "observed_beached"]

/-- The mass under a name, nothing if there is no such name. -/
def massOf (mb : Dict String ℚ) (k : String) : ℚ := (mb.get? k).getD 0

/-- All oil that was released is somewhere. -/
def Balanced (mb : Dict String ℚ) : Prop := massOf mb "amount_released" = (fates.map (massOf mb)).sum

/-- The first column of a row is the sum of the others. -/
def AddsUp (r : Row) : Prop := (r.cells.headD none).getD 0 = (r.cells.tail.map (fun x => x.getD 0)).sum

/-- C201: every row of the table of a balanced run adds up. -/
def C201_claim : Prop :=
  ∀ (o : Output.Cfg) (t0 ts : Int) (L n : Nat) (mb : Nat → Dict String ℚ), n ≤ L → (∀ k, Balanced (mb k)) →
    ∀ r ∈ budgetRows o t0 ts L mb n, AddsUp r

theorem C201_counterexample : ¬ C201_claim := by
  intro h
  have hb : Balanced [("amount_released", 10), ("floating", 7), ("skimmed", 3)] := by
    unfold Balanced; decide +kernel
  have := h {} 0 900 0 0 (fun _ => [("amount_released", 10), ("floating", 7), ("skimmed", 3)]) le_rfl (fun _ => hb)
    (budgetRow 0 0 [("amount_released", 10), ("floating", 7), ("skimmed", 3)]) (by
      have : wrote .budget (construct .budget {}) 0 900 0 0 = true := by decide
      simp [budgetRows, this])
  revert this; unfold AddsUp; decide +kernel

theorem mem_rows (o : Output.Cfg) (t0 ts : Int) (L : Nat) (mb : Nat → Dict String ℚ) (n : Nat) (r : Row) :
    r ∈ budgetRows o t0 ts L mb n ↔ ∃ k, k ≤ n ∧ wrote .budget (construct .budget o) t0 ts L k = true ∧
      r = budgetRow t0 (t0 + (k : Nat) * ts) (mb k) := by
  induction n with
  | zero =>
    by_cases h : wrote .budget (construct .budget o) t0 ts L 0 = true
    · simp [budgetRows, h]
    · simp [budgetRows, h]
  | succ n ih =>
    rw [budgetRows, List.mem_append, ih]
    constructor
    · rintro (⟨k, hk, h⟩ | h)
      · exact ⟨k, by omega, h⟩
      · by_cases hw : wrote .budget (construct .budget o) t0 ts L (n + 1) = true
        · rw [if_pos hw, List.mem_singleton] at h
          exact ⟨n + 1, le_rfl, hw, h⟩
        · rw [if_neg hw] at h; simp at h
    · rintro ⟨k, hk, hw, h⟩
      by_cases hkn : k = n + 1
      · subst hkn
        right; rw [if_pos hw, List.mem_singleton]; exact h
      · exact Or.inl ⟨k, by omega, hw, h⟩

/-- C201: if no oil is dissolved, degraded, dispersed chemically, burned, skimmed, boomed or collected on the beach. Missing:
there is no column for those. -/
theorem C201_partial (o : Output.Cfg) (t0 ts : Int) (L n : Nat) (mb : Nat → Dict String ℚ) (hb : ∀ k, Balanced (mb k))
    (h0 : ∀ k, ∀ f ∈ fates.drop 6, massOf (mb k) f = 0) (r : Row) (hr : r ∈ budgetRows o t0 ts L mb n) : AddsUp r := by
  obtain ⟨k, -, -, rfl⟩ := (mem_rows ..).mp hr
  have hz := h0 k
  have hk := hb k
  simp only [fates, List.drop, List.mem_cons, List.not_mem_nil, or_false, forall_eq_or_imp, forall_eq] at hz
  obtain ⟨z1, z2, z3, z4, z5, z6, z7⟩ := hz
  simp only [Balanced, fates, List.map_cons, List.map_nil, List.sum_cons, List.sum_nil, z1, z2, z3, z4, z5, z6, z7, add_zero] at hk
  simp only [AddsUp, budgetRow, budgetCategories, List.map_cons, List.map_nil, List.headD_cons, List.tail_cons,
    List.sum_cons, List.sum_nil, add_zero]
  exact hk

example : ∀ k, ∀ f ∈ fates.drop 6, massOf ((fun _ : Nat => [("amount_released", 10), ("floating", 7), ("evaporated", 3)]) k) f = 0 := by
  intro k f hf
  simp only [fates, List.drop, List.mem_cons, List.not_mem_nil, or_false] at hf
  rcases hf with rfl | rfl | rfl | rfl | rfl | rfl | rfl <;> rfl

/-- C201: there is a row for each written step and no other, with the time of the step, and what is missing in the row is in
columns that the table does not have. -/
theorem C201_rows (o : Output.Cfg) (t0 ts : Int) (L n : Nat) (mb : Nat → Dict String ℚ) (hb : ∀ k, Balanced (mb k)) (r : Row) :
    (r ∈ budgetRows o t0 ts L mb n ↔ ∃ k, k ≤ n ∧ (Output.stateAt { o with on := true } t0 ts L k).write = true ∧
      r = budgetRow t0 (t0 + (k : Nat) * ts) (mb k)) ∧
    (∀ k, r = budgetRow t0 (t0 + (k : Nat) * ts) (mb k) →
      (r.cells.headD none).getD 0 - (r.cells.tail.map (fun x => x.getD 0)).sum = ((fates.drop 6).map (massOf (mb k))).sum) := by
  refine ⟨?_, ?_⟩
  · rw [mem_rows]
    simp [wrote, construct]
  · rintro k rfl
    have hk := hb k
    simp only [Balanced, fates, List.map_cons, List.map_nil, List.sum_cons, List.sum_nil, add_zero] at hk
    simp only [budgetRow, budgetCategories, fates, List.drop, List.map_cons, List.map_nil, List.headD_cons, List.tail_cons,
      List.sum_cons, List.sum_nil, add_zero]
    simp only [massOf] at hk ⊢
    rw [hk]; ring

example : (budgetRows { ots := some 3600 } 0 900 8 (fun _ => []) 8).length = 3 := by decide

/-- C201: the second column has the hours since the start, in whole minutes, rounded down, also in a run backwards. -/
theorem C201_hours (run : Int) : hoursCell run = (Int.floor ((run : ℚ) / 60) : ℚ) / 60 ∧
    hoursCell run ≤ (run : ℚ) / 3600 ∧ (run : ℚ) / 3600 - hoursCell run < 1 / 60 := by
  have e : hoursCell run = (run / 60 : Int) / 60 := by
    simp only [hoursCell]
    rw [Int.fdiv_eq_ediv_of_nonneg _ (by norm_num), Int.fdiv_eq_ediv_of_nonneg _ (by norm_num)]
    have : (run / 60 : Int) = (run / 3600) * 60 + (run - run / 3600 * 3600) / 60 := by omega
    rw [this]
    push_cast
    ring
  have hf : Int.floor ((run : ℚ) / 60) = run / 60 := by
    have := Rat.floor_intCast_div_natCast run 60
    exact_mod_cast this
  refine ⟨by rw [e, hf], ?_, ?_⟩
  · rw [e]
    have h : (run / 60) * 60 ≤ run := Int.ediv_mul_le _ (by norm_num)
    have h' : ((run / 60 : Int) : ℚ) * 60 ≤ run := by exact_mod_cast h
    linarith
  · rw [e]
    have h : run < (run / 60 + 1) * 60 := by omega
    have h' : (run : ℚ) < ((run / 60 : Int) + 1) * 60 := by exact_mod_cast h
    linarith

/-- C201: in the rows of a table the second column is the time since the start of the run. -/
theorem C201_since (o : Output.Cfg) (t0 ts : Int) (L n : Nat) (mb : Nat → Dict String ℚ) (r : Row)
    (hr : r ∈ budgetRows o t0 ts L mb n) : r.hours ≤ ((r.time - t0 : Int) : ℚ) / 3600 ∧
      ((r.time - t0 : Int) : ℚ) / 3600 - r.hours < 1 / 60 := by
  obtain ⟨k, -, -, rfl⟩ := (mem_rows ..).mp hr
  exact (C201_hours _).2

example : hoursCell 5430 = 3 / 2 := by norm_num [hoursCell, Int.fdiv]

end Verif.OutFiles
