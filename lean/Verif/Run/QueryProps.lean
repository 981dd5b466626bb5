import Mathlib.Tactic.NormNum
import Mathlib.Tactic.Linarith
import Mathlib.Algebra.Order.Field.Rat
import Verif.Run.QueryModel

/-!
# C171: asking for elements by a condition
-/

namespace Verif.Run

/-- A comparison, as a user reads it. -/
def Atom.true (d : Data) (i : Nat) (a : Atom) : Prop := match a.op with
  | .lt => d a.prop i < a.num
  | .le => d a.prop i ≤ a.num
  | .gt => d a.prop i > a.num
  | .ge => d a.prop i ≥ a.num
  | .eq => d a.prop i = a.num
  | .other => False

/-- A condition read as usual: `&&` binds closer than `||`.  `cur` is the truth of the terms joined by `&&` so far. -/
def meaning (d : Data) (i : Nat) (cur : Prop) : List (Conn × Atom) → Prop
  | [] => cur
  | (.and, a) :: l => meaning d i (cur ∧ a.true d i) l
  | (.or, a) :: l => cur ∨ meaning d i (a.true d i) l

/-- The condition read with `||` closer than `&&`. -/
def meaningOr (d : Data) (i : Nat) (cur : Prop) : List (Conn × Atom) → Prop
  | [] => cur
  | (.or, a) :: l => meaningOr d i (cur ∨ a.true d i) l
  | (.and, a) :: l => cur ∧ meaningOr d i (a.true d i) l

/-- **C171**, as one would expect: the answer has the values of exactly the elements that meet the condition. -/
def C171_claim : Prop := ∀ (d : Data) (n : Nat) (q : Query) (t : String) (x : ℚ),
  x ∈ getData d n q t ↔ ∃ i < n, meaning d i (q.first.true d i) q.rest ∧ d t i = x

theorem getData_eq (d : Data) (n : Nat) (q : Query) (t : String) :
    getData d n q t = ((List.range n).filter (selected d q)).map (d t) := by
  have key : ∀ (l : List Nat) (r : List ℚ), l.foldl (fun r i => if selected d q i then r ++ [d t i] else r) r =
      r ++ (l.filter (selected d q)).map (d t) := by
    intro l
    induction l with
    | nil => intro r; simp
    | cons i l ih =>
      intro r
      rw [List.foldl_cons, ih]
      by_cases h : selected d q i = true <;> simp [h]
  unfold getData
  rw [key]; simp

/-- All values are 0.9. -/
def mass09 : Data := fun _ _ => 9 / 10

/-- A fraction of a kilogram is taken as nothing: an element of 0.9 kg is not among those above 0.5 kg. -/
theorem C171_counterexample : ¬ C171_claim := by
  intro h
  have := (h mass09 1 ⟨⟨"mass", .gt, 1 / 2⟩, []⟩ "mass" (9 / 10)).mpr
    ⟨0, by omega, by simp only [meaning, Atom.true, mass09]; norm_num, rfl⟩
  rw [getData_eq] at this
  have e : selected mass09 ⟨⟨"mass", .gt, 1 / 2⟩, []⟩ 0 = false := by
    have hf : ⌊(9 / 10 : ℚ)⌋ = 0 := by rw [Int.floor_eq_iff]; norm_num
    simp [selected, phrases, testPhrase, test, Cmp.holds, trunc, mass09, hf]
    norm_num
  obtain ⟨i, hi, _⟩ := List.mem_map.mp this
  rw [List.mem_filter, List.mem_range] at hi
  obtain rfl : i = 0 := by omega
  rw [e] at hi
  exact absurd hi.2 (by decide)

/-- Properties of three elements with whole numbers. -/
def demo : Data := fun p _ => if p = "a" then 1 else 0

/-- `b == 1 && b == 1 || a == 1` is read as `b == 1 && (b == 1 || a == 1)`: an element with a = 1, b = 0 is not found, though
its values are whole. -/
theorem C171_counterexample_or :
    meaning demo 0 ((⟨"b", .eq, 1⟩ : Atom).true demo 0) [(.and, ⟨"b", .eq, 1⟩), (.or, ⟨"a", .eq, 1⟩)] ∧
    selected demo ⟨⟨"b", .eq, 1⟩, [(.and, ⟨"b", .eq, 1⟩), (.or, ⟨"a", .eq, 1⟩)]⟩ 0 = false := by
  constructor
  · simp [meaning, Atom.true, demo]
  · simp [selected, phrases, testPhrase, test, Cmp.holds, trunc, demo]

theorem trunc_int (k : Int) : trunc (k : ℚ) = k := by
  unfold trunc
  split
  · exact Int.floor_intCast k
  · rw [show (-(k : ℚ)) = ((-k : Int) : ℚ) by push_cast; rfl, Int.floor_intCast]; omega

/-- The value of an element is treated as it is by a comparison: it is whole, or it is compared by `<` or `>=` with a whole
number and not negative. -/
def Fits (d : Data) (i : Nat) (a : Atom) : Prop :=
  (∃ k : Int, d a.prop i = k) ∨ (0 ≤ d a.prop i ∧ (a.op = .lt ∨ a.op = .ge) ∧ ∃ m : Int, a.num = m)

theorem test_fits (d : Data) (i : Nat) (a : Atom) (h : Fits d i a) :
    test (d a.prop i) a.op a.num = true ↔ a.true d i := by
  rcases h with ⟨k, hk⟩ | ⟨h0, hop, m, hm⟩
  · unfold test Atom.true
    rw [hk, trunc_int]
    cases a.op <;> simp [Cmp.holds]
  · unfold test Atom.true trunc
    rw [if_pos h0, hm]
    rcases hop with e | e <;> simp only [e, Cmp.holds, decide_eq_true_eq, ge_iff_le, Int.cast_lt, Int.cast_le]
    · exact Int.floor_lt
    · exact Int.le_floor

theorem phrases_all (d : Data) (i : Nat) (cur : List Atom) (l : List (Conn × Atom)) (P : Prop)
    (hP : testPhrase d i cur = true ↔ P) (hl : ∀ p ∈ l, Fits d i p.2) :
    (phrases cur l).all (testPhrase d i) = true ↔ meaningOr d i P l := by
  induction l generalizing cur P with
  | nil => simp [phrases, meaningOr, hP]
  | cons p l ih =>
    obtain ⟨c, a⟩ := p
    have ha := test_fits d i a (hl (c, a) (by simp))
    cases c with
    | or =>
      rw [phrases, meaningOr]
      apply ih _ _ _ (fun p hp => hl p (List.mem_cons_of_mem _ hp))
      unfold testPhrase at hP ⊢
      rw [List.any_append, Bool.or_eq_true, hP]
      simp [ha]
    | and =>
      rw [phrases, meaningOr, List.all_cons, Bool.and_eq_true, hP]
      apply and_congr_right
      intro _
      apply ih _ _ _ (fun p hp => hl p (List.mem_cons_of_mem _ hp))
      simp [testPhrase, ha]

/-- The two readings agree if only one of `&&` and `||` is used. -/
theorem readings_agree (d : Data) (i : Nat) (P : Prop) (l : List (Conn × Atom)) (c : Conn) (h : ∀ p ∈ l, p.1 = c) :
    meaningOr d i P l ↔ meaning d i P l := by
  induction l generalizing P with
  | nil => rfl
  | cons p l ih =>
    obtain ⟨c', a⟩ := p
    have hc : c' = c := h (c', a) (by simp)
    have ih' := fun Q => ih Q (fun p hp => h p (List.mem_cons_of_mem _ hp))
    cases c' with
    | or =>
      rw [meaningOr, meaning, ih']
      have : ∀ (Q R : Prop) (l : List (Conn × Atom)), (∀ p ∈ l, p.1 = .or) → (meaning d i (Q ∨ R) l ↔ Q ∨ meaning d i R l) := by
        intro Q R l
        induction l generalizing R with
        | nil => intro _; rfl
        | cons p l ih2 =>
          intro hl
          obtain ⟨c2, b⟩ := p
          have : c2 = .or := hl (c2, b) (by simp)
          subst this
          rw [meaning, meaning, or_assoc]
      exact this _ _ l (fun p hp => (h p (List.mem_cons_of_mem _ hp)).trans hc.symm)
    | and =>
      rw [meaningOr, meaning, ih']
      have : ∀ (Q R : Prop) (l : List (Conn × Atom)), (∀ p ∈ l, p.1 = .and) → (meaning d i (Q ∧ R) l ↔ Q ∧ meaning d i R l) := by
        intro Q R l
        induction l generalizing R with
        | nil => intro _; rfl
        | cons p l ih2 =>
          intro hl
          obtain ⟨c2, b⟩ := p
          have : c2 = .and := hl (c2, b) (by simp)
          subst this
          rw [meaning, meaning, and_assoc, ih2 _ (fun p hp => hl p (List.mem_cons_of_mem _ hp))]
      exact (this _ _ l (fun p hp => (h p (List.mem_cons_of_mem _ hp)).trans hc.symm)).symm

/-- **C171** for values that are whole (or compared as `Fits` says) and conditions that do not mix `&&` and `||`: the answer
has, for every property asked for, the values of exactly the elements that meet the condition, in the order of the
elements. -/
theorem C171_partial (d : Data) (n : Nat) (q : Query) (c : Conn)
    (hf : ∀ i < n, Fits d i q.first ∧ ∀ p ∈ q.rest, Fits d i p.2) (hc : ∀ p ∈ q.rest, p.1 = c) :
    ∃ S : List Nat, S.Pairwise (· < ·) ∧ (∀ i, i ∈ S ↔ i < n ∧ meaning d i (q.first.true d i) q.rest) ∧
      ∀ t, getData d n q t = S.map (d t) := by
  refine ⟨(List.range n).filter (selected d q), ?_, ?_, fun t => getData_eq d n q t⟩
  · exact List.Pairwise.filter _ List.pairwise_lt_range
  · intro i
    rw [List.mem_filter, List.mem_range]
    apply and_congr_right
    intro hi
    unfold selected
    rw [phrases_all d i _ _ (q.first.true d i) (by simp [testPhrase, test_fits d i q.first (hf i hi).1]) (hf i hi).2]
    exact readings_agree d i _ _ c hc

/-- Mixed conditions are read with `||` binding closer. -/
theorem C171_mixed (d : Data) (n : Nat) (q : Query)
    (hf : ∀ i < n, Fits d i q.first ∧ ∀ p ∈ q.rest, Fits d i p.2) (t : String) (x : ℚ) :
    x ∈ getData d n q t ↔ ∃ i < n, meaningOr d i (q.first.true d i) q.rest ∧ d t i = x := by
  rw [getData_eq, List.mem_map]
  constructor
  · rintro ⟨i, hi, hx⟩
    rw [List.mem_filter, List.mem_range] at hi
    refine ⟨i, hi.1, ?_, hx⟩
    exact (phrases_all d i _ _ _ (by simp [testPhrase, test_fits d i q.first (hf i hi.1).1]) (hf i hi.1).2).mp hi.2
  · rintro ⟨i, hi, hm, hx⟩
    refine ⟨i, ?_, hx⟩
    rw [List.mem_filter, List.mem_range]
    exact ⟨hi, (phrases_all d i _ _ _ (by simp [testPhrase, test_fits d i q.first (hf i hi).1]) (hf i hi).2).mpr hm⟩

/-- An operator that is not known, such as `!=`, finds nothing. -/
theorem C171_unknown (d : Data) (n : Nat) (p : String) (x : ℚ) (t : String) :
    getData d n ⟨⟨p, .other, x⟩, []⟩ t = [] := by
  rw [getData_eq]
  have : selected d ⟨⟨p, .other, x⟩, []⟩ = fun _ => false := by
    funext i; simp [selected, phrases, testPhrase, test, Cmp.holds]
  simp [this]

example : (∀ i < 3, Fits demo i ⟨"a", .eq, 1⟩ ∧ ∀ p ∈ [(Conn.and, (⟨"b", .lt, 1⟩ : Atom))], Fits demo i p.2) ∧
    getData demo 3 ⟨⟨"a", .eq, 1⟩, [(.and, ⟨"b", .lt, 1⟩)]⟩ "a" = [1, 1, 1] := by
  constructor
  · intro i _
    constructor
    · left; exact ⟨1, by simp [demo]⟩
    · intro p hp
      simp only [List.mem_singleton] at hp
      subst hp
      left; exact ⟨0, by simp [demo]⟩
  · rw [getData_eq]
    have : selected demo ⟨⟨"a", .eq, 1⟩, [(.and, ⟨"b", .lt, 1⟩)]⟩ = fun _ => true := by
      funext i; simp [selected, phrases, testPhrase, test, Cmp.holds, trunc, demo]
    rw [this]
    simp [List.range_succ, demo]

end Verif.Run
