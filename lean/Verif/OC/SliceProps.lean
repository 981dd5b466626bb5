import Verif.OC.SliceModel
import Verif.OC.Props
/-!
# C204: slices of a collection are slices of the list of its objects
-/
namespace Verif.OC
open Verif.Py

/-! ## Specification: slices of a Python list -/

namespace Spec

/-- the bounds Python computes for a list of length `n` and a step `c` (`slice.indices`) -/
def lower (n c : Int) : Option Int → Int
  | none => if 0 < c then 0 else n - 1
  | some i => if 0 < c then (if i < 0 then max (i + n) 0 else min i n)
    else (if i < 0 then max (i + n) (-1) else min i (n - 1))

def upper (n c : Int) : Option Int → Int
  | none => if 0 < c then n else -1
  | some i => if 0 < c then (if i < 0 then max (i + n) 0 else min i n)
    else (if i < 0 then max (i + n) (-1) else min i (n - 1))

/-- position `i` is one of `a, a + c, a + 2c, …` before `b` -/
def Reaches (a b c i : Int) : Prop := ∃ k : Nat, i = a + c * k ∧ (if 0 < c then i < b else b < i)

/-- the number of positions from `a` up to `b`, by steps of `c` -/
def steps (a b c : Int) : Nat := (if 0 < c then (b - a + c - 1) / c else (a - b - c - 1) / (-c)).toNat

/-- `l[start:stop:step]` of a Python list -/
def slice {α : Type} (l : List α) (start stop step : Option Int) : Except Err (List α) :=
  let c := step.getD 1
  if c = 0 then .error .valueError else
  let a := lower l.length c start
  let b := upper l.length c stop
  .ok ((List.range (steps a b c)).filterMap (fun k : Nat => l[(a + c * (k : Int)).toNat]?))

/-- the counted positions are those that are reached, so that `slice` is the slice of Python -/
theorem steps_reaches (a b c : Int) (hc : c ≠ 0) (k : Nat) :
    k < steps a b c ↔ (if 0 < c then a + c * k < b else b < a + c * k) := by
  unfold steps
  by_cases h : 0 < c
  · simp only [h, if_true]
    rw [Int.lt_toNat, Int.lt_iff_add_one_le, Int.le_ediv_iff_mul_le h]
    have : ((k : Int) + 1) * c = c * k + c := by rw [Int.add_mul, Int.one_mul, Int.mul_comm]
    omega
  · have h' : 0 < -c := by omega
    simp only [h, if_false]
    rw [Int.lt_toNat, Int.lt_iff_add_one_le, Int.le_ediv_iff_mul_le h']
    have : ((k : Int) + 1) * -c = -(c * k) - c := by
      rw [Int.add_mul, Int.one_mul, Int.mul_neg, Int.mul_comm]; omega
    omega

end Spec

/-- **C204 in full**: every slice of a collection is that slice of the list of its objects. -/
def C204_claim (α ι : Type) [DecidableEq ι] (sid : α → ι) : Prop :=
  ∀ s : State α ι, Inv sid s → ∀ a b c, slice s a b c =
    match Spec.slice (abs s) a b c with
    | .error e => .error e
    | .ok l => .ok (l.map some)

/-! ## Lemmas -/

section
variable {α ι : Type} [DecidableEq ι] {sid : α → ι}

theorem pyRange_eq (a b c : Int) :
    pyRange a b c = (List.range (Spec.steps a b c)).map (fun i : Nat => a + c * (i : Int)) := by
  unfold pyRange Spec.steps
  split_ifs <;> rfl

/-- positions that are all there are read in turn -/
theorem getAll_ok {s : State α ι} (h : Inv sid s) (is : List Int)
    (hi : ∀ i ∈ is, 0 ≤ i ∧ i < ((abs s).length : Int)) :
    getAll s is = .ok ((is.filterMap (fun i => (abs s)[i.toNat]?)).map some) := by
  induction is with
  | nil => rfl
  | cons i is ih =>
    obtain ⟨h0, h1⟩ := hi i (by simp)
    have hn : i.toNat < (abs s).length := by omega
    have hg : getPos s i = .ok (some (abs s)[i.toNat]) := by
      rw [getPos_eq h]
      unfold pyGet pyIdx
      simp [h0, h1]
    simp only [getAll, hg, ih (fun j hj => hi j (by simp [hj]))]
    rw [List.filterMap_cons, List.getElem?_eq_getElem hn]
    simp

/-- **C204 (partial)**: the slices with a positive step (or none), a start that is not negative (or none) and a stop that is
not negative and not beyond the end (or none) are those of the list of objects; and so are the slices backwards
from a start that is there to a stop that is not negative.
Missing for the full claim: bounds are neither counted from the end nor clipped (`C204_counterexample`). -/
theorem C204_partial {s : State α ι} (h : Inv sid s) (a b c : Option Int)
    (hab : (0 < c.getD 1 ∧ (∀ i, a = some i → 0 ≤ i) ∧ (∀ j, b = some j → 0 ≤ j ∧ j ≤ ((abs s).length : Int))) ∨
      (c.getD 1 < 0 ∧ ∃ i j, a = some i ∧ b = some j ∧ 0 ≤ i ∧ i < ((abs s).length : Int) ∧ 0 ≤ j)) :
    slice s a b c = match Spec.slice (abs s) a b c with
      | .error e => .error e
      | .ok l => .ok (l.map some) := by
  have key : ∀ (lo hi cc : Int), cc ≠ 0 → (∀ k : Nat, k < Spec.steps lo hi cc → 0 ≤ lo + cc * k ∧
      lo + cc * k < ((abs s).length : Int)) → getAll s (pyRange lo hi cc) =
      .ok (((List.range (Spec.steps lo hi cc)).filterMap (fun k : Nat => (abs s)[(lo + cc * (k : Int)).toNat]?)).map some) := by
    intro lo hi cc _ hk
    rw [pyRange_eq, getAll_ok h]
    · rw [List.filterMap_map]; rfl
    · intro i hi
      obtain ⟨k, hk', rfl⟩ := List.mem_map.mp hi
      exact hk k (List.mem_range.mp hk')
  have stepsEq : ∀ (lo hi lo' hi' cc : Int), cc ≠ 0 → Spec.steps lo hi cc = 0 → Spec.steps lo' hi' cc = 0 →
      (List.range (Spec.steps lo hi cc)).filterMap (fun k : Nat => (abs s)[(lo + cc * (k : Int)).toNat]?) =
      (List.range (Spec.steps lo' hi' cc)).filterMap (fun k : Nat => (abs s)[(lo' + cc * (k : Int)).toNat]?) := by
    intro lo hi lo' hi' cc _ h1 h2
    rw [h1, h2]; rfl
  unfold slice Spec.slice
  rcases hab with ⟨hc, ha, hb⟩ | ⟨hc, i, j, rfl, rfl, hi0, hi1, hj⟩
  · have hc0 : c.getD 1 ≠ 0 := by omega
    simp only [hc0, if_false]
    rw [len_eq h]
    have ea : 0 ≤ a.getD 0 := by cases a with | none => simp | some i => simpa using ha i rfl
    have eb : b.getD ((abs s).length : Int) = Spec.upper (abs s).length (c.getD 1) b := by
      cases b with
      | none => simp [Spec.upper, hc]
      | some j =>
        obtain ⟨h1, h2⟩ := hb j rfl
        simp only [Spec.upper, hc, if_true, Option.getD_some]
        rw [if_neg (by omega)]; omega
    have hbl : Spec.upper (abs s).length (c.getD 1) b ≤ ((abs s).length : Int) := by
      cases b with
      | none => simp [Spec.upper, hc]
      | some j =>
        obtain ⟨h1, h2⟩ := hb j rfl
        simp only [Spec.upper, hc, if_true]
        rw [if_neg (by omega)]; omega
    rw [eb]
    generalize hB : Spec.upper (abs s).length (c.getD 1) b = B at hbl
    have hel : Spec.lower (abs s).length (c.getD 1) a = a.getD 0 ∨
        (((abs s).length : Int) < a.getD 0 ∧ Spec.lower (abs s).length (c.getD 1) a = ((abs s).length : Int)) := by
      cases a with
      | none => simp [Spec.lower, hc]
      | some i =>
        have := ha i rfl
        simp only [Spec.lower, hc, if_true, Option.getD_some]
        rw [if_neg (by omega)]; omega
    have hpos : ∀ lo : Int, 0 ≤ lo → ∀ k : Nat, k < Spec.steps lo B (c.getD 1) → 0 ≤ lo + c.getD 1 * k ∧
        lo + c.getD 1 * k < ((abs s).length : Int) := by
      intro lo hlo k hk
      rw [Spec.steps_reaches _ _ _ hc0, if_pos hc] at hk
      have : 0 ≤ c.getD 1 * (k : Int) := Int.mul_nonneg (by omega) (by omega)
      omega
    rw [key _ _ _ hc0 (hpos _ ea)]
    rcases hel with hel | ⟨h1, h2⟩
    · rw [hel]
    · rw [h2]
      have z1 : Spec.steps (a.getD 0) B (c.getD 1) = 0 := by
        by_contra hne
        have := (Spec.steps_reaches (a.getD 0) B (c.getD 1) hc0 0).mp (by omega)
        rw [if_pos hc] at this
        simp at this; omega
      have z2 : Spec.steps ((abs s).length : Int) B (c.getD 1) = 0 := by
        by_contra hne
        have := (Spec.steps_reaches ((abs s).length : Int) B (c.getD 1) hc0 0).mp (by omega)
        rw [if_pos hc] at this
        simp at this; omega
      rw [stepsEq _ _ ((abs s).length : Int) B _ hc0 z1 z2]
  · have hc0 : c.getD 1 ≠ 0 := by omega
    have hcn : ¬ 0 < c.getD 1 := by omega
    simp only [hc0, if_false, Option.getD_some]
    have el : Spec.lower (abs s).length (c.getD 1) (some i) = i := by
      simp only [Spec.lower, hcn, if_false]
      rw [if_neg (by omega)]; omega
    rw [el]
    have hpos : ∀ k : Nat, k < Spec.steps i j (c.getD 1) → 0 ≤ i + c.getD 1 * k ∧
        i + c.getD 1 * k < ((abs s).length : Int) := by
      intro k hk
      rw [Spec.steps_reaches _ _ _ hc0, if_neg hcn] at hk
      have : c.getD 1 * (k : Int) ≤ 0 := Int.mul_nonpos_of_nonpos_of_nonneg (by omega) (by omega)
      omega
    rw [key _ _ _ hc0 hpos]
    by_cases hjl : j ≤ (abs s).length - 1
    · have eu : Spec.upper (abs s).length (c.getD 1) (some j) = j := by
        simp only [Spec.upper, hcn, if_false]
        rw [if_neg (by omega)]; omega
      rw [eu]
    · have eu : Spec.upper (abs s).length (c.getD 1) (some j) = (abs s).length - 1 := by
        simp only [Spec.upper, hcn, if_false]
        rw [if_neg (by omega)]; omega
      rw [eu]
      have z1 : Spec.steps i j (c.getD 1) = 0 := by
        by_contra hne
        have := (Spec.steps_reaches i j (c.getD 1) hc0 0).mp (by omega)
        rw [if_neg hcn] at this
        simp at this; omega
      have z2 : Spec.steps i ((abs s).length - 1) (c.getD 1) = 0 := by
        by_contra hne
        have := (Spec.steps_reaches i (((abs s).length : Int) - 1) (c.getD 1) hc0 0).mp (by omega)
        rw [if_neg hcn] at this
        simp at this; omega
      rw [stepsEq _ _ i (((abs s).length : Int) - 1) _ hc0 z1 z2]

/-- the same after any history of allowed calls, holes of removed objects included: the slices of a collection that shows the
list `l` -/
theorem C204_history (inst : α → Bool) (es : List α) (hes : Spec.Distinct sid es) (ops : List (Op α ι))
    (ha : AllowedRun sid inst es ops) (i j : Nat) (hj : j ≤ (specRun sid inst es ops).1.length) :
    slice (run sid inst (init sid es) ops).1 (some i) (some j) none =
      .ok ((((specRun sid inst es ops).1.take j).drop i).map some) := by
  obtain ⟨h0, h1⟩ := init_inv es hes
  have hr := run_sim (inst := inst) ops h0 (by rw [h1]; exact ha)
  rw [h1] at hr
  have hab := hr.2.1
  rw [C204_partial hr.1 (some (i : Int)) (some (j : Int)) none (.inl ⟨by decide, by simp, by
    intro k hk; simp only [Option.some.injEq] at hk; subst hk; rw [hab]; omega⟩)]
  rw [hab]
  generalize (specRun sid inst es ops).1 = l at hj
  unfold Spec.slice
  simp only [Option.getD_none, Int.reduceEq, if_false, Except.ok.injEq]
  congr 1
  have eu : Spec.upper l.length 1 (some (j : Int)) = j := by simp [Spec.upper]; omega
  rw [eu]
  apply List.ext_getElem?
  intro n
  have hl : Spec.lower l.length 1 (some (i : Int)) = min (i : Int) l.length := by simp [Spec.lower]
  rw [hl]
  have hs : Spec.steps (min (i : Int) l.length) j 1 = j - i := by
    unfold Spec.steps; simp only [Int.zero_lt_one, if_true, Int.ediv_one]; omega
  rw [hs]
  have hfm : (List.range (j - i)).filterMap (fun k : Nat => l[(min (i : Int) l.length + 1 * (k : Int)).toNat]?) =
      (List.range (j - i)).filterMap (fun k : Nat => l[i + k]?) := by
    apply List.filterMap_congr
    intro k hk
    have := List.mem_range.mp hk
    congr 1; omega
  rw [hfm]
  have : ∀ d, i + d ≤ l.length → (List.range d).filterMap (fun k : Nat => l[i + k]?) = (l.drop i).take d := by
    intro d
    induction d with
    | zero => intro _; simp
    | succ d ih =>
      intro hd
      rw [List.range_succ, List.filterMap_append, ih (by omega), List.take_add_one]
      rw [List.filterMap_cons]
      have : i + d < l.length := by omega
      rw [List.getElem?_eq_getElem this]
      simp [List.getElem?_drop, List.getElem?_eq_getElem this]
  by_cases hij : i ≤ j
  · rw [this (j - i) (by omega), List.drop_take]
  · have : j - i = 0 := by omega
    rw [this]
    simp only [List.range_zero, List.filterMap_nil]
    rw [List.drop_eq_nil_of_le (by simp; omega)]

end

/-- slices of three objects, the first of four having been removed -/
example : slice (removeId (init (ι := Nat) id [1, 2, 3, 4]) 1).1 (some 1) none none = .ok [some 3, some 4] ∧
    slice (removeId (init (ι := Nat) id [1, 2, 3, 4]) 1).1 none none (some 2) = .ok [some 2, some 4] ∧
    slice (removeId (init (ι := Nat) id [1, 2, 3, 4]) 1).1 (some 2) (some 0) (some (-1)) = .ok [some 4, some 3] := by
  decide +kernel

/-- **C204 is false of the code**: of three objects, `coll[-2:]` lists five, `coll[0:5]` raises IndexError, `coll[:-1]` is empty and so is
`coll[::-1]`. -/
theorem C204_counterexample :
    slice (init (ι := Nat) id [1, 2, 3]) (some (-2)) none none = .ok [some 2, some 3, some 1, some 2, some 3] ∧
    slice (init (ι := Nat) id [1, 2, 3]) (some 0) (some 5) none = .error .indexError ∧
    slice (init (ι := Nat) id [1, 2, 3]) none (some (-1)) none = .ok [] ∧
    slice (init (ι := Nat) id [1, 2, 3]) none none (some (-1)) = .ok [] ∧
    Spec.slice [1, 2, 3] (some (-2)) none none = .ok [2, 3] ∧
    Spec.slice [1, 2, 3] (some 0) (some 5) none = .ok [1, 2, 3] ∧
    Spec.slice [1, 2, 3] none (some (-1)) none = .ok [1, 2] ∧
    Spec.slice [1, 2, 3] none none (some (-1)) = .ok [3, 2, 1] ∧ ¬ C204_claim Nat Nat id := by
  refine ⟨by decide +kernel, by decide +kernel, by decide +kernel, by decide +kernel, by decide +kernel, by decide +kernel,
    by decide +kernel, by decide +kernel, fun h => ?_⟩
  have := h (init id [1, 2, 3]) (init_inv [1, 2, 3] (by simp [Spec.Distinct])).1 (some (-2)) none none
  revert this
  decide +kernel

end Verif.OC
