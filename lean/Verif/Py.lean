/-!
# Python building blocks

Small models of the Python list/dict primitives that the modelled code uses.
They are shared by the models of all areas.
-/
namespace Verif.Py

/-- Exceptions as values. -/
inductive Err
  | keyError | indexError | valueError | typeError | attributeError | zeroDivision
  | runtimeError | other
  deriving DecidableEq, Repr

/-- Position that Python's `l[i]` refers to for a list of length `n`
(negative indices count from the end), `none` = IndexError. -/
def pyIdx (n : Nat) (i : Int) : Option Nat :=
  if 0 ≤ i then (if i < n then some i.toNat else none)
  else if 0 ≤ (n : Int) + i then some ((n : Int) + i).toNat else none

/-- Python `l[i]`. -/
def pyGet {α} (l : List α) (i : Int) : Option α := (pyIdx l.length i).bind (l[·]?)

/-! ### dict as insertion-ordered association list -/

/-- Python dict: insertion-ordered association list, keys distinct (`Dict.WF`). -/
abbrev Dict (κ ν : Type _) := List (κ × ν)

namespace Dict
variable {κ : Type _} {ν : Type _} [DecidableEq κ]

/-- `d.get(k)` -/
def get? (d : Dict κ ν) (k : κ) : Option ν :=
  match d with
  | [] => none
  | (k', v) :: t => if k' = k then some v else get? t k

/-- `k in d` -/
def has (d : Dict κ ν) (k : κ) : Bool := (d.get? k).isSome

/-- `d[k] = v` (an existing key keeps its place) -/
def set (d : Dict κ ν) (k : κ) (v : ν) : Dict κ ν :=
  match d with
  | [] => [(k, v)]
  | (k', v') :: t => if k' = k then (k, v) :: t else (k', v') :: set t k v

/-- `del d[k]` for a present key; no-op otherwise (callers check). -/
def del (d : Dict κ ν) (k : κ) : Dict κ ν := d.filter (fun p => p.1 ≠ k)

/-- keys are distinct -/
def WF (d : Dict κ ν) : Prop := (d.map Prod.fst).Nodup

@[simp] theorem get?_nil (k : κ) : get? ([] : Dict κ ν) k = none := rfl

theorem get?_cons (k' : κ) (v : ν) (t : Dict κ ν) (k : κ) :
    get? ((k', v) :: t) k = if k' = k then some v else get? t k := rfl

theorem get?_set (d : Dict κ ν) (k : κ) (v : ν) (k' : κ) :
    (d.set k v).get? k' = if k = k' then some v else d.get? k' := by
  induction d with
  | nil => simp [set, get?_cons]
  | cons p t ih =>
    obtain ⟨a, b⟩ := p
    unfold set
    split
    · subst_vars; simp only [get?_cons]; split <;> rfl
    · simp only [get?_cons, ih]
      split
      · rename_i h1 h2; subst h2
        rw [if_neg (fun h => h1 h.symm)]
      · rfl

theorem get?_set_self (d : Dict κ ν) (k : κ) (v : ν) : (d.set k v).get? k = some v := by
  simp [get?_set]

theorem get?_del (d : Dict κ ν) (k k' : κ) :
    (d.del k).get? k' = if k = k' then none else d.get? k' := by
  induction d with
  | nil => simp [del]
  | cons p t ih =>
    obtain ⟨a, b⟩ := p
    unfold del at *
    simp only [List.filter_cons, get?_cons]
    by_cases h : a = k
    · subst h
      simp only [ne_eq, not_true_eq_false, decide_false, Bool.false_eq_true, if_false, ih]
      split <;> rfl
    · simp only [ne_eq, h, not_false_eq_true, decide_true, if_true, get?_cons, ih]
      split
      · rename_i h2; subst h2; rw [if_neg (fun h' => h h'.symm)]
      · rfl

theorem get?_eq_none_iff (d : Dict κ ν) (k : κ) : d.get? k = none ↔ k ∉ d.map Prod.fst := by
  induction d with
  | nil => simp
  | cons p t ih =>
    obtain ⟨a, b⟩ := p
    simp only [get?_cons, List.map_cons, List.mem_cons, not_or]
    split
    · rename_i h; simp [h]
    · rename_i h; rw [ih]; exact ⟨fun x => ⟨fun e => h e.symm, x⟩, fun x => x.2⟩

theorem mem_of_get? {d : Dict κ ν} {k : κ} {v : ν} (h : d.get? k = some v) : (k, v) ∈ d := by
  induction d with
  | nil => simp at h
  | cons p t ih =>
    obtain ⟨a, b⟩ := p
    simp only [get?_cons] at h
    split at h
    · rename_i e; subst e; injection h with h; subst h; simp
    · exact List.mem_cons_of_mem _ (ih h)

theorem get?_of_mem {d : Dict κ ν} (hw : d.WF) {k : κ} {v : ν} (h : (k, v) ∈ d) :
    d.get? k = some v := by
  induction d with
  | nil => simp at h
  | cons p t ih =>
    obtain ⟨a, b⟩ := p
    simp only [WF, List.map_cons, List.nodup_cons] at hw
    simp only [get?_cons]
    rcases List.mem_cons.1 h with h | h
    · injection h with h1 h2; subst h1; subst h2; simp
    · have : a ≠ k := by
        intro e; subst e; exact hw.1 (List.mem_map.2 ⟨(a, v), h, rfl⟩)
      rw [if_neg this]; exact ih hw.2 h

theorem mem_iff {d : Dict κ ν} (hw : d.WF) {k : κ} {v : ν} :
    (k, v) ∈ d ↔ d.get? k = some v := ⟨get?_of_mem hw, mem_of_get?⟩

theorem keys_set (d : Dict κ ν) (k : κ) (v : ν) :
    (d.set k v).map Prod.fst =
      if k ∈ d.map Prod.fst then d.map Prod.fst else d.map Prod.fst ++ [k] := by
  induction d with
  | nil => simp [set]
  | cons p t ih =>
    obtain ⟨a, b⟩ := p
    unfold set
    by_cases h : a = k
    · simp [h]
    · simp only [h, if_false, List.map_cons, ih, List.mem_cons]
      by_cases h2 : k ∈ t.map Prod.fst
      · simp [h2]
      · have : ¬ (k = a) := fun e => h e.symm
        simp [h2, this]

theorem WF.set {d : Dict κ ν} (hw : d.WF) (k : κ) (v : ν) : (d.set k v).WF := by
  unfold WF at *
  rw [keys_set]
  split
  · exact hw
  · rename_i h
    rw [List.nodup_append]
    refine ⟨hw, by simp, ?_⟩
    intro a ha b hb
    simp only [List.mem_singleton] at hb
    subst hb
    intro e; subst e; exact h ha

theorem WF.del {d : Dict κ ν} (hw : d.WF) (k : κ) : (d.del k).WF := by
  unfold WF Dict.del at *
  exact List.Pairwise.sublist (List.Sublist.map _ List.filter_sublist) hw

omit [DecidableEq κ] in
theorem WF.nil : WF ([] : Dict κ ν) := by simp [WF]

theorem has_iff (d : Dict κ ν) (k : κ) : d.has k = true ↔ ∃ v, d.get? k = some v := by
  unfold has; cases d.get? k <;> simp

theorem set_eq_append {d : Dict κ ν} {k : κ} (h : d.get? k = none) (v : ν) :
    d.set k v = d ++ [(k, v)] := by
  induction d with
  | nil => rfl
  | cons p t ih =>
    obtain ⟨a, b⟩ := p
    simp only [get?_cons] at h
    split at h
    · simp at h
    · rename_i e; unfold set; rw [if_neg e, ih h]; rfl

end Dict
end Verif.Py
