import Verif.Container.Model
import Mathlib.Tactic.Linarith
import Mathlib.Tactic.FieldSimp
import Mathlib.Tactic.Ring
/-!
# Lemmas about the container model
-/
namespace Verif.Container
open Verif.Py

theorem get?_applyAll (g : String → AT → List Row → List Row) (ts : Types) (h : (ts.map Prod.fst).Nodup) (d : Arrays)
    (k : String) : (applyAll g ts d).get? k =
      match Dict.get? ts k with
      | some a => (d.get? k).map (g k a)
      | none => d.get? k := by
  induction ts generalizing d with
  | nil => rfl
  | cons p ts ih =>
    obtain ⟨name, a⟩ := p
    rw [List.map_cons, List.nodup_cons] at h
    have hnot : Dict.get? ts name = none := by
      rw [Dict.get?_eq_none_iff]; exact h.1
    rw [applyAll, Dict.get?_cons]
    cases hd : d.get? name with
    | none =>
      simp only
      rw [ih h.2]
      by_cases hk : name = k
      · subst hk; simp [hnot, hd]
      · simp [hk]
    | some rows =>
      simp only
      rw [ih h.2]
      by_cases hk : name = k
      · subst hk; simp [hnot, hd, Dict.get?_set]
      · simp [hk, Dict.get?_set]

theorem keys_applyAll (g : String → AT → List Row → List Row) (ts : Types) (d : Arrays) (hw : d.WF) :
    (applyAll g ts d).WF := by
  induction ts generalizing d with
  | nil => exact hw
  | cons p ts ih =>
    obtain ⟨name, a⟩ := p
    rw [applyAll]
    split
    · exact ih d hw
    · exact ih _ (hw.set _ _)

theorem initRows_length (a : AT) (ctr : ℚ) (n : Nat) : (initRows a ctr n).length = n := by
  unfold initRows; split <;> simp

/-- all arrays are there and have `n` rows -/
structure Inv (c : Cont) (n : Nat) : Prop where
  nodup : (c.types.map Prod.fst).Nodup
  wf : c.arrays.WF
  keys : ∀ k, (c.arrays.get? k).isSome = (Dict.get? c.types k).isSome
  lens : ∀ k rows, c.arrays.get? k = some rows → rows.length = n

theorem Inv.len_eq {c : Cont} {n : Nat} (h : Inv c n) (hne : c.arrays ≠ []) : len c = n := by
  unfold len
  rcases c with ⟨ts, arr⟩
  cases arr with
  | nil => exact absurd rfl hne
  | cons p t =>
    obtain ⟨k, rows⟩ := p
    exact h.lens k rows (by simp [Dict.get?_cons])

theorem Inv.all_len {c : Cont} {n : Nat} (h : Inv c n) : ∀ p ∈ c.arrays, p.2.length = n := by
  rintro ⟨k, rows⟩ hp
  exact h.lens k rows (Dict.get?_of_mem h.wf hp)

/-- an update of every array that changes all lengths in the same way keeps the invariant -/
theorem Inv.applyAll {c : Cont} {n m : Nat} (h : Inv c n) (g : String → AT → List Row → List Row)
    (hg : ∀ k a rows, Dict.get? c.types k = some a → c.arrays.get? k = some rows → (g k a rows).length = m) :
    Inv { c with arrays := applyAll g c.types c.arrays } m where
  nodup := h.nodup
  wf := keys_applyAll _ _ _ h.wf
  keys := by
    intro k
    simp only
    rw [get?_applyAll g c.types h.nodup]
    have := h.keys k
    cases ht : Dict.get? c.types k with
    | none => simpa [ht] using this
    | some a => simpa [ht] using this
  lens := by
    intro k rows hk
    simp only at hk
    rw [get?_applyAll g c.types h.nodup] at hk
    have hkeys := h.keys k
    cases ht : Dict.get? c.types k with
    | none => rw [ht] at hk hkeys; simp only at hk; rw [hk] at hkeys; simp at hkeys
    | some a =>
      rw [ht] at hk
      simp only [Option.map_eq_some_iff] at hk
      obtain ⟨r0, hr0, rfl⟩ := hk
      exact hg k a r0 ht hr0

theorem splice_eq (A B new : List Row) (v : Row) (hne : new ≠ []) :
    splice (A ++ v :: B) A.length new = A ++ new ++ B := by
  unfold splice
  obtain ⟨l, x, rfl⟩ : ∃ l x, new = l ++ [x] := ⟨new.dropLast, new.getLast hne, (List.dropLast_append_getLast hne).symm⟩
  have h1 : (l ++ [x]).getLast?.getD [] = x := by simp
  have h2 : A.length + (l ++ [x]).length - 1 = (A ++ l).length := by simp
  rw [h1, h2]
  rw [List.take_left, List.dropLast_concat, List.drop_left]
  rw [List.set_append_right _ _ (by simp)]
  simp

theorem splice_length (rows : List Row) (idx : Nat) (new : List Row) (h : idx < rows.length) (hne : new ≠ []) :
    (splice rows idx new).length = rows.length + new.length - 1 := by
  unfold splice
  have : 0 < new.length := List.length_pos_iff.2 hne
  simp; omega

/-- fractions that `split_element` accepts -/
def GoodFrac (num : Nat) (lfrac : Option (List ℚ)) : Prop :=
  ∀ l, lfrac = some l → l.length = num ∧ closeToOne l = true

theorem splitRow_ok (a : AT) (num : Nat) (v : Row) (lfrac : Option (List ℚ)) (hn : 2 ≤ num) (hl : GoodFrac num lfrac) :
    ∃ new, splitRow a num v lfrac = .ok new ∧ new.length = num := by
  unfold splitRow
  rw [if_neg (by omega)]
  cases ha : a.kind with
  | plain => exact ⟨_, rfl, by simp⟩
  | id => exact ⟨_, rfl, by simp⟩
  | divide =>
    cases lfrac with
    | none => exact ⟨_, rfl, by simp⟩
    | some l =>
      obtain ⟨h1, h2⟩ := hl l rfl
      exact ⟨l.map (fun f => v.map (· * f)), by simp [h1, h2], by simp [h1]⟩

/-- the effect of a split on one column -/
def splitCol (idx num : Nat) (lfrac : Option (List ℚ)) (a : AT) (rows : List Row) : List Row :=
  match rows[idx]? with
  | none => rows
  | some v => match splitRow a num v lfrac with
    | .error _ => rows
    | .ok new => splice rows idx new

theorem splitLoop_ok (idx num : Nat) (lfrac : Option (List ℚ)) (hn : 2 ≤ num) (hl : GoodFrac num lfrac) (ts : Types)
    (hnd : (ts.map Prod.fst).Nodup) (d : Arrays)
    (hd : ∀ p ∈ ts, ∃ rows, d.get? p.1 = some rows ∧ idx < rows.length) :
    splitLoop idx num lfrac ts d = (applyAll (fun _ a rows => splitCol idx num lfrac a rows) ts d, none) := by
  induction ts generalizing d with
  | nil => rfl
  | cons p ts ih =>
    obtain ⟨name, a⟩ := p
    rw [List.map_cons, List.nodup_cons] at hnd
    obtain ⟨rows, hr, hi⟩ := hd (name, a) List.mem_cons_self
    simp only at hr
    obtain ⟨new, hnew, hlen⟩ := splitRow_ok a num rows[idx] lfrac hn hl
    rw [splitLoop, applyAll, hr]
    simp only [splitCol, List.getElem?_eq_getElem hi, hnew]
    apply ih hnd.2
    intro q hq
    obtain ⟨r, hr', hi'⟩ := hd q (List.mem_cons_of_mem _ hq)
    refine ⟨r, ?_, hi'⟩
    rw [Dict.get?_set, if_neg, hr']
    intro he
    exact hnd.1 (List.mem_map.2 ⟨q, hq, he.symm⟩)

theorem splitCol_length (idx num : Nat) (lfrac : Option (List ℚ)) (hn : 2 ≤ num) (hl : GoodFrac num lfrac) (a : AT)
    (rows : List Row) (h : idx < rows.length) : (splitCol idx num lfrac a rows).length = rows.length + num - 1 := by
  obtain ⟨new, hnew, hlen⟩ := splitRow_ok a num rows[idx] lfrac hn hl
  have hne : new ≠ [] := by rintro rfl; simp at hlen; omega
  simp only [splitCol, List.getElem?_eq_getElem h, hnew]
  rw [splice_length rows idx new h hne, hlen]

theorem splitLoop_small (idx num : Nat) (lfrac : Option (List ℚ)) (hn : num < 2) (ts : Types) (d : Arrays) :
    (splitLoop idx num lfrac ts d).1 = d := by
  cases ts with
  | nil => rfl
  | cons p ts =>
    obtain ⟨name, a⟩ := p
    rw [splitLoop]
    split
    · rfl
    · split
      · rfl
      · simp [splitRow, hn]

theorem deleteRows_eq (rows : List Row) (idxs : List Nat) :
    deleteRows rows idxs = ((List.range rows.length).filter (fun i => !idxs.contains i)).filterMap (fun i => rows[i]?) := by
  unfold deleteRows
  have h1 : rows.zipIdx = (List.range rows.length).filterMap (fun i => rows[i]?.map (fun r => (r, i))) := by
    apply List.ext_getElem?
    intro i
    have h2 : (List.range rows.length).filterMap (fun i => rows[i]?.map (fun r => (r, i))) =
        (List.range rows.length).map (fun i => (rows.getD i [], i)) := by
      rw [← List.filterMap_eq_map]
      apply List.filterMap_congr
      intro x hx
      rw [List.mem_range] at hx
      simp [List.getElem?_eq_getElem hx, List.getD]
    rw [h2]
    by_cases hi : i < rows.length
    · simp [hi, List.getD]
    · simp [hi]
  rw [h1, List.filterMap_filter, List.filter_filterMap, List.map_filterMap]
  apply List.filterMap_congr
  intro i hi
  cases hr : rows[i]? with
  | none => simp
  | some r => 
    simp only [Option.map_some, Option.filter_some]
    split <;> simp

/-- number of rows kept depends on the number of rows only -/
theorem deleteRows_length (rows : List Row) (idxs : List Nat) :
    (deleteRows rows idxs).length = ((List.range rows.length).filter (fun i => !idxs.contains i)).length := by
  rw [deleteRows_eq]
  rw [List.length_filterMap_eq_countP, List.countP_eq_length]
  intro i hi
  have := List.mem_range.1 (List.mem_filter.1 hi).1
  simp [this]

end Verif.Container
