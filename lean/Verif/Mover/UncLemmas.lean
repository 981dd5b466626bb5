import Verif.Mover.UncModel
import Mathlib.Algebra.Order.Ring.Abs
import Mathlib.Tactic.Ring
import Mathlib.Tactic.Linarith
import Mathlib.Tactic.NormNum

/-!
# Lemmas about the random draws of uncertain elements
-/

namespace Verif.Mover

variable {D : Type}

/-! ## Deleting rows -/

theorem mem_whereTrue {flags : List Bool} {i : Nat} : i ∈ whereTrue flags ↔ flags[i]? = some true := by
  unfold whereTrue
  rw [List.mem_filter, List.mem_range]
  constructor
  · rintro ⟨-, h⟩
    simpa using h
  · intro h
    exact ⟨(List.getElem?_eq_some_iff.mp h).1, by simpa using h⟩

theorem zipIdx_filter (P : Nat → Bool) (Q : Nat → Bool) : ∀ (rows : List D) (elems : List Nat) (k : Nat),
    rows.length = elems.length → (∀ (j : Nat) e, elems[j]? = some e → P (k + j) = Q e) →
    ((rows.zipIdx k).filter (fun p => P p.2)).map Prod.fst = ((elems.zip rows).filter (fun p => Q p.1)).map Prod.snd
  | [], [], _, _, _ => rfl
  | [], _ :: _, _, h, _ => absurd h (by simp)
  | _ :: _, [], _, h, _ => absurd h (by simp)
  | r :: rows, e :: elems, k, h, hPQ => by
      have h0 := hPQ 0 e rfl
      have ih := zipIdx_filter P Q rows elems (k + 1) (by simpa using h) (fun j e' hj => by
        have := hPQ (j + 1) e' (by simpa using hj)
        rwa [show k + 1 + j = k + (j + 1) by omega])
      rw [List.zipIdx_cons, List.zip_cons_cons, List.filter_cons, List.filter_cons]
      rw [Nat.add_zero] at h0
      simp only [h0]
      split <;> simp [ih]

/-- Rows beside the elements: deleting by the marks keeps the rows of the elements that are kept. -/
theorem npDelete_aligned {rows : List D} {elems : List Nat} {gone : Nat → Bool} (h : rows.length = elems.length) :
    npDelete rows (whereTrue (elems.map gone)) = some (((elems.zip rows).filter (fun p => !gone p.1)).map Prod.snd) := by
  unfold npDelete
  rw [if_pos]
  · congr 1
    have := zipIdx_filter (fun i => !((whereTrue (elems.map gone)).contains i)) (fun e => !gone e) rows elems 0 h (by
      intro j e hj
      have : (whereTrue (elems.map gone)).contains (0 + j) = gone e := by
        rw [Nat.zero_add]
        by_cases hg : gone e = true
        · rw [hg]
          rw [List.contains_iff_mem, mem_whereTrue, List.getElem?_map, hj, Option.map_some, hg]
        · have hg' : gone e = false := by simpa using hg
          rw [hg']
          by_contra hc
          have hc' : (whereTrue (elems.map gone)).contains j = true := by simpa using hc
          rw [List.contains_iff_mem, mem_whereTrue, List.getElem?_map, hj, Option.map_some, hg'] at hc'
          cases hc'
      rw [this])
    exact this
  · rw [List.all_eq_true]
    intro i hi
    have := (List.getElem?_eq_some_iff.mp (mem_whereTrue.mp hi)).1
    rw [List.length_map] at this
    simpa [h] using this

theorem npDelete_nil {idx : List Nat} (h : idx ≠ []) : npDelete ([] : List D) idx = none := by
  obtain ⟨a, l, rfl⟩ := List.exists_cons_of_ne_nil h
  simp [npDelete]

theorem whereTrue_eq_nil {elems : List Nat} {gone : Nat → Bool} (h : whereTrue (elems.map gone) = []) :
    ∀ e ∈ elems, gone e = false := by
  intro e he
  by_contra hc
  have hc' : gone e = true := by simpa using hc
  obtain ⟨j, hj⟩ := List.getElem?_of_mem he
  have : j ∈ whereTrue (elems.map gone) := mem_whereTrue.mpr (by rw [List.getElem?_map, hj, Option.map_some, hc'])
  rw [h] at this
  cases this

theorem whereTrue_nil_of {elems : List Nat} {gone : Nat → Bool} (h : ∀ e ∈ elems, gone e = false) :
    whereTrue (elems.map gone) = [] := by
  rw [List.eq_nil_iff_forall_not_mem]
  intro i hi
  have := mem_whereTrue.mp hi
  rw [List.getElem?_map] at this
  cases hj : elems[i]? with
  | none => rw [hj] at this; cases this
  | some e =>
      rw [hj, Option.map_some, h e (List.mem_of_getElem? hj)] at this
      cases this

theorem filter_zip_fst {rows : List D} {elems : List Nat} {gone : Nat → Bool} (h : rows.length = elems.length) :
    elems.filter (fun e => !gone e) = ((elems.zip rows).filter (fun p => !gone p.1)).map Prod.fst := by
  induction elems generalizing rows with
  | nil => simp
  | cons e es ih =>
      cases rows with
      | nil => simp at h
      | cons r rows =>
          have := ih (rows := rows) (by simpa using h)
          rw [List.zip_cons_cons, List.filter_cons, List.filter_cons]
          simp only
          split <;> simp [this]

theorem zip_map_fst_snd (l : List (Nat × D)) : (l.map Prod.fst).zip (l.map Prod.snd) = l := by
  induction l with
  | nil => rfl
  | cons a l ih => simp [ih]

/-- The rows of the elements that are kept are what they were. -/
theorem zip_deleted {rows : List D} {elems : List Nat} {gone : Nat → Bool} (h : rows.length = elems.length) :
    (elems.filter (fun e => !gone e)).zip (((elems.zip rows).filter (fun p => !gone p.1)).map Prod.snd)
      = (elems.zip rows).filter (fun p => !gone p.1) := by
  rw [filter_zip_fst h, zip_map_fst_snd]

theorem nodup_zip_unique {rows : List D} {elems : List Nat} (h : elems.Nodup) {e : Nat} {d d' : D}
    (h1 : (e, d) ∈ elems.zip rows) (h2 : (e, d') ∈ elems.zip rows) : d = d' := by
  induction elems generalizing rows with
  | nil => simp at h1
  | cons a as ih =>
      cases rows with
      | nil => simp at h1
      | cons r rs =>
          rw [List.nodup_cons] at h
          rw [List.zip_cons_cons, List.mem_cons] at h1 h2
          rcases h1 with h1 | h1 <;> rcases h2 with h2 | h2
          · rw [Prod.mk.injEq] at h1 h2
            rw [h1.2, h2.2]
          · rw [Prod.mk.injEq] at h1
            exact absurd (List.of_mem_zip h2).1 (h1.1 ▸ h.1)
          · rw [Prod.mk.injEq] at h2
            exact absurd (List.of_mem_zip h1).1 (h2.1 ▸ h.1)
          · exact ih h.2 h1 h2

theorem zip_append_prefix {rows : List D} {elems : List Nat} (h : rows.length ≤ elems.length) (a : List Nat) (b : List D)
    {p : Nat × D} (hp : p ∈ elems.zip rows) : p ∈ (elems ++ a).zip (rows ++ b) := by
  induction elems generalizing rows with
  | nil => simp at hp
  | cons e es ih =>
      cases rows with
      | nil => simp at hp
      | cons r rs =>
          rw [List.zip_cons_cons, List.mem_cons] at hp
          rw [List.cons_append, List.cons_append, List.zip_cons_cons, List.mem_cons]
          rcases hp with hp | hp
          · exact Or.inl hp
          · exact Or.inr (ih (by simpa using h) hp)

/-! ## Preparing a step -/

/-- What `prepare_for_model_step` does to the list of an active mover. -/
structure Prepared (c : UPar) (num : Nat) (el : Rat) (s u : Unc D) : Prop where
  len : u.list = [] ∨ u.list.length = num
  how : (u.setAt = s.setAt ∧ ∃ ext, u.list = s.list ++ ext) ∨ (u.setAt = el ∧ (s.list = [] ∨ s.setAt + c.duration ≤ el))
  delay : u.list ≠ [] → c.delay ≤ u.setAt
  setAt : u.setAt ≤ el
  age : u.list ≠ [] → el < u.setAt + c.duration ∨ u.setAt = el
  empty : u.list = [] → el < c.delay ∨ num = 0
  start : u.start = s.start
  first : u.first = s.first

theorem update_prepared {c : UPar} {ω ω' : Nat → D} {num : Nat} {el : Rat} {s : Unc D} (hlen : s.list.length ≤ num)
    (hset : s.setAt ≤ el) (hdelay : s.list ≠ [] → c.delay ≤ s.setAt) : Prepared c num el s (update c ω ω' num el s) := by
  unfold update
  split
  · next h =>
    have he : s.list = [] := by
      by_contra hc
      exact absurd (le_trans (hdelay hc) hset) (not_le.mpr h)
    exact ⟨Or.inl he, Or.inl ⟨rfl, [], by simp⟩, fun hc => absurd he hc, hset, fun hc => absurd he hc, fun _ => Or.inl h, rfl, rfl⟩
  · next h =>
    have hd : c.delay ≤ el := not_lt.mp h
    by_cases h0 : s.list = []
    · have hz : s.list.length = 0 := by simp [h0]
      simp only [hz, true_or, if_true]
      refine ⟨Or.inr (by simp), Or.inr ⟨rfl, Or.inl h0⟩, fun _ => hd, le_refl _, fun _ => Or.inr rfl, ?_, rfl, rfl⟩
      intro hc
      refine Or.inr ?_
      simpa using hc
    · have hz : s.list.length ≠ 0 := by simpa using h0
      have hr : ¬ (s.list.length = 0 ∨ el < s.setAt ∨ num < s.list.length) := by
        push Not
        exact ⟨hz, hset, hlen⟩
      simp only [hr, if_false]
      have hl1 : (if s.list.length < num ∧ s.list.length ≠ 0 then
          s.list ++ (List.range (num - s.list.length)).map (fun (i : Nat) => ω (s.list.length + i)) else s.list).length = num := by
        split
        · simp; omega
        · next hn =>
          push Not at hn
          by_contra hc
          exact hz (hn (by omega))
      have hpos : num ≠ 0 := by omega
      split
      · next hexp =>
        refine ⟨Or.inr (by rw [List.length_map, List.length_range, hl1]), Or.inr ⟨rfl, Or.inr hexp⟩, fun _ => hd, le_refl _,
          fun _ => Or.inr rfl, ?_, rfl, rfl⟩
        intro hc
        have hc' := congrArg List.length hc
        rw [List.length_map, List.length_range, hl1] at hc'
        exact absurd hc' hpos
      · next hexp =>
        refine ⟨Or.inr hl1, Or.inl ⟨rfl, ?_⟩, fun _ => hdelay h0, hset, fun _ => Or.inl (not_le.mp hexp), ?_, rfl, rfl⟩
        · split
          · exact ⟨_, rfl⟩
          · exact ⟨[], by simp⟩
        · intro hc
          have hc' := congrArg List.length hc
          change (if _ then _ else _ : List D).length = 0 at hc'
          rw [hl1] at hc'
          exact absurd hc' hpos

theorem prepare_prepared {c : UPar} {wind : Bool} {ω ω' : Nat → D} {num : Nat} {t : Rat} {s : Unc D}
    (hlen : s.list.length ≤ num) (hset : s.setAt ≤ |t - (markStart t s).start|) (hdelay : s.list ≠ [] → c.delay ≤ s.setAt) :
    Prepared c num |t - (markStart t s).start| (markStart t s) (prepare c wind ω ω' true num t s) := by
  have hm : (markStart t s).list = s.list := by unfold markStart; split <;> rfl
  have hm2 : (markStart t s).setAt = s.setAt := by unfold markStart; split <;> rfl
  unfold prepare
  simp only [if_true]
  split
  · next h =>
    have hz : num = 0 := by
      rw [Bool.and_eq_true, beq_iff_eq] at h
      exact h.2
    have he : s.list = [] := by
      rw [← List.length_eq_zero_iff]; omega
    refine ⟨Or.inl (hm.trans he), Or.inl ⟨rfl, [], by simp⟩, fun hc => absurd (hm.trans he) hc, hm2 ▸ hset,
      fun hc => absurd (hm.trans he) hc, fun _ => Or.inr hz, rfl, rfl⟩
  · exact update_prepared (by rwa [hm]) (by rwa [hm2]) (by rwa [hm, hm2])

end Verif.Mover
