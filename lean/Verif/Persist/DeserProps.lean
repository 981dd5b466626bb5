import Verif.Persist.DeserModel
import Mathlib.Data.List.Nodup

/-!
# C337: objects that are shared in JSON
-/
namespace Verif.Persist.Deser

/-! ## Specification -/

mutual
/-- The object at an address is that of the JSON, and `f` tells for every id where its object is. -/
def AtJ (f : Nat → Option Nat) (heap : List Obj) : J → Nat → Prop
  | .obj id v kids, a => (∀ i, id = some i → f i = some a) ∧ ∃ as, heap[a]? = some ⟨v, as⟩ ∧ AtL f heap kids as
def AtL (f : Nat → Option Nat) (heap : List Obj) : Js → List Nat → Prop
  | .nil, as => as = []
  | .cons j r, as => ∃ a rest, as = a :: rest ∧ AtJ f heap j a ∧ AtL f heap r rest
end

/-- The objects are those of the JSON, one for each id. -/
def Faithful (j : J) (r : Nat × List Obj) : Prop := ∃ f, AtJ f r.2 j r.1

mutual
/-- All objects mentioned in JSON. -/
def mentions : J → List J
  | .obj id v kids => .obj id v kids :: mentionsL kids
def mentionsL : Js → List J
  | .nil => []
  | .cons j r => mentions j ++ mentionsL r
end

def J.id : J → Option Nat
  | .obj id _ _ => id

/-- An id means the same wherever it is mentioned. -/
def Consistent (j : J) : Prop := ∀ m ∈ mentions j, ∀ n ∈ mentions j, ∀ i, m.id = some i → n.id = some i → m = n

/-- C337 -/
def C337_claim : Prop := ∀ j, Consistent j → Faithful j (deserialize j)

/-! ## The case that holds: objects that are mentioned again have no objects in them -/

/-- The id of an object, unless `lf` lists it. -/
def unlisted (lf : Nat → Option Int) : Option Nat → List Nat
  | some i => if lf i = none then [i] else []
  | none => []

mutual
/-- The ids of the objects that `lf` does not list as having no objects in them. -/
def inner (lf : Nat → Option Int) : J → List Nat
  | .obj id _ kids =>
    unlisted lf id ++ innerL lf kids
def innerL (lf : Nat → Option Int) : Js → List Nat
  | .nil => []
  | .cons j r => inner lf j ++ innerL lf r
end

mutual
/-- The ids that `lf` lists are mentioned with the value that it tells, and without objects in them. -/
def Fits (lf : Nat → Option Int) : J → Prop
  | .obj id v kids => (∀ i w, id = some i → lf i = some w → v = w ∧ kids = .nil) ∧ FitsL lf kids
def FitsL (lf : Nat → Option Int) : Js → Prop
  | .nil => True
  | .cons j r => Fits lf j ∧ FitsL lf r
end

theorem lookup_cons (i j a : Nat) (refs : List (Nat × Nat)) :
    lookup ((i, a) :: refs) j = if i = j then some a else lookup refs j := by
  unfold lookup
  rw [List.find?_cons]
  by_cases h : i = j
  · simp [h]
  · simp [h]

/-- Nothing is lost. -/
def Ext (s s' : St) : Prop :=
  (∀ (a : Nat) (o : Obj), s.heap[a]? = some o → s'.heap[a]? = some o) ∧ ∀ i a, lookup s.refs i = some a → lookup s'.refs i = some a

theorem Ext.trans {s t u : St} (h : Ext s t) (h' : Ext t u) : Ext s u :=
  ⟨fun a o ho => h'.1 a o (h.1 a o ho), fun i a hi => h'.2 i a (h.2 i a hi)⟩

/-- Objects that are known and listed by `lf` are as it tells. -/
def Good (lf : Nat → Option Int) (s : St) : Prop :=
  ∀ (i a : Nat) (w : Int), lookup s.refs i = some a → lf i = some w → s.heap[a]? = some ⟨w, []⟩

mutual
theorem AtJ_mono {s s' : St} (h : Ext s s') : ∀ (j : J) (a : Nat), AtJ (lookup s.refs) s.heap j a → AtJ (lookup s'.refs) s'.heap j a
  | .obj _ _ kids, a => fun ⟨h1, as, h2, h3⟩ =>
    ⟨fun i hi => h.2 i a (h1 i hi), as, h.1 a _ h2, AtL_mono h kids as h3⟩
theorem AtL_mono {s s' : St} (h : Ext s s') : ∀ (r : Js) (as : List Nat), AtL (lookup s.refs) s.heap r as → AtL (lookup s'.refs) s'.heap r as
  | .nil, _ => fun hn => hn
  | .cons j r, _ => fun ⟨a, rest, h1, h2, h3⟩ => ⟨a, rest, h1, AtJ_mono h j a h2, AtL_mono h r rest h3⟩
end

/-- What making objects does. -/
structure Step (lf : Nat → Option Int) (ids : List Nat) (s s' : St) : Prop where
  ext : Ext s s'
  good : Good lf s'
  new : ∀ i, lookup s'.refs i ≠ none → lookup s.refs i ≠ none ∨ lf i ≠ none ∨ i ∈ ids

theorem finish_step (lf : Nat → Option Int) (id : Option Nat) (v : Int) (as : List Nat) (s : St) (hg : Good lf s)
    (hk : known id s = none) (hf : ∀ i w, id = some i → lf i = some w → v = w ∧ as = []) :
    (finish id v (as, s)).1 = s.heap.length ∧
    Step lf (unlisted lf id) s (finish id v (as, s)).2 ∧
    (∀ i, id = some i → lookup (finish id v (as, s)).2.refs i = some s.heap.length) ∧
    (finish id v (as, s)).2.heap[s.heap.length]? = some ⟨v, as⟩ := by
  unfold finish
  rw [hk]
  have hh : ∀ (a : Nat) (o : Obj), s.heap[a]? = some o → (s.heap ++ [⟨v, as⟩])[a]? = some o := by
    intro a o ho
    rw [List.getElem?_append_left]
    · exact ho
    · exact (List.getElem?_eq_some_iff.1 ho).1
  cases id with
  | none =>
    refine ⟨rfl, ⟨⟨hh, fun i a h => h⟩, fun i a w hi hw => hh a _ (hg i a w hi hw), fun i h => Or.inl h⟩, by simp, by simp⟩
  | some i =>
    have hk : lookup s.refs i = none := hk
    refine ⟨rfl, ⟨⟨hh, ?_⟩, ?_, ?_⟩, ?_, by simp⟩
    · intro k a hka
      simp only [lookup_cons]
      rw [if_neg]
      · exact hka
      · rintro rfl
        rw [hk] at hka
        cases hka
    · intro k a w hka hw
      simp only [lookup_cons] at hka
      split at hka
      · rename_i h
        subst h
        cases hka
        obtain ⟨rfl, rfl⟩ := hf i w rfl hw
        simp
      · exact hh a _ (hg k a w hka hw)
    · intro k hk'
      simp only [lookup_cons] at hk'
      split at hk'
      · rename_i h
        subst h
        by_cases hl : lf i = none
        · exact Or.inr (Or.inr (by simp [unlisted, hl]))
        · exact Or.inr (Or.inl hl)
      · exact Or.inl hk'
    · intro k hk'
      cases hk'
      simp [lookup_cons]

mutual
theorem deserJ_ok (lf : Nat → Option Int) : ∀ (j : J) (s : St), Fits lf j → (inner lf j).Nodup →
    (∀ i ∈ inner lf j, lookup s.refs i = none) → Good lf s →
    Step lf (inner lf j) s (deserJ j s).2 ∧ AtJ (lookup (deserJ j s).2.refs) (deserJ j s).2.heap j (deserJ j s).1
  | .obj id v kids, s => by
    intro hf hn hu hg
    simp only [Fits] at hf
    obtain ⟨hf, hfl⟩ := hf
    simp only [inner] at hn hu ⊢
    cases hk : known id s with
    | some a =>
      cases id with
      | none => cases hk
      | some i =>
        have hk' : lookup s.refs i = some a := hk
        cases hl : lf i with
        | none =>
          have := hu i (by simp [unlisted, hl])
          rw [hk'] at this
          cases this
        | some w =>
          obtain ⟨rfl, rfl⟩ := hf i w rfl hl
          have ho := hg i a v hk' hl
          have he : (deserJ (.obj (some i) v .nil) s) = (a, s) := by
            simp only [deserJ, hk, updL, setObj]
            congr 1
            obtain ⟨h1, h2⟩ := List.getElem?_eq_some_iff.1 ho
            rw [← h2, List.set_getElem_self]
          rw [he]
          refine ⟨⟨⟨fun _ _ h => h, fun _ _ h => h⟩, hg, fun i h => Or.inl h⟩, ?_⟩
          simp only [AtJ]
          refine ⟨?_, [], ho, rfl⟩
          intro k h
          cases h
          exact hk'
    | none =>
      have hnl := (List.nodup_append.1 hn).2.1
      have hdj := (List.nodup_append.1 hn).2.2
      obtain ⟨hs, ha⟩ := deserL_ok lf kids s hfl hnl (fun i hi => hu i (List.mem_append_right _ hi)) hg
      have he : deserJ (.obj id v kids) s = finish id v (deserL kids s) := by simp only [deserJ, hk]
      rw [he]
      have hnil : ∀ i w, id = some i → lf i = some w → v = w ∧ (deserL kids s).1 = [] := by
        intro i w hi hw
        obtain ⟨h1, rfl⟩ := hf i w hi hw
        exact ⟨h1, rfl⟩
      have hk1 : known id (deserL kids s).2 = none := by
        cases id with
        | none => rfl
        | some i =>
          have hk : lookup s.refs i = none := hk
          cases hl : lf i with
          | some w =>
            obtain ⟨_, rfl⟩ := hf i w rfl hl
            exact hk
          | none =>
            change lookup (deserL kids s).2.refs i = none
            by_contra hne
            rcases hs.new i hne with h | h | h
            · exact h hk
            · exact h hl
            · exact hdj i (by simp [unlisted, hl]) i h rfl
      obtain ⟨h1, h2, h3, h4⟩ := finish_step lf id v (deserL kids s).1 (deserL kids s).2 hs.good hk1 hnil
      refine ⟨⟨hs.ext.trans h2.ext, h2.good, ?_⟩, ?_⟩
      · intro i hi
        rcases h2.new i hi with h | h | h
        · rcases hs.new i h with h | h | h
          · exact Or.inl h
          · exact Or.inr (Or.inl h)
          · exact Or.inr (Or.inr (List.mem_append_right _ h))
        · exact Or.inr (Or.inl h)
        · exact Or.inr (Or.inr (List.mem_append_left _ h))
      · simp only [AtJ]
        change (∀ i, id = some i → lookup (finish id v ((deserL kids s).1, (deserL kids s).2)).2.refs i =
          some (finish id v ((deserL kids s).1, (deserL kids s).2)).1) ∧ _
        rw [h1]
        refine ⟨h3, _, h4, AtL_mono h2.ext kids _ ha⟩
theorem deserL_ok (lf : Nat → Option Int) : ∀ (r : Js) (s : St), FitsL lf r → (innerL lf r).Nodup →
    (∀ i ∈ innerL lf r, lookup s.refs i = none) → Good lf s →
    Step lf (innerL lf r) s (deserL r s).2 ∧ AtL (lookup (deserL r s).2.refs) (deserL r s).2.heap r (deserL r s).1
  | .nil, s => by
    intro _ _ _ hg
    simp only [deserL, AtL]
    exact ⟨⟨⟨fun _ _ h => h, fun _ _ h => h⟩, hg, fun i h => Or.inl h⟩, trivial⟩
  | .cons j r, s => by
    intro hf hn hu hg
    simp only [FitsL] at hf
    simp only [innerL] at hn hu ⊢
    obtain ⟨hn1, hn2, hd⟩ := List.nodup_append.1 hn
    obtain ⟨hs1, ha1⟩ := deserJ_ok lf j s hf.1 hn1 (fun i hi => hu i (List.mem_append_left _ hi)) hg
    have hu2 : ∀ i ∈ innerL lf r, lookup (deserJ j s).2.refs i = none := by
      intro i hi
      by_contra hne
      rcases hs1.new i hne with h | h | h
      · exact h (hu i (List.mem_append_right _ hi))
      · exact absurd hi (innerL_none lf r i h)
      · exact hd i h i hi rfl
    obtain ⟨hs2, ha2⟩ := deserL_ok lf r (deserJ j s).2 hf.2 hn2 hu2 hs1.good
    simp only [deserL, AtL]
    refine ⟨⟨hs1.ext.trans hs2.ext, hs2.good, ?_⟩, _, _, rfl, AtJ_mono hs2.ext j _ ha1, ha2⟩
    intro i hi
    rcases hs2.new i hi with h | h | h
    · rcases hs1.new i h with h | h | h
      · exact Or.inl h
      · exact Or.inr (Or.inl h)
      · exact Or.inr (Or.inr (List.mem_append_left _ h))
    · exact Or.inr (Or.inl h)
    · exact Or.inr (Or.inr (List.mem_append_right _ h))
theorem inner_none (lf : Nat → Option Int) : ∀ (j : J) (i : Nat), lf i ≠ none → i ∉ inner lf j
  | .obj id v kids, i => by
    intro h hm
    simp only [inner, List.mem_append] at hm
    rcases hm with hm | hm
    · cases id with
      | none => cases hm
      | some k =>
        simp only [unlisted] at hm
        split at hm
        · simp only [List.mem_singleton] at hm
          subst hm
          contradiction
        · cases hm
    · exact innerL_none lf kids i h hm
theorem innerL_none (lf : Nat → Option Int) : ∀ (r : Js) (i : Nat), lf i ≠ none → i ∉ innerL lf r
  | .nil, i => by simp [innerL]
  | .cons j r, i => by
    intro h hm
    simp only [innerL, List.mem_append] at hm
    rcases hm with hm | hm
    · exact inner_none lf j i h hm
    · exact innerL_none lf r i h hm
end

/-- C337 -/
theorem C337_partial (j : J) (lf : Nat → Option Int) (hf : Fits lf j) (hn : (inner lf j).Nodup) : Faithful j (deserialize j) := by
  have := (deserJ_ok lf j ⟨[], []⟩ hf hn (fun _ _ => rfl) (fun i a w h => by simp [lookup] at h)).2
  exact ⟨_, this⟩

/-! ## The case that does not -/

/-- A model: waves with a wind, listed twice, and a mover with the same wind. -/
def wind : J := .obj (some 2) 7 .nil
def waves : J := .obj (some 1) 5 (.cons wind .nil)
def model : J := .obj none 0 (.cons waves (.cons waves (.cons (.obj (some 3) 4 (.cons wind .nil)) .nil)))

theorem made : deserialize model = (4, [⟨7, []⟩, ⟨5, [2]⟩, ⟨7, []⟩, ⟨4, [0]⟩, ⟨0, [1, 1, 3]⟩]) := by decide

/-- C337 -/
theorem C337_counterexample : ¬ C337_claim := by
  intro h
  have hc : Consistent model := by
    intro m hm n hn i hi hj
    simp only [model, waves, wind, mentions, mentionsL, List.append_nil, List.cons_append, List.nil_append, List.mem_cons,
      List.not_mem_nil, or_false] at hm hn
    rcases hm with rfl | rfl | rfl | rfl | rfl | rfl | rfl <;> rcases hn with rfl | rfl | rfl | rfl | rfl | rfl | rfl <;>
      first
      | rfl
      | (simp [J.id] at hi; done)
      | (simp [J.id] at hj; done)
      | (simp only [J.id, Option.some.injEq] at hi hj; omega)
  obtain ⟨f, hf⟩ := h model hc
  rw [made] at hf
  simp only [model, waves, wind, AtJ, AtL] at hf
  obtain ⟨_, as, h1, a, r, rfl, ⟨_, as1, h2, b, r1, rfl, ⟨h3, _⟩, _⟩, c, r2, rfl, _, d, r3, rfl, ⟨_, as2, h4, e, r4, rfl, ⟨h5, _⟩, _⟩, _⟩ := hf
  simp only [List.getElem?_cons_succ, List.getElem?_cons_zero, Option.some.injEq, Obj.mk.injEq, List.cons.injEq, true_and] at h1
  obtain ⟨rfl, rfl, rfl, _⟩ := h1
  simp only [List.getElem?_cons_succ, List.getElem?_cons_zero, Option.some.injEq, Obj.mk.injEq, List.cons.injEq, true_and] at h2 h4
  obtain ⟨rfl, _⟩ := h2
  obtain ⟨rfl, _⟩ := h4
  have h6 := h3 2 rfl
  have h7 := h5 2 rfl
  rw [h6] at h7
  cases h7

/-! ## Cases that meet the hypotheses -/

/-- Two movers with one wind. -/
example : Faithful (.obj none 0 (.cons (.obj (some 3) 4 (.cons wind .nil)) (.cons (.obj (some 4) 5 (.cons wind .nil)) .nil)))
    (deserialize (.obj none 0 (.cons (.obj (some 3) 4 (.cons wind .nil)) (.cons (.obj (some 4) 5 (.cons wind .nil)) .nil)))) := by
  apply C337_partial _ (fun i => if i = 2 then some 7 else none)
  · simp [Fits, FitsL, wind]
  · simp [inner, innerL, unlisted, wind]

end Verif.Persist.Deser
