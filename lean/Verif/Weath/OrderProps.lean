import Verif.Weath.Order

/-!
# C45: order of weatherers
-/

namespace Verif.Weath

/-- Specification of the documented order: position in the documentation list, as a relation between classes. -/
def Before (a b : Cls) : Prop := ∃ i j : Nat, i ≤ j ∧ sortOrder[i]? = some a ∧ sortOrder[j]? = some b

theorem sort_nodup : sortOrder.Nodup := by decide

theorem mem_of_isSome {c : Cls} (h : (weathererSort c).isSome = true) : c ∈ sortOrder := by
  unfold weathererSort at h
  split at h
  · assumption
  · simp at h

theorem rank_eq {c : Cls} (h : c ∈ sortOrder) : (weathererSort c).getD 0 = sortOrder.idxOf c := by
  unfold weathererSort; rw [if_pos h]; rfl

theorem before_of_rank {a b : Cls} (ha : a ∈ sortOrder) (hb : b ∈ sortOrder)
    (h : (weathererSort a).getD 0 ≤ (weathererSort b).getD 0) : Before a b := by
  rw [rank_eq ha, rank_eq hb] at h
  refine ⟨sortOrder.idxOf a, sortOrder.idxOf b, h, ?_, ?_⟩
  · rw [List.getElem?_eq_getElem (List.idxOf_lt_length_of_mem ha), List.getElem_idxOf]
  · rw [List.getElem?_eq_getElem (List.idxOf_lt_length_of_mem hb), List.getElem_idxOf]

/-- The comparison used. -/
def leW (a b : W) : Bool := decide ((weathererSort a.cls).getD 0 ≤ (weathererSort b.cls).getD 0)

theorem leW_trans (a b c : W) (h1 : leW a b = true) (h2 : leW b c = true) : leW a c = true := by
  unfold leW at *
  rw [decide_eq_true_iff] at *
  omega

theorem leW_total (a b : W) : (leW a b || leW b a) = true := by
  unfold leW
  rw [Bool.or_eq_true, decide_eq_true_iff, decide_eq_true_iff]
  omega

theorem order_eq (l : List W) : orderWeatherers l = pySorted l := by
  unfold orderWeatherers
  cases h : pySorted l with
  | none => rfl
  | some s =>
    simp only
    split
    · rfl
    · rename_i hne
      rw [not_not] at hne
      rw [hne]

theorem rank_inj {a b : Cls} (ha : a ∈ sortOrder) (hb : b ∈ sortOrder)
    (h : (weathererSort a).getD 0 = (weathererSort b).getD 0) : a = b := by
  rw [rank_eq ha, rank_eq hb] at h
  exact (List.idxOf_inj ha).1 h

/-- **C45**.  For weatherers of known classes the result is a rearrangement of the list, in documented order, in which the
weatherers of each class stay in insertion order. -/
theorem C45_order (l : List W) (h : ∀ w ∈ l, w.cls ∈ sortOrder) :
    ∃ s, orderWeatherers l = some s ∧ s.Perm l ∧ s.Pairwise (fun a b => Before a.cls b.cls) ∧
      ∀ c, s.filter (fun w => decide (w.cls = c)) = l.filter (fun w => decide (w.cls = c)) := by
  rw [order_eq]
  unfold pySorted
  by_cases hl : l.length ≤ 1
  · rw [if_pos hl]
    refine ⟨l, rfl, List.Perm.refl _, ?_, fun _ => rfl⟩
    match l, hl with
    | [], _ => simp
    | [a], _ => simp
  · rw [if_neg hl]
    have hall : l.all (fun w => (weathererSort w.cls).isSome) = true := by
      rw [List.all_eq_true]
      intro w hw
      unfold weathererSort; rw [if_pos (h w hw)]; rfl
    rw [if_pos hall]
    have hperm : (l.mergeSort leW).Perm l := List.mergeSort_perm l leW
    refine ⟨l.mergeSort leW, rfl, hperm, ?_, ?_⟩
    · have hp := List.pairwise_mergeSort (le := leW) leW_trans leW_total l
      have hmem : ∀ w ∈ l.mergeSort leW, w.cls ∈ sortOrder := fun w hw => h w (hperm.mem_iff.1 hw)
      refine List.Pairwise.imp_of_mem ?_ hp
      intro a b ha hb hab
      exact before_of_rank (hmem a ha) (hmem b hb) (of_decide_eq_true hab)
    · intro c
      have hsub : (l.filter (fun w => decide (w.cls = c))).Sublist (l.mergeSort leW) := by
        apply List.sublist_mergeSort leW_trans leW_total
        · apply List.pairwise_of_forall_mem_list
          intro a ha b hb
          rw [List.mem_filter, decide_eq_true_iff] at ha hb
          unfold leW
          rw [ha.2, hb.2]; simp
        · exact List.filter_sublist
      have hsub2 := hsub.filter (fun w => decide (w.cls = c))
      rw [List.filter_filter] at hsub2
      simp only [Bool.and_self] at hsub2
      exact (hsub2.eq_of_length (hperm.filter _).length_eq.symm).symm

/-- **C45** (unknown classes).  In a list of at least two, a weatherer of a class not in the order makes setup raise. -/
theorem C45_unknown (l : List W) (h2 : 2 ≤ l.length) (w : W) (hw : w ∈ l) (hc : w.cls ∉ sortOrder) :
    orderWeatherers l = none := by
  rw [order_eq]
  unfold pySorted
  rw [if_neg (by omega), if_neg]
  rw [List.all_eq_true]
  intro h
  exact hc (mem_of_isSome (h w hw))

/-- Alone, a weatherer of an unknown class is accepted (there is nothing to order). -/
theorem C45_single (w : W) : orderWeatherers [w] = some [w] := by rw [order_eq]; rfl

/-- Ordering twice is ordering once. -/
theorem C45_idempotent (l s : List W) (h : orderWeatherers l = some s) : orderWeatherers s = some s := by
  rw [order_eq] at h ⊢
  unfold pySorted at h ⊢
  by_cases hl : l.length ≤ 1
  · rw [if_pos hl] at h
    rw [← Option.some.inj h, if_pos hl]
  · rw [if_neg hl] at h
    split at h
    · rename_i hall
      have hs := Option.some.inj h
      have hperm : s.Perm l := by rw [← hs]; exact List.mergeSort_perm _ _
      rw [if_neg (by rw [hperm.length_eq]; exact hl)]
      have hall' : s.all (fun w => (weathererSort w.cls).isSome) = true := by
        rw [List.all_eq_true] at hall ⊢
        exact fun w hw => hall w (hperm.mem_iff.1 hw)
      rw [if_pos hall']
      congr 1
      apply List.mergeSort_of_pairwise
      rw [← hs]
      exact List.pairwise_mergeSort (le := leW) leW_trans leW_total l
    · exact absurd h (by simp)

theorem idx_eval : ∀ i < 16, sortOrder[i]? = some Cls.Evaporation → i = 8 := by decide

theorem idx_skim : ∀ i < 16, sortOrder[i]? = some Cls.Skimmer → i = 1 := by decide

example : (⟨1, .Evaporation⟩ : W).cls ∈ sortOrder ∧ (⟨2, .Skimmer⟩ : W).cls ∈ sortOrder ∧ (Cls.other 3) ∉ sortOrder ∧
    ¬ Before .Evaporation .Skimmer := by
  refine ⟨by decide, by decide, by decide, ?_⟩
  rintro ⟨i, j, hij, hi, hj⟩
  have hi' : i < 16 := (List.getElem?_eq_some_iff.1 hi).1
  have hj' : j < 16 := (List.getElem?_eq_some_iff.1 hj).1
  have h1 := idx_eval i hi' hi
  have h2 := idx_skim j hj' hj
  omega

end Verif.Weath
