import Verif.OC.Model
import Verif.OC.Spec
import Mathlib.Data.List.Sort
/-! Helper lemmas for `Verif.OC.Props`. -/
namespace Verif.OC
open Verif.Py

section
variable {α ι : Type} [DecidableEq ι] (sid : α → ι) (inst : α → Bool)

/-- abstraction map -/
def abs (s : State α ι) : List α := s.elems.filterMap id

/-- representation invariant -/
structure Inv (s : State α ι) : Prop where
  wf : s.index.WF
  sound : ∀ k i, s.index.get? k = some i →
    ∃ (n : Nat) (e : α), i = (n : Int) ∧ s.elems[n]? = some (some e) ∧ sid e = k
  complete : ∀ (n : Nat) (e : α), s.elems[n]? = some (some e) → s.index.get? (sid e) = some (n : Int)

theorem fm_some (e : α) (B : List (Option α)) : (some e :: B).filterMap id = e :: B.filterMap id := rfl
theorem fm_none (B : List (Option α)) : (none :: B).filterMap id = B.filterMap id := rfl

/-- positions of occupied slots -/
def occ : List (Option α) → Nat → List Nat
  | [], _ => []
  | none :: t, k => occ t (k+1)
  | some _ :: t, k => k :: occ t (k+1)

theorem mem_occ (l : List (Option α)) (k n : Nat) :
    n ∈ occ l k ↔ k ≤ n ∧ ∃ e, l[n-k]? = some (some e) := by
  induction l generalizing k with
  | nil => simp [occ]
  | cons a t ih =>
    cases a with
    | none =>
      simp only [occ, ih]
      constructor
      · rintro ⟨h, e, he⟩
        refine ⟨by omega, e, ?_⟩
        rw [show n - k = (n - (k+1)) + 1 by omega]; simpa using he
      · rintro ⟨h, e, he⟩
        rcases Nat.eq_or_lt_of_le h with h' | h'
        · subst h'; simp at he
        · refine ⟨by omega, e, ?_⟩
          rw [show n - k = (n - (k+1)) + 1 by omega] at he; simpa using he
    | some a =>
      simp only [occ, List.mem_cons, ih]
      constructor
      · rintro (rfl | ⟨h, e, he⟩)
        · simp
        · refine ⟨by omega, e, ?_⟩
          rw [show n - k = (n - (k+1)) + 1 by omega]; simpa using he
      · rintro ⟨h, e, he⟩
        rcases Nat.eq_or_lt_of_le h with h' | h'
        · left; exact h'.symm
        · right
          refine ⟨by omega, e, ?_⟩
          rw [show n - k = (n - (k+1)) + 1 by omega] at he; simpa using he

theorem occ_sorted (l : List (Option α)) (k : Nat) : (occ l k).Pairwise (· < ·) := by
  induction l generalizing k with
  | nil => simp [occ]
  | cons a t ih =>
    cases a with
    | none => exact ih _
    | some a =>
      simp only [occ, List.pairwise_cons]
      refine ⟨fun n hn => ?_, ih _⟩
      have := (mem_occ t (k+1) n).1 hn
      omega

theorem occ_append (A B : List (Option α)) (k : Nat) :
    occ (A ++ B) k = occ A k ++ occ B (k + A.length) := by
  induction A generalizing k with
  | nil => simp [occ]
  | cons a t ih =>
    cases a <;> simp [occ, ih, Nat.add_assoc, Nat.add_comm 1]

theorem occ_length (A : List (Option α)) (k : Nat) : (occ A k).length = (A.filterMap id).length := by
  induction A generalizing k with
  | nil => simp [occ]
  | cons a t ih => cases a <;> simp [occ, ih]

theorem occ_map_get (l pre : List (Option α)) :
    (occ l pre.length).map (fun n => (pre ++ l)[n]?) = (l.filterMap id).map (fun e => some (some e)) := by
  induction l generalizing pre with
  | nil => simp [occ]
  | cons a t ih =>
    have := ih (pre ++ [a])
    simp only [List.length_append, List.length_singleton, List.append_assoc, List.singleton_append] at this
    cases a with
    | none => simpa [occ] using this
    | some a => simp [occ, this]

theorem split_at {l : List (Option α)} {n : Nat} {x : Option α} (h : l[n]? = some x) :
    ∃ A B, l = A ++ x :: B ∧ A.length = n := by
  induction l generalizing n with
  | nil => simp at h
  | cons a t ih =>
    cases n with
    | zero => simp at h; subst h; exact ⟨[], t, rfl, rfl⟩
    | succ n =>
      simp at h
      obtain ⟨A, B, rfl, rfl⟩ := ih h
      exact ⟨a :: A, B, rfl, rfl⟩

variable {sid}

theorem Inv.vals_nodup {s : State α ι} (h : Inv sid s) : (s.index.map Prod.snd).Nodup := by
  have hw := h.wf
  unfold Dict.WF at hw
  have hinj : ∀ p ∈ s.index, ∀ q ∈ s.index, p.2 = q.2 → p.1 = q.1 := by
    rintro ⟨a, i⟩ hp ⟨b, j⟩ hq e
    simp only at e; subst e
    obtain ⟨n, e1, h1, h2, h3⟩ := h.sound a i (Dict.get?_of_mem h.wf hp)
    obtain ⟨m, e2, h4, h5, h6⟩ := h.sound b i (Dict.get?_of_mem h.wf hq)
    have : n = m := by omega
    subst this
    rw [h2] at h5; simp only [Option.some.injEq] at h5; subst h5
    exact h3.symm.trans h6
  rw [List.Nodup, List.pairwise_map] at hw ⊢
  exact hw.imp_of_mem fun ha hb hne e => hne (hinj _ ha _ hb e)

theorem mem_vals {s : State α ι} (h : Inv sid s) (i : Int) :
    i ∈ s.index.map Prod.snd ↔ i ∈ (occ s.elems 0).map Int.ofNat := by
  simp only [List.mem_map, mem_occ]
  constructor
  · rintro ⟨⟨k, i⟩, hm, rfl⟩
    obtain ⟨n, e, h1, h2, h3⟩ := h.sound k i (Dict.get?_of_mem h.wf hm)
    exact ⟨n, ⟨by omega, e, by simpa using h2⟩, by simp [h1]⟩
  · rintro ⟨n, ⟨_, e, he⟩, rfl⟩
    exact ⟨(sid e, (n : Int)), Dict.mem_of_get? (h.complete n e (by simpa using he)), rfl⟩

theorem insertInt_perm (a : Int) (l : List Int) : (insertInt a l).Perm (a :: l) := by
  induction l with
  | nil => exact List.Perm.refl _
  | cons b l ih =>
    unfold insertInt
    split
    · exact List.Perm.refl _
    · exact (ih.cons b).trans (List.Perm.swap a b l)

theorem sortInts_perm (l : List Int) : (sortInts l).Perm l := by
  induction l with
  | nil => exact List.Perm.refl _
  | cons a l ih => exact (insertInt_perm a _).trans (ih.cons a)

theorem insertInt_sorted (a : Int) (l : List Int) (h : l.Pairwise (fun a b : Int => a ≤ b)) :
    (insertInt a l).Pairwise (fun a b : Int => a ≤ b) := by
  induction l with
  | nil => simp [insertInt]
  | cons b l ih =>
    have hb := List.pairwise_cons.1 h
    unfold insertInt
    split
    · refine List.pairwise_cons.2 ⟨?_, h⟩
      intro x hx
      rcases List.mem_cons.1 hx with rfl | hx
      · assumption
      · have := hb.1 x hx; omega
    · refine List.pairwise_cons.2 ⟨?_, ih hb.2⟩
      intro x hx
      rcases List.mem_cons.1 ((insertInt_perm a l).mem_iff.1 hx) with rfl | hx
      · omega
      · exact hb.1 x hx

theorem sortInts_sorted (l : List Int) : (sortInts l).Pairwise (fun a b : Int => a ≤ b) := by
  induction l with
  | nil => exact List.Pairwise.nil
  | cons a l ih => exact insertInt_sorted a _ ih

theorem sortedVals_eq {s : State α ι} (h : Inv sid s) :
    sortedVals s = (occ s.elems 0).map Int.ofNat := by
  have hs : (sortedVals s).Pairwise (fun a b : Int => a ≤ b) := by
    unfold sortedVals
    exact sortInts_sorted _
  have hp : (sortedVals s).Perm ((occ s.elems 0).map Int.ofNat) := by
    refine (sortInts_perm _).trans ?_
    rw [List.perm_ext_iff_of_nodup h.vals_nodup]
    · exact fun i => mem_vals h i
    · rw [List.Nodup, List.pairwise_map]
      exact (occ_sorted s.elems 0).imp fun {a b} hab e => by
        have : a = b := Int.ofNat_inj.1 e
        omega
  refine List.Perm.eq_of_pairwise' (r := fun a b : Int => a ≤ b) ?_ ?_ hp
  · exact hs
  · rw [List.pairwise_map]
    exact (occ_sorted s.elems 0).imp fun {a b} hab => by
      show (Int.ofNat a) ≤ Int.ofNat b
      simp; omega

theorem pyGet_nat {β} (l : List β) (n : Nat) : pyGet l (n : Int) = l[n]? := by
  unfold pyGet pyIdx
  by_cases h : n < l.length
  · simp [h]
  · simp [h]

theorem slot_nat (s : State α ι) (n : Nat) :
    slot s (n : Int) = match s.elems[n]? with | some o => .ok o | none => .error .indexError := by
  unfold slot; rw [pyGet_nat]; rfl

theorem iter_eq {s : State α ι} (h : Inv sid s) :
    iter s = (abs s).map (fun e => .ok (some e)) := by
  unfold iter
  rw [sortedVals_eq h, List.map_map]
  have := occ_map_get s.elems []
  simp only [List.nil_append, List.length_nil] at this
  have e : (slot s ∘ Int.ofNat) = (fun o : Option (Option α) => match o with | some o => .ok o | none => .error .indexError) ∘ (fun n : Nat => s.elems[n]?) := by
    funext n; exact slot_nat s n
  rw [e, ← List.map_map, this]
  simp [abs]

theorem vals_length {s : State α ι} (h : Inv sid s) : (sortedVals s).length = (abs s).length := by
  rw [sortedVals_eq h]; simp [occ_length, abs]

theorem len_eq {s : State α ι} (h : Inv sid s) : len s = (abs s).length := by
  rw [← vals_length h]; simp [len, sortedVals, (sortInts_perm _).length_eq]

theorem getPos_eq {s : State α ι} (h : Inv sid s) (i : Int) :
    getPos s i = match pyGet (abs s) i with | some e => .ok (some e) | none => .error .indexError := by
  unfold getPos pyGet
  rw [vals_length h]
  cases hp : pyIdx (abs s).length i with
  | none => simp
  | some n =>
    simp only [Option.bind_some]
    have h2 := congrArg (·[n]?) (iter_eq h)
    simp only [iter, List.getElem?_map] at h2
    cases hv : (sortedVals s)[n]? with
    | none =>
      rw [hv] at h2
      cases ha : (abs s)[n]? with
      | none => simp
      | some e => rw [ha] at h2; simp at h2
    | some idx =>
      rw [hv] at h2
      cases ha : (abs s)[n]? with
      | none => rw [ha] at h2; simp at h2
      | some e => rw [ha] at h2; simp at h2; simp [h2]

theorem mem_abs {s : State α ι} (e : α) : e ∈ abs s ↔ ∃ n : Nat, s.elems[n]? = some (some e) := by
  unfold abs
  rw [List.mem_filterMap]
  constructor
  · rintro ⟨x, hx, he⟩
    simp at he; subst he
    obtain ⟨n, hn⟩ := List.mem_iff_getElem?.1 hx
    exact ⟨n, hn⟩
  · rintro ⟨n, hn⟩
    exact ⟨some e, List.mem_iff_getElem?.2 ⟨n, hn⟩, rfl⟩

theorem distinct {s : State α ι} (h : Inv sid s) : Spec.Distinct sid (abs s) := by
  unfold Spec.Distinct abs
  have : ∀ (B A : List (Option α)), (∀ (n : Nat) (e : α), B[n]? = some (some e) → s.index.get? (sid e) = some ((A.length + n : Nat) : Int)) →
      ((B.filterMap id).map sid).Nodup := by
    intro B
    induction B with
    | nil => simp
    | cons b t ih =>
      intro A hA
      have ih' := ih (A ++ [b]) (by
        intro n e he
        have := hA (n+1) e (by simpa using he)
        rw [this]; simp; omega)
      cases b with
      | none => simpa using ih'
      | some b =>
        rw [fm_some, List.map_cons, List.nodup_cons]
        refine ⟨?_, ih'⟩
        intro hm
        obtain ⟨e, he, hs⟩ := List.mem_map.1 hm
        obtain ⟨x, hx, hxe⟩ := List.mem_filterMap.1 he
        simp at hxe; subst hxe
        obtain ⟨n, hn⟩ := List.mem_iff_getElem?.1 hx
        have h1 := hA (n+1) e (by simpa using hn)
        have h2 := hA 0 b (by simp)
        rw [hs] at h1; rw [h1] at h2
        simp at h2; omega
  exact this s.elems [] (by intro n e he; simpa using h.complete n e he)

theorem find_some_iff (l : List α) (hd : Spec.Distinct sid l) (k : ι) (e : α) :
    Spec.find sid l k = some e ↔ e ∈ l ∧ sid e = k := by
  unfold Spec.find
  constructor
  · intro h
    exact ⟨List.mem_of_find?_eq_some h, by simpa using List.find?_some h⟩
  · rintro ⟨hm, hs⟩
    induction l with
    | nil => simp at hm
    | cons a t ih =>
      simp only [Spec.Distinct, List.map_cons, List.nodup_cons] at hd
      rw [List.find?_cons]
      by_cases ha : sid a = k
      · rcases List.mem_cons.1 hm with rfl | hm
        · simp [ha]
        · exact absurd (List.mem_map.2 ⟨e, hm, hs.trans ha.symm⟩) hd.1
      · rcases List.mem_cons.1 hm with rfl | hm
        · exact absurd hs ha
        · simp only [ha, decide_false]; exact ih hd.2 hm

theorem find_none_iff (l : List α) (k : ι) :
    Spec.find sid l k = none ↔ ∀ e ∈ l, sid e ≠ k := by
  unfold Spec.find; simp

/-- index lookup finds the abstract object and its slot -/
theorem get?_eq {s : State α ι} (h : Inv sid s) (k : ι) :
    (s.index.get? k = none ∧ Spec.find sid (abs s) k = none) ∨
    (∃ A B e, s.elems = A ++ some e :: B ∧ sid e = k ∧ s.index.get? k = some (A.length : Int) ∧
      Spec.find sid (abs s) k = some e) := by
  cases hg : s.index.get? k with
  | none =>
    left
    refine ⟨rfl, (find_none_iff _ _).2 fun e he hs => ?_⟩
    obtain ⟨n, hn⟩ := (mem_abs e).1 he
    have := h.complete n e hn
    rw [hs, hg] at this; simp at this
  | some i =>
    right
    obtain ⟨n, e, h1, h2, h3⟩ := h.sound k i hg
    obtain ⟨A, B, hAB, hl⟩ := split_at h2
    exact ⟨A, B, e, hAB, h3, by simp [h1, hl],
      (find_some_iff _ (distinct h) _ _).2 ⟨(mem_abs e).2 ⟨n, h2⟩, h3⟩⟩

theorem has_eq {s : State α ι} (h : Inv sid s) (k : ι) :
    s.index.has k = (Spec.find sid (abs s) k).isSome := by
  unfold Dict.has
  rcases get?_eq h k with ⟨h1, h2⟩ | ⟨A, B, e, _, _, h1, h2⟩ <;> simp [h1, h2]

theorem indexOf_eq {s : State α ι} (h : Inv sid s) (k : ι) :
    indexOf s k = match (abs s).findIdx? (fun e => sid e = k) with
      | some j => .ok j | none => .error .valueError := by
  unfold indexOf
  rcases get?_eq h k with ⟨h1, h2⟩ | ⟨A, B, e, hel, hs, h1, h2⟩
  · rw [h1]
    have : (abs s).findIdx? (fun e => decide (sid e = k)) = none := by
      rw [List.findIdx?_eq_none_iff]
      simpa using (find_none_iff _ _).1 h2
    simp [this]
  · have h3 : (sortedVals s).idxOf (A.length : Int) = (A.filterMap id).length := by
      rw [sortedVals_eq h, hel, occ_append, List.map_append]
      have : (A.length : Int) ∉ (occ A 0).map Int.ofNat := by
        simp only [List.mem_map, not_exists, not_and, mem_occ]
        rintro n ⟨_, e', he'⟩ hn
        have : n = A.length := by exact Int.ofNat_inj.1 hn
        subst this; simp at he'
      rw [List.idxOf_append_of_notMem this]
      simp [occ, occ_length]
    have h4 : (abs s).findIdx? (fun e => decide (sid e = k)) = some (A.filterMap id).length := by
      have hd := distinct h
      unfold abs at *
      rw [hel] at hd ⊢
      rw [List.filterMap_append, fm_some] at hd ⊢
      rw [List.findIdx?_append]
      have : (A.filterMap id).findIdx? (fun e => decide (sid e = k)) = none := by
        rw [List.findIdx?_eq_none_iff]
        intro x hx
        simp only [Spec.Distinct, List.map_append, List.map_cons] at hd
        rw [List.nodup_append] at hd
        have := hd.2.2 (sid x) (List.mem_map_of_mem hx) (sid e) (by simp)
        simpa [hs] using this
      rw [this]; simp [List.findIdx?_cons, hs]
    simp only [h1, h3, h4]

/-! ### operations preserve the invariant and commute with `abs` -/

theorem add1_sim {s : State α ι} (h : Inv sid s) (e : α) :
    Inv sid (add1 sid s e).1 ∧ abs (add1 sid s e).1 = (Spec.add sid (abs s) e).1 := by
  unfold add1 Spec.add
  rw [has_eq h]
  split
  · exact ⟨h, rfl⟩
  · rename_i hf
    have hg : s.index.get? (sid e) = none := by
      rcases get?_eq h (sid e) with ⟨h1, _⟩ | ⟨A, B, e', _, _, _, h2⟩
      · exact h1
      · simp [h2] at hf
    refine ⟨⟨h.wf.set _ _, ?_, ?_⟩, by simp [abs]⟩
    · intro k i hk
      simp only [Dict.get?_set] at hk
      split at hk
      · rename_i he; subst he
        injection hk with hk
        exact ⟨s.elems.length, e, hk.symm, by simp, rfl⟩
      · obtain ⟨n, e', h1, h2, h3⟩ := h.sound k i hk
        refine ⟨n, e', h1, ?_, h3⟩
        have : n < s.elems.length := by
          rcases Nat.lt_or_ge n s.elems.length with h | h
          · exact h
          · simp [List.getElem?_eq_none h] at h2
        simp only
        rw [List.getElem?_append_left this]; exact h2
    · intro n e' he'
      simp only [Dict.get?_set]
      simp only at he'
      rcases Nat.lt_or_ge n s.elems.length with hn | hn
      · rw [List.getElem?_append_left hn] at he'
        have := h.complete n e' he'
        split
        · rename_i hs; rw [← hs, hg] at this; simp at this
        · exact this
      · rw [List.getElem?_append_right hn] at he'
        have : n = s.elems.length := by
          by_contra hne
          have : 0 < n - s.elems.length := by omega
          rw [List.getElem?_eq_none (by simp; omega)] at he'
          simp at he'
        subst this
        simp at he'; subst he'; simp

theorem removeKey_sim {s : State α ι} (h : Inv sid s) (A B : List (Option α)) (e : α)
    (hel : s.elems = A ++ some e :: B) :
    removeKey s (sid e) = ({ elems := A ++ none :: B, index := s.index.del (sid e) }, none, [.remove e]) ∧
    Inv sid (removeKey s (sid e)).1 := by
  have hg : s.index.get? (sid e) = some (A.length : Int) := h.complete A.length e (by simp [hel])
  have h1 : removeKey s (sid e) = ({ elems := A ++ none :: B, index := s.index.del (sid e) }, none, [.remove e]) := by
    unfold removeKey
    rw [hg]
    have : pyIdx s.elems.length (A.length : Int) = some A.length := by
      unfold pyIdx; simp [hel]; omega
    simp only [this]
    simp [hel]
  refine ⟨h1, ?_⟩
  rw [h1]
  refine ⟨h.wf.del _, ?_, ?_⟩
  · intro k i hk
    simp only [Dict.get?_del] at hk
    split at hk
    · simp at hk
    · rename_i hne
      obtain ⟨n, e', h2, h3, h4⟩ := h.sound k i hk
      refine ⟨n, e', h2, ?_, h4⟩
      rw [hel] at h3
      have hn : n ≠ A.length := by
        intro hn; subst hn; simp at h3; subst h3; exact hne h4
      simp only
      rcases Nat.lt_or_ge n A.length with hlt | hge
      · rw [List.getElem?_append_left hlt] at h3 ⊢; exact h3
      · rw [List.getElem?_append_right hge] at h3 ⊢
        rw [show n - A.length = (n - A.length - 1) + 1 by omega] at h3 ⊢
        simpa using h3
  · intro n e' he'
    simp only at he'
    have hn : n ≠ A.length := by
      intro hn; subst hn; simp at he'
    have h3 : s.elems[n]? = some (some e') := by
      rw [hel]
      rcases Nat.lt_or_ge n A.length with hlt | hge
      · rw [List.getElem?_append_left hlt] at he' ⊢; exact he'
      · rw [List.getElem?_append_right hge] at he' ⊢
        rw [show n - A.length = (n - A.length - 1) + 1 by omega] at he' ⊢
        simpa using he'
    have h4 := h.complete n e' h3
    simp only [Dict.get?_del]
    split
    · rename_i hs
      rw [← hs, hg] at h4
      simp at h4; omega
    · exact h4

theorem replaceAt_sim {s : State α ι} (h : Inv sid s) (A B : List (Option α)) (o e : α)
    (hel : s.elems = A ++ some o :: B)
    (hfresh : sid e = sid o ∨ s.index.get? (sid e) = none) :
    replaceAt sid s (sid o) A.length (A.length : Int) e =
      ({ elems := A ++ some e :: B, index := (s.index.del (sid o)).set (sid e) (A.length : Int) }, none, [.replace e]) ∧
    Inv sid (replaceAt sid s (sid o) A.length (A.length : Int) e).1 := by
  have hg : s.index.get? (sid o) = some (A.length : Int) := h.complete A.length o (by simp [hel])
  have h1 : replaceAt sid s (sid o) A.length (A.length : Int) e =
      ({ elems := A ++ some e :: B, index := (s.index.del (sid o)).set (sid e) (A.length : Int) }, none, [.replace e]) := by
    unfold replaceAt
    simp [Dict.has, hg, hel]
  refine ⟨h1, ?_⟩
  rw [h1]
  have other : ∀ n, n ≠ A.length → (A ++ some e :: B)[n]? = s.elems[n]? := by
    intro n hn
    rw [hel]
    rcases Nat.lt_or_ge n A.length with hlt | hge
    · rw [List.getElem?_append_left hlt, List.getElem?_append_left hlt]
    · rw [List.getElem?_append_right hge, List.getElem?_append_right hge]
      rw [show n - A.length = (n - A.length - 1) + 1 by omega]
      simp
  refine ⟨(h.wf.del _).set _ _, ?_, ?_⟩
  · intro k i hk
    simp only [Dict.get?_set, Dict.get?_del] at hk
    split at hk
    · rename_i hs; subst hs
      injection hk with hk
      exact ⟨A.length, e, hk.symm, by simp, rfl⟩
    · split at hk
      · simp at hk
      · rename_i hne1 hne2
        obtain ⟨n, e', h2, h3, h4⟩ := h.sound k i hk
        have hn : n ≠ A.length := by
          intro hn; subst hn; rw [hel] at h3; simp at h3; subst h3; exact hne2 h4
        exact ⟨n, e', h2, by simp only [other n hn]; exact h3, h4⟩
  · intro n e' he'
    simp only at he'
    simp only [Dict.get?_set, Dict.get?_del]
    by_cases hn : n = A.length
    · subst hn; simp at he'; subst he'; simp
    · rw [other n hn] at he'
      have h4 := h.complete n e' he'
      have hne2 : ¬ sid o = sid e' := by
        intro hs; rw [← hs, hg] at h4; simp at h4; omega
      have hne1 : ¬ sid e = sid e' := by
        intro hs
        rcases hfresh with hf | hf
        · exact hne2 (hf ▸ hs)
        · rw [← hs, hf] at h4; simp at h4
      simp [hne1, hne2, h4]

theorem set_idx_fold (es : List α) (hd : Spec.Distinct sid es) (d : Dict ι Int) (off : Nat) (k : ι) :
    ((es.zipIdx off).foldl (fun d p => d.set (sid p.1) (p.2 : Int)) d).get? k =
      match es.findIdx? (fun e => sid e = k) with
      | some j => some ((off + j : Nat) : Int)
      | none => d.get? k := by
  induction es generalizing d off with
  | nil => simp
  | cons a t ih =>
    simp only [Spec.Distinct, List.map_cons, List.nodup_cons] at hd
    rw [List.zipIdx_cons, List.foldl_cons, ih hd.2, List.findIdx?_cons]
    by_cases ha : sid a = k
    · have : t.findIdx? (fun e => decide (sid e = k)) = none := by
        rw [List.findIdx?_eq_none_iff]
        intro x hx
        simp only [decide_eq_false_iff_not]
        intro hx'
        exact hd.1 (List.mem_map.2 ⟨x, hx, hx'.trans ha.symm⟩)
      simp [this, ha, Dict.get?_set]
    · cases hf : t.findIdx? (fun e => decide (sid e = k)) with
      | none => simp [ha, Dict.get?_set]
      | some j => simp [ha]; omega

theorem fold_wf (es : List (α × Nat)) (d : Dict ι Int) (h : d.WF) :
    (es.foldl (fun d p => d.set (sid p.1) (p.2 : Int)) d).WF := by
  induction es generalizing d with
  | nil => exact h
  | cons a t ih => exact ih _ (h.set _ _)

theorem inv_of_compact (es : List α) (hd : Spec.Distinct sid es) (d : Dict ι Int) (hw : d.WF)
    (hk : ∀ k, d.get? k ≠ none → ∃ e ∈ es, sid e = k) :
    Inv sid { elems := es.map some, index := (es.zipIdx).foldl (fun d p => d.set (sid p.1) (p.2 : Int)) d } := by
  refine ⟨fold_wf _ _ hw, ?_, ?_⟩
  · intro k i hki
    simp only [set_idx_fold es hd] at hki
    cases hf : es.findIdx? (fun e => decide (sid e = k)) with
    | none =>
      rw [hf] at hki
      simp only at hki
      obtain ⟨e, he, hs⟩ := hk k (by rw [hki]; simp)
      rw [List.findIdx?_eq_none_iff] at hf
      simpa [hs] using hf e he
    | some j =>
      rw [hf] at hki
      simp at hki
      rw [List.findIdx?_eq_some_iff_getElem] at hf
      obtain ⟨hj, h1, _⟩ := hf
      exact ⟨j, es[j], hki.symm, by simp [hj], by simpa using h1⟩
  · intro n e he
    simp only [set_idx_fold es hd]
    simp at he
    have : es.findIdx? (fun x => decide (sid x = sid e)) = some n := by
      rw [List.findIdx?_eq_some_iff_getElem]
      have hn : n < es.length := by
        rcases Nat.lt_or_ge n es.length with h | h
        · exact h
        · simp [List.getElem?_eq_none h] at he
      rw [List.getElem?_eq_getElem hn] at he
      simp at he
      refine ⟨hn, by simp [he], ?_⟩
      intro j hj
      simp only [decide_eq_true_eq]
      intro hs
      unfold Spec.Distinct at hd
      have := (List.nodup_iff_injective_get.1 hd)
      have h2 := @this ⟨j, by simp; omega⟩ ⟨n, by simp; omega⟩ (by simp [hs, he])
      simp at h2; omega
    rw [this]; simp

theorem remake_sim {s : State α ι} (h : Inv sid s) :
    Inv sid (remake sid s) ∧ abs (remake sid s) = abs s := by
  unfold remake
  split
  · refine ⟨inv_of_compact _ (distinct h) _ h.wf ?_, by simp [abs]⟩
    intro k hk
    rcases get?_eq h k with ⟨h1, _⟩ | ⟨A, B, e, hel, hs, _, _⟩
    · exact absurd h1 hk
    · exact ⟨e, (mem_abs e).2 ⟨A.length, by simp [hel]⟩, hs⟩
  · exact ⟨h, rfl⟩

theorem init_inv (es : List α) (hd : Spec.Distinct sid es) :
    Inv sid (init sid es) ∧ abs (init sid es) = es := by
  refine ⟨inv_of_compact es hd [] Dict.WF.nil (by simp), ?_⟩
  simp [abs, init]

end
end Verif.OC
