import Verif.OC.QuashModel
import Verif.OC.Props
/-!
# C206: environment objects are put in the place of those of their class
-/
namespace Verif.OC
open Verif.Py

section
variable {α ι κ : Type} [DecidableEq ι] [DecidableEq κ] (sid : α → ι) (inst : α → Bool) (cls : α → κ)

/-! ## Specification -/

/-- put `e` in the place of the first object of its class, or at the end -/
def putOne (l : List α) (e : α) : List α :=
  match l with
  | [] => [e]
  | o :: l => if cls o = cls e then e :: l else o :: putOne l e

/-- put objects one after the other -/
def putAll (l : List α) (es : List α) : List α := es.foldl (putOne cls) l

/-- **C206 in full**: from every collection that can be reached, objects that are new to it are put in the place of those of their class. -/
def C206_claim : Prop :=
  ∀ (s : State α ι), Inv sid s → ∀ es, Spec.Distinct sid (abs s ++ es) → (∀ e ∈ es, inst e = true) →
    (addEnv sid inst cls true s es).2 = none ∧ Shows sid (addEnv sid inst cls true s es).1 (putAll cls (abs s) es)

/-! ## Lemmas -/

variable {sid inst cls}

theorem firstOfClass_map (k : κ) (l : List α) :
    firstOfClass cls k (l.map (fun e => .ok (some e))) = l.find? (fun o => decide (cls o = k)) := by
  induction l with
  | nil => rfl
  | cons o l ih =>
    rw [List.map_cons, firstOfClass, List.find?_cons]
    by_cases h : cls o = k <;> simp [h, ih]

theorem putOne_none (l : List α) (e : α) (h : ∀ o ∈ l, cls o ≠ cls e) : putOne cls l e = l ++ [e] := by
  induction l with
  | nil => rfl
  | cons o l ih =>
    rw [putOne, if_neg (h o (by simp)), ih fun x hx => h x (by simp [hx])]; rfl

theorem putOne_some (A B : List α) (o e : α) (hA : ∀ x ∈ A, cls x ≠ cls e) (ho : cls o = cls e) :
    putOne cls (A ++ o :: B) e = A ++ e :: B := by
  induction A with
  | nil => simp [putOne, ho]
  | cons x A ih =>
    rw [List.cons_append, putOne, if_neg (hA x (by simp)), ih fun y hy => hA y (by simp [hy])]; rfl

/-- a collection without holes -/
structure Full (s : State α ι) : Prop where
  inv : Inv sid s
  full : ∀ o ∈ s.elems, o ≠ none

theorem quash1_sim {s : State α ι} (h : Full (sid := sid) s) (e : α) (hi : inst e = true) (hnew : ∀ x ∈ abs s, sid x ≠ sid e) :
    Full (sid := sid) (quash1 sid inst cls s e).1 ∧ (quash1 sid inst cls s e).2 = none ∧
      abs (quash1 sid inst cls s e).1 = putOne cls (abs s) e := by
  have hf : firstOfClass cls (cls e) (iter s) = (abs s).find? (fun o => decide (cls o = cls e)) := by
    rw [iter_eq h.inv, firstOfClass_map]
  have hidx : s.index.get? (sid e) = none := by
    rcases get?_eq h.inv (sid e) with ⟨h1, -⟩ | ⟨A, B, x, hel, hs, -, -⟩
    · exact h1
    · exfalso
      refine hnew x ?_ hs
      unfold abs
      rw [hel, List.filterMap_append, fm_some]
      simp
  have hel : s.elems = (abs s).map some := by
    have hno := h.full
    unfold abs
    generalize s.elems = l at hno
    induction l with
    | nil => rfl
    | cons a t ih =>
      cases a with
      | none => exact absurd rfl (hno none (by simp))
      | some a => rw [fm_some, List.map_cons, ← ih (fun o ho => hno o (List.mem_cons_of_mem _ ho))]
  unfold quash1
  rw [hf]
  cases hc : (abs s).find? (fun o => decide (cls o = cls e)) with
  | none =>
    simp only [step, hi, if_true]
    have hn : ∀ o ∈ abs s, cls o ≠ cls e := by
      intro o ho he
      have := List.find?_eq_none.mp hc o ho
      simp [he] at this
    obtain ⟨h1, h2⟩ := add1_sim h.inv e
    have hfind : Spec.find sid (abs s) (sid e) = none := (find_none_iff _ _).mpr hnew
    have habs : abs (add1 sid s e).1 = putOne cls (abs s) e := by
      rw [putOne_none _ _ hn, h2]
      simp [Spec.add, hfind]
    refine ⟨⟨h1, ?_⟩, trivial, habs⟩
    unfold add1
    have : s.index.has (sid e) = false := by
      rw [has_eq h.inv, hfind]; rfl
    rw [this]
    intro o ho
    simp only [Bool.false_eq_true, if_false, List.mem_append, List.mem_singleton] at ho
    rcases ho with ho | rfl
    · exact h.full o ho
    · simp
  | some o =>
    simp only
    obtain ⟨ho, A, B, hAB, hA⟩ := List.find?_eq_some_iff_append.mp hc
    have ho' : cls o = cls e := by simpa using ho
    have hA' : ∀ x ∈ A, cls x ≠ cls e := by
      intro x hx; simpa using hA x hx
    have hdist := distinct h.inv
    have hix : indexOf s (sid o) = .ok A.length := by
      rw [indexOf_eq h.inv, hAB]
      have : (A ++ o :: B).findIdx? (fun x => decide (sid x = sid o)) = some A.length := by
        rw [List.findIdx?_append]
        have hnone : A.findIdx? (fun x => decide (sid x = sid o)) = none := by
          rw [List.findIdx?_eq_none_iff]
          intro x hx
          rw [hAB] at hdist
          simp only [Spec.Distinct, List.map_append, List.map_cons] at hdist
          rw [List.nodup_append] at hdist
          have := hdist.2.2 (sid x) (List.mem_map_of_mem hx) (sid o) (by simp)
          simpa using this
        rw [hnone]; simp [List.findIdx?_cons]
      simp [this]
    rw [hix]
    simp only
    have hlen : s.elems.length = (abs s).length := by rw [hel]; simp [abs]
    have hel' : s.elems = A.map some ++ some o :: B.map some := by
      rw [hel, hAB, List.map_append, List.map_cons]
    have hpy : pyIdx s.elems.length (A.length : Int) = some A.length := by
      unfold pyIdx
      have : A.length < s.elems.length := by rw [hel']; simp
      simp; omega
    have h3 := replaceAt_sim h.inv (A.map some) (B.map some) o e hel' (.inr hidx)
    have hAl : (A.map some).length = A.length := by simp
    rw [hAl] at h3
    have hr : replacePos sid inst s (A.length : Int) e = replaceAt sid s (sid o) A.length A.length e := by
      unfold replacePos
      simp only [hi, if_true, hpy]
      have : s.elems[A.length]? = some (some o) := by rw [hel', ← hAl]; simp
      simp only [this]
    rw [hr]
    refine ⟨⟨h3.2, ?_⟩, by rw [h3.1], ?_⟩
    · intro x hx
      rw [h3.1] at hx
      simp only [List.mem_append, List.mem_map, List.mem_cons] at hx
      rcases hx with ⟨y, -, rfl⟩ | rfl | ⟨y, -, rfl⟩ <;> simp
    · rw [hAB, putOne_some A B o e hA' ho', h3.1]
      simp [abs]

theorem mem_putOne (l : List α) (e x : α) (h : x ∈ putOne cls l e) : x ∈ l ∨ x = e := by
  induction l with
  | nil => simp [putOne] at h; exact .inr h
  | cons o l ih =>
    rw [putOne] at h
    split_ifs at h
    · rcases List.mem_cons.mp h with rfl | h
      · exact .inr rfl
      · exact .inl (List.mem_cons_of_mem _ h)
    · rcases List.mem_cons.mp h with rfl | h
      · simp
      · rcases ih h with h | h
        · exact .inl (List.mem_cons_of_mem _ h)
        · exact .inr h

/-! ## C206 -/

/-- **C206 (partial)**: in a collection from which nothing has been removed since it was built or remade, objects that are new to it are put in the place of
the first object of their class, one after the other, at the end if there is none; no exception.
Missing for the full claim: collections with holes (`C206_counterexample`). -/
theorem C206_partial {s : State α ι} (h : Inv sid s) (hno : ∀ o ∈ s.elems, o ≠ none) (es : List α)
    (hd : ∀ e ∈ es, ∀ x ∈ abs s, sid x ≠ sid e) (hd' : Spec.Distinct sid es) (hi : ∀ e ∈ es, inst e = true) :
    (addEnv sid inst cls true s es).2 = none ∧ Shows sid (addEnv sid inst cls true s es).1 (putAll cls (abs s) es) := by
  suffices H : ∀ es s, Full (sid := sid) s → (∀ e ∈ es, ∀ x ∈ abs s, sid x ≠ sid e) → Spec.Distinct sid es → (∀ e ∈ es, inst e = true) →
      (addEnv sid inst cls true s es).2 = none ∧ Full (sid := sid) (addEnv sid inst cls true s es).1 ∧
        abs (addEnv sid inst cls true s es).1 = putAll cls (abs s) es by
    obtain ⟨h1, h2, h3⟩ := H es s ⟨h, hno⟩ hd hd' hi
    exact ⟨h1, h3 ▸ shows_of_inv sid h2.inv⟩
  intro es
  induction es with
  | nil => intro s hs _ _ _; exact ⟨rfl, hs, rfl⟩
  | cons e es ih =>
    intro s hs hd hd' hi
    obtain ⟨k1, k2, k3⟩ := quash1_sim (cls := cls) hs e (hi e (by simp)) (hd e (by simp))
    have hn : sid e ∉ es.map sid ∧ (es.map sid).Nodup := by
      simpa [Spec.Distinct] using hd'
    have := ih _ k1 (by
      intro x hx y hy
      rw [k3] at hy
      rcases mem_putOne _ _ _ hy with hy | rfl
      · exact hd x (by simp [hx]) y hy
      · intro e'; exact hn.1 (e' ▸ List.mem_map_of_mem hx)) hn.2 (fun x hx => hi x (by simp [hx]))
    simp only [addEnv, if_true, k2]
    rw [k3] at this
    exact this

end

/-- two classes: even and odd; 12 takes the place of 2, 13 that of 1 -/
example : (addEnv (ι := Nat) id (fun _ => true) (fun n : Nat => n % 2) true (init id [1, 2, 3, 4]) [12, 13]).2 = none ∧
    iter (addEnv (ι := Nat) id (fun _ => true) (fun n : Nat => n % 2) true (init id [1, 2, 3, 4]) [12, 13]).1 =
      [.ok (some 13), .ok (some 12), .ok (some 3), .ok (some 4)] ∧
    putAll (fun n : Nat => n % 2) [1, 2, 3, 4] [12, 13] = [13, 12, 3, 4] := by
  decide +kernel

/-- **C206 is false of the code**: the first of three objects of different classes is removed; an object of the class of the third
one then replaces the second one. If the place left by a removed object is hit, KeyError. -/
theorem C206_counterexample :
    let s := (removeId (init (ι := Nat) id [1, 2, 3]) 1).1
    iter s = [.ok (some 2), .ok (some 3)] ∧
    iter (addEnv id (fun _ => true) (fun n : Nat => n % 10) true s [13]).1 = [.ok (some 13), .ok (some 3)] ∧
    (addEnv id (fun _ => true) (fun n : Nat => n % 10) true s [12]).2 = some .keyError ∧
    ¬ C206_claim (id : Nat → Nat) (fun _ => true) (fun n : Nat => n % 10) := by
  refine ⟨by decide +kernel, by decide +kernel, by decide +kernel, fun h => ?_⟩
  have hinv : Inv (id : Nat → Nat) (removeId (init (ι := Nat) id [1, 2, 3]) 1).1 :=
    (run_sim (inst := fun _ => true) [Op.removeId 1] (init_inv [1, 2, 3] (by simp [Spec.Distinct])).1
      (by simp [AllowedRun, Allowed])).1
  have := (h _ hinv [12] (by
    have : abs (removeId (init (ι := Nat) id [1, 2, 3]) 1).1 = [2, 3] := by decide +kernel
    rw [this]; simp [Spec.Distinct]) (by simp)).1
  revert this
  decide +kernel

end Verif.OC
