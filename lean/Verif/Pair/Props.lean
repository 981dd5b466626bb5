import Verif.Pair.Model
/-!
# Property C24: the certain and the uncertain spills correspond
-/
namespace Verif.Pair
open Verif.Py Verif.OC

/-- the spills a user sees -/
abbrev spills (c : Coll) : List Obj := OC.abs c

/-- no removed spill has left a hole in the collection (true as long as nothing has been removed since it was made) -/
def Compact (c : Coll) : Prop := none ∉ c.elems

/-- a replacement that `OrderedCollection` does correctly (C01–C03): by id, or by position in a collection without
holes, and the new spill is not already elsewhere in the collection -/
def GoodRepl (c : Coll) (e : Obj) : Ident → Prop
  | .id k => e.id = k ∨ e.id ∉ (spills c).map Obj.id
  | .pos i => Compact c ∧ 0 ≤ i ∧ e.id ∉ (spills c).map Obj.id

theorem find_none {c : Coll} {k : Uid} (h : k ∉ (spills c).map Obj.id) : OC.Spec.find Obj.id (OC.abs c) k = none := by
  rw [OC.find_none_iff]
  intro e he hk
  exact h (List.mem_map.2 ⟨e, he, hk⟩)

theorem get?_none {c : Coll} (hc : OC.Inv Obj.id c) {k : Uid} (h : k ∉ (spills c).map Obj.id) : c.index.get? k = none := by
  rcases get?_eq hc k with ⟨h1, _⟩ | ⟨_, _, _, _, _, _, h3⟩
  · exact h1
  · rw [find_none h] at h3; simp at h3

theorem compact_elems {c : Coll} (h : Compact c) : c.elems = (spills c).map some := by
  unfold Compact at h
  unfold spills OC.abs
  generalize c.elems = l at *
  induction l with
  | nil => rfl
  | cons a l ih =>
    cases a with
    | none => simp at h
    | some x =>
      rw [fm_some, List.map_cons, ← ih (fun hm => h (List.mem_cons_of_mem _ hm))]

theorem abs_split {c : Coll} {A B : List (Option Obj)} {o : Obj} (h : c.elems = A ++ some o :: B) :
    spills c = A.filterMap id ++ o :: B.filterMap id := by
  unfold spills OC.abs; rw [h, List.filterMap_append, fm_some]

theorem pyIdx_nat {n m : Nat} (h : m < n) : pyIdx n (m : Int) = some m := by
  unfold pyIdx; simp [h]

/-- replacing by a raw position never breaks a collection when the new object is new to it -/
theorem replacePos_inv {c : Coll} (hc : OC.Inv Obj.id c) (m : Nat) (e : Obj) (he : e.id ∉ (spills c).map Obj.id) :
    OC.Inv Obj.id (OC.replacePos Obj.id (fun _ => true) c (m : Int) e).1 ∧
    (∀ x ∈ spills (OC.replacePos Obj.id (fun _ => true) c (m : Int) e).1, x ∈ spills c ∨ x = e) := by
  unfold OC.replacePos
  simp only [if_true]
  by_cases hm : m < c.elems.length
  · rw [pyIdx_nat hm]
    simp only
    cases ho : c.elems[m]? with
    | none => exact ⟨hc, fun x hx => Or.inl hx⟩
    | some o =>
      cases o with
      | none => exact ⟨hc, fun x hx => Or.inl hx⟩
      | some o =>
        obtain ⟨A, B, hel, rfl⟩ := split_at ho
        have h3 := replaceAt_sim hc A B o e hel (Or.inr (get?_none hc he))
        simp only
        refine ⟨h3.2, ?_⟩
        rw [h3.1]
        intro x hx
        rw [abs_split (c := ⟨A ++ some e :: B, _⟩) rfl] at hx
        rw [abs_split hel]
        simp only [List.mem_append, List.mem_cons] at hx ⊢
        tauto
  · have : pyIdx c.elems.length (m : Int) = none := by unfold pyIdx; simp; omega
    rw [this]
    exact ⟨hc, fun x hx => Or.inl hx⟩

theorem repl_spec {c : Coll} (hc : OC.Inv Obj.id c) (e : Obj) (i : Ident) (hg : GoodRepl c e i) :
    ((repl c e i).1 = c ∧ ∃ err, (repl c e i).2.1 = some err) ∨
    (∃ A o B, spills c = A ++ o :: B ∧ OC.Inv Obj.id (repl c e i).1 ∧ spills (repl c e i).1 = A ++ e :: B ∧
      (repl c e i).2.1 = none) := by
  cases i with
  | id k =>
    have hall : OC.Allowed Obj.id (OC.abs c) (.replaceId k e) := hg.imp id find_none
    simp only [repl]
    rcases get?_eq hc k with ⟨h1, _⟩ | ⟨A, B, o, hel, hs, h1, h2⟩
    · left; simp [OC.replaceId, h1]
    · right
      have hs1 := step_sim (inst := fun _ => true) hc (.replaceId k e) hall
      simp only [OC.step, specStep, Spec.replaceId, if_true, h2] at hs1
      refine ⟨_, o, _, abs_split hel, hs1.1, ?_, hs1.2.2.1⟩
      rw [spills, hs1.2.1, ← hs]
      exact map_replace (distinct hc) (abs_split hel)
  | pos i =>
    obtain ⟨hcm, hi, he⟩ := hg
    obtain ⟨m, rfl⟩ := Int.eq_ofNat_of_zero_le hi
    simp only [repl]
    by_cases hm : m < c.elems.length
    · right
      have hm' : m < (spills c).length := by
        have := congrArg List.length (compact_elems hcm); simp at this; simpa [this] using hm
      have ho : c.elems[m]? = some (some (spills c)[m]) := by rw [compact_elems hcm]; simp [hm']
      obtain ⟨A, B, hel, hA⟩ := split_at ho
      have h3 := replaceAt_sim hc A B _ e hel (Or.inr (get?_none hc he))
      have heq : OC.replacePos Obj.id (fun _ => true) c (m : Int) e =
          OC.replaceAt Obj.id c (spills c)[m].id A.length (A.length : Int) e := by
        unfold OC.replacePos
        simp only [if_true]
        rw [pyIdx_nat hm]
        simp only [ho, hA]
      refine ⟨A.filterMap id, (spills c)[m], B.filterMap id, abs_split hel, ?_, ?_, ?_⟩
      · rw [heq]; exact h3.2
      · rw [heq, h3.1]; exact abs_split rfl
      · rw [heq, h3.1]
    · left
      have : pyIdx c.elems.length (m : Int) = none := by unfold pyIdx; simp; omega
      simp [OC.replacePos, this]

theorem indexOf_split {c : Coll} (hc : OC.Inv Obj.id c) {A B : List Obj} {e : Obj} (h : spills c = A ++ e :: B) :
    OC.indexOf c e.id = .ok A.length := by
  rw [indexOf_eq hc]
  have hd := distinct hc
  unfold Spec.Distinct at hd
  change ((spills c).map Obj.id).Nodup at hd
  have : (OC.abs c).findIdx? (fun x => x.id = e.id) = some A.length := by
    change (spills c).findIdx? _ = _
    rw [h] at hd ⊢
    rw [List.findIdx?_eq_some_iff_getElem]
    refine ⟨by simp, by simp, ?_⟩
    intro j hj
    rw [List.map_append, List.map_cons, List.nodup_append] at hd
    have := hd.2.2 A[j].id (List.mem_map_of_mem (List.getElem_mem hj)) e.id (by simp)
    simpa [List.getElem_append_left hj] using this
  rw [this]

theorem getElem?_split {α} {l : List α} {n : Nat} {x : α} (h : l[n]? = some x) : ∃ A B, l = A ++ x :: B ∧ A.length = n := by
  obtain ⟨hn, rfl⟩ := List.getElem?_eq_some_iff.1 h
  exact ⟨l.take n, l.drop (n + 1), by rw [List.getElem_cons_drop, List.take_append_drop], by simp; omega⟩

theorem get_spec {c : Coll} (hc : OC.Inv Obj.id c) {i : Ident} {o : Obj} (h : get c i = .ok (some o)) :
    ∃ A B, spills c = A ++ o :: B ∧ spills (del c i).1 = A ++ B ∧ (del c i).2.1 = none := by
  cases i with
  | id k =>
    simp only [get, OC.getId] at h
    rcases get?_eq hc k with ⟨h1, _⟩ | ⟨A, B, o', hel, hs, h1, h2⟩
    · rw [h1] at h; cases h
    · rw [h1] at h
      simp only [slot_nat, hel] at h
      simp at h
      subst h
      have hs1 := step_sim (inst := fun _ => true) hc (.removeId k) trivial
      simp only [OC.step, specStep, Spec.removeId, h2] at hs1
      refine ⟨_, _, abs_split hel, ?_, hs1.2.2.1⟩
      simp only [del]
      rw [spills, hs1.2.1, ← hs]
      exact erase_filter (distinct hc) (abs_split hel)
  | pos i =>
    simp only [get] at h
    rw [getPos_eq hc] at h
    unfold pyGet at h
    cases hp : pyIdx (OC.abs c).length i with
    | none => rw [hp] at h; cases h
    | some n =>
      rw [hp] at h
      simp only [Option.bind_some] at h
      cases hn : (OC.abs c)[n]? with
      | none => rw [hn] at h; cases h
      | some o' =>
        rw [hn] at h
        cases h
        obtain ⟨A, B, hab, hA⟩ := getElem?_split hn
        have hs1 := step_sim (inst := fun _ => true) hc (.removePos i) trivial
        simp only [OC.step, specStep, Spec.removePos, hp] at hs1
        refine ⟨A, B, hab, ?_, hs1.2.2.1⟩
        simp only [del]
        rw [spills, hs1.2.1, hab, ← hA]
        simp [List.eraseIdx_append_of_length_le]

theorem del_inv {c : Coll} (hc : OC.Inv Obj.id c) (i : Ident) :
    OC.Inv Obj.id (del c i).1 ∧ ∀ x ∈ spills (del c i).1, x ∈ spills c := by
  cases i with
  | id k =>
    have hs1 := step_sim (inst := fun _ => true) hc (.removeId k) trivial
    refine ⟨hs1.1, ?_⟩
    simp only [del]
    intro x hx
    have h2 := hs1.2.1
    simp only [OC.step, specStep, Spec.removeId] at h2
    rw [spills, h2] at hx
    split at hx
    · exact hx
    · exact (List.mem_filter.1 hx).1
  | pos i =>
    have hs1 := step_sim (inst := fun _ => true) hc (.removePos i) trivial
    refine ⟨hs1.1, ?_⟩
    simp only [del]
    intro x hx
    have h2 := hs1.2.1
    simp only [OC.step, specStep, Spec.removePos] at h2
    rw [spills, h2] at hx
    split at hx
    · exact hx
    · exact (List.eraseIdx_sublist _ _).subset hx

theorem objs_eq {c : Coll} (hc : OC.Inv Obj.id c) : objs c = spills c := by
  unfold objs
  rw [iter_eq hc, List.filterMap_map]
  show List.filterMap (fun e => some e) (OC.abs c) = OC.abs c
  exact List.filterMap_some

theorem mem_copies {x : Obj} {n : Nat} {l : List Obj} (h : x ∈ copies n l) : ∃ m, x.id = .made m ∧ n ≤ m ∧ m < n + l.length := by
  induction l generalizing n with
  | nil => simp [copies] at h
  | cons e l ih =>
    rw [copies, List.mem_cons] at h
    rcases h with rfl | h
    · exact ⟨n, rfl, le_refl _, by simp⟩
    · obtain ⟨m, h1, h2, h3⟩ := ih h
      exact ⟨m, h1, by omega, by simp; omega⟩

theorem addMany_copies (l : List Obj) (n : Nat) (l0 : List Obj) (h : ∀ x ∈ l0, ∀ m, n ≤ m → x.id ≠ .made m) :
    (Spec.addMany Obj.id (fun _ => true) l0 (copies n l)).1 = l0 ++ copies n l := by
  induction l generalizing n l0 with
  | nil => simp [copies, Spec.addMany]
  | cons e l ih =>
    have hf : Spec.find Obj.id l0 (copy n e).id = none := by
      rw [find_none_iff]
      intro x hx
      exact h x hx n (le_refl _)
    simp only [copies, Spec.addMany, if_true, Spec.add, hf, Option.isSome_none, Bool.false_eq_true, if_false]
    rw [ih (n + 1)]
    · simp
    · intro x hx m hm
      rcases List.mem_append.1 hx with hx | hx
      · exact h x hx m (by omega)
      · simp only [List.mem_singleton] at hx
        subst hx
        simp [copy]; omega

theorem inv_emptyColl : OC.Inv Obj.id emptyColl := ⟨Dict.WF.nil, by simp [emptyColl], by simp [emptyColl]⟩

theorem uncertainCopy_spec {c : Coll} (hc : OC.Inv Obj.id c) (n : Nat) :
    OC.Inv Obj.id (uncertainCopy n c) ∧ spills (uncertainCopy n c) = copies n (spills c) := by
  unfold uncertainCopy
  have h := addMany_sim (inst := fun _ => true) (copies n (objs c)) inv_emptyColl
  refine ⟨h.1, ?_⟩
  rw [spills, h.2.1, addMany_copies _ _ _ (by simp [emptyColl, OC.abs]), objs_eq hc]
  rfl

theorem copies_org (n : Nat) (l : List Obj) : (copies n l).map Obj.org = l.map (fun e => some e.id) := by
  induction l generalizing n with
  | nil => rfl
  | cons e l ih => simp [copies, copy, ih]

theorem copies_val (n : Nat) (l : List Obj) : (copies n l).map Obj.val = l.map Obj.val := by
  induction l generalizing n with
  | nil => rfl
  | cons e l ih => simp [copies, copy, ih]

theorem modColl_spec {c : Coll} (hc : OC.Inv Obj.id c) (k : Uid) (v : Nat) :
    OC.Inv Obj.id (modColl k v c) ∧
    spills (modColl k v c) = (spills c).map (fun e => if e.id = k then { e with val := v } else e) := by
  have hid : ∀ e : Obj, (if e.id = k then { e with val := v } else e).id = e.id := by
    intro e; split <;> rfl
  refine ⟨⟨hc.wf, ?_, ?_⟩, ?_⟩
  · intro k' i hk
    obtain ⟨n, e, h1, h2, h3⟩ := hc.sound k' i hk
    refine ⟨n, if e.id = k then { e with val := v } else e, h1, ?_, ?_⟩
    · simp only [modColl, List.getElem?_map, h2, Option.map_some]
    · rw [hid]; exact h3
  · intro n e he
    simp only [modColl, List.getElem?_map] at he
    cases h2 : c.elems[n]? with
    | none => rw [h2] at he; simp at he
    | some o =>
      cases o with
      | none => rw [h2] at he; simp at he
      | some x =>
        rw [h2] at he
        simp only [Option.map_some, Option.some.injEq] at he
        subst he
        rw [hid]
        exact hc.complete n x h2
  · unfold spills OC.abs modColl
    simp only
    generalize c.elems = l
    induction l with
    | nil => rfl
    | cons a l ih =>
      cases a with
      | none => simpa using ih
      | some x => simpa using ih

/-- the certain collection is used within what `OrderedCollection` supports (see C02, C03) -/
def GoodOp (p : St) : Op → Prop
  | .setItem i e => GoodRepl p.cert e i
  | _ => True

/-- well-formedness: both collections are intact, the copies have ids made so far -/
structure Good (p : St) : Prop where
  cert : OC.Inv Obj.id p.cert
  unc : ∀ u, p.unc = some u → OC.Inv Obj.id u
  ids : ∀ u, p.unc = some u → ∀ x ∈ spills u, ∃ m, x.id = .made m ∧ m < p.next

/-- k-th uncertain spill is a copy of the k-th certain one -/
def Corr (p : St) : Prop := ∀ u, p.unc = some u → (spills u).map Obj.org = (spills p.cert).map (fun e => some e.id)

/-- what the code needs in addition for the two collections to correspond: with uncertainty on, an added spill is new,
and spills are replaced only while no removal has left a hole in the uncertain collection -/
def GoodPair (p : St) : Op → Prop
  | .add e => p.unc = none ∨ e.id ∉ (spills p.cert).map Obj.id
  | .setItem _ _ => ∀ u, p.unc = some u → Compact u
  | _ => True

theorem fresh {p : St} (h : Good p) {u : Coll} (hu : p.unc = some u) (e : Obj) : (copy p.next e).id ∉ (spills u).map Obj.id := by
  intro hm
  obtain ⟨x, hx, he⟩ := List.mem_map.1 hm
  obtain ⟨m, h1, h2⟩ := h.ids u hu x hx
  rw [h1] at he
  simp [copy] at he
  omega

theorem add1_spec {c : Coll} (hc : OC.Inv Obj.id c) (e : Obj) :
    OC.Inv Obj.id (OC.add1 Obj.id c e).1 ∧
    (e.id ∉ (spills c).map Obj.id → spills (OC.add1 Obj.id c e).1 = spills c ++ [e]) ∧
    (∀ x ∈ spills (OC.add1 Obj.id c e).1, x ∈ spills c ∨ x = e) := by
  have h := add1_sim hc e
  refine ⟨h.1, ?_, ?_⟩
  · intro he
    rw [spills, h.2, Spec.add, find_none he]
    rfl
  · rw [spills, h.2, Spec.add]
    intro x hx
    split at hx
    · exact Or.inl hx
    · simpa using hx

theorem Good.remake {p : St} (h : Good p) : Good { p with unc := some (uncertainCopy p.next p.cert), next := p.next + (objs p.cert).length } := by
  obtain ⟨h1, h2⟩ := uncertainCopy_spec h.cert p.next
  refine ⟨h.cert, ?_, ?_⟩
  · intro u hu; cases hu; exact h1
  · intro u hu x hx
    cases hu
    rw [h2] at hx
    obtain ⟨m, a, b, d⟩ := mem_copies hx
    exact ⟨m, a, by rw [objs_eq h.cert]; exact d⟩

theorem Corr.remake {p : St} (h : Good p) : Corr { p with unc := some (uncertainCopy p.next p.cert), next := p.next + (objs p.cert).length } := by
  intro u hu
  cases hu
  rw [(uncertainCopy_spec h.cert p.next).2, copies_org]

theorem map_eraseIdx {α β : Type} (f : α → β) (l : List α) (n : Nat) : (l.eraseIdx n).map f = (l.map f).eraseIdx n := by
  induction l generalizing n with
  | nil => rfl
  | cons a l ih => cases n with
    | zero => rfl
    | succ n => simp [ih]

/-- both parts of one operation -/
theorem step_spec {p : St} (h : Good p) (op : Op) (hg : GoodOp p op) :
    Good (step p op) ∧ (Corr p → GoodPair p op → Corr (step p op)) := by
  cases op with
  | add e =>
    simp only [step, add]
    refine ⟨⟨(add1_spec h.cert e).1, ?_, ?_⟩, ?_⟩
    · intro u hu
      obtain ⟨u0, hu0, rfl⟩ := Option.map_eq_some_iff.1 hu
      exact (add1_spec (h.unc u0 hu0) _).1
    · intro u hu x hx
      obtain ⟨u0, hu0, rfl⟩ := Option.map_eq_some_iff.1 hu
      rcases (add1_spec (h.unc u0 hu0) _).2.2 x hx with hx | rfl
      · obtain ⟨m, a, b⟩ := h.ids u0 hu0 x hx
        exact ⟨m, a, by simp only; omega⟩
      · exact ⟨p.next, rfl, by simp only; omega⟩
    · intro hc hp u hu
      obtain ⟨u0, hu0, rfl⟩ := Option.map_eq_some_iff.1 hu
      have hnew : e.id ∉ (spills p.cert).map Obj.id := by
        rcases hp with hp | hp
        · rw [hu0] at hp; cases hp
        · exact hp
      simp only
      rw [(add1_spec (h.unc u0 hu0) _).2.1 (fresh h hu0 e), (add1_spec h.cert e).2.1 hnew]
      simp only [List.map_append, hc u0 hu0]
      rfl
  | remove i =>
    simp only [step, remove]
    cases hu : p.unc with
    | none =>
      simp only
      exact ⟨⟨(del_inv h.cert i).1, by simp, by simp⟩, fun _ _ u hu' => by simp at hu'⟩
    | some u =>
      simp only
      cases hgt : get p.cert i with
      | error e => exact ⟨h, fun hc _ => hc⟩
      | ok o =>
        cases o with
        | none => exact ⟨h, fun hc _ => hc⟩
        | some o =>
          obtain ⟨A, B, h1, h2, h3⟩ := get_spec h.cert hgt
          simp only [indexOf_split h.cert h1]
          have hdu := del_inv (h.unc u hu) (.pos (A.length : Int))
          simp only [del] at hdu
          cases hr : (OC.removePos Obj.id u (A.length : Int)).2.1 with
          | some e =>
            simp only
            refine ⟨⟨h.cert, ?_, ?_⟩, ?_⟩
            · intro u' hu'; cases hu'; exact hdu.1
            · intro u' hu' x hx
              cases hu'
              exact h.ids u hu x (hdu.2 x hx)
            · intro hc _ u' hu'
              cases hu'
              -- lengths agree, so the removal cannot fail
              exfalso
              have hlen := congrArg List.length (hc u hu)
              simp only [List.length_map, h1, List.length_append, List.length_cons] at hlen
              have hgp : get u (.pos (A.length : Int)) = .ok (some (spills u)[A.length]) := by
                simp only [get]
                rw [getPos_eq (h.unc u hu), pyGet_nat]
                have hlt : A.length < (OC.abs u).length := by
                  change A.length < (spills u).length; omega
                rw [List.getElem?_eq_getElem hlt]
              obtain ⟨_, _, _, _, h9⟩ := get_spec (h.unc u hu) hgp
              simp only [del] at h9
              rw [hr] at h9; cases h9
          | none =>
            simp only
            refine ⟨⟨(del_inv h.cert i).1, ?_, ?_⟩, ?_⟩
            · intro u' hu'; cases hu'; exact hdu.1
            · intro u' hu' x hx
              cases hu'
              exact h.ids u hu x (hdu.2 x hx)
            · intro hc _ u' hu'
              cases hu'
              simp only
              have hcu := hc u hu
              have hlen := congrArg List.length hcu
              simp only [List.length_map, h1, List.length_append, List.length_cons] at hlen
              have hs1 := step_sim (inst := fun _ => true) (h.unc u hu) (.removePos (A.length : Int)) trivial
              simp only [OC.step, specStep, Spec.removePos] at hs1
              have hpi : pyIdx (OC.abs u).length (A.length : Int) = some A.length := pyIdx_nat (by
                change A.length < (spills u).length; omega)
              rw [hpi] at hs1
              rw [h2]
              change (OC.abs _).map _ = _
              rw [hs1.2.1]
              simp only
              rw [map_eraseIdx]
              change ((spills u).map Obj.org).eraseIdx _ = _
              rw [hcu, h1]
              simp [List.map_append, List.eraseIdx_append_of_length_le]
  | setItem i e =>
    simp only [step, setItem]
    rcases repl_spec h.cert e i hg with ⟨h1, err, h2⟩ | ⟨A, o, B, h1, h2, h3, h4⟩
    · simp only [h2, h1]
      exact ⟨⟨h.cert, h.unc, h.ids⟩, fun hc _ => hc⟩
    · simp only [h4]
      cases hu : p.unc with
      | none => exact ⟨⟨h2, by simp, by simp⟩, fun _ _ u hu' => by simp at hu'⟩
      | some u =>
        simp only [indexOf_split h2 h3]
        have hri := replacePos_inv (h.unc u hu) A.length (copy p.next e) (fresh h hu e)
        refine ⟨⟨h2, ?_, ?_⟩, ?_⟩
        · intro u' hu'; cases hu'; exact hri.1
        · intro u' hu' x hx
          cases hu'
          rcases hri.2 x hx with hx | rfl
          · obtain ⟨m, a, b⟩ := h.ids u hu x hx
            exact ⟨m, a, by simp only; omega⟩
          · exact ⟨p.next, rfl, by simp only; omega⟩
        · intro hc hp u' hu'
          cases hu'
          simp only
          have hcu := hc u hu
          have hg2 : GoodRepl u (copy p.next e) (.pos (A.length : Int)) := ⟨hp u hu, by omega, fresh h hu e⟩
          have hlen := congrArg List.length hcu
          simp only [List.length_map, h1, List.length_append, List.length_cons] at hlen
          rcases repl_spec (h.unc u hu) (copy p.next e) (.pos (A.length : Int)) hg2 with ⟨g1, err, g2⟩ | ⟨A', o', B', g1, g2, g3, g4⟩
          · exfalso
            simp only [repl, OC.replacePos, if_true] at g2
            have hel : A.length < u.elems.length := by
              have := congrArg List.length (compact_elems (hp u hu)); simp at this; omega
            rw [pyIdx_nat hel] at g2
            have : u.elems[A.length]? = some (some (spills u)[A.length]) := by
              rw [compact_elems (hp u hu)]; simp [show A.length < (spills u).length by omega]
            simp only [this, OC.replaceAt] at g2
            have hhas : u.index.has (spills u)[A.length].id = true := by
              rw [Dict.has, (h.unc u hu).complete _ _ this]; rfl
            rw [hhas] at g2
            simp at g2
          · -- the replaced position is the right one
            simp only [repl] at g3
            have hA' : A'.length = A.length := by
              have hel : A.length < u.elems.length := by
                have := congrArg List.length (compact_elems (hp u hu)); simp at this; omega
              have hget : u.elems[A.length]? = some (some (spills u)[A.length]) := by
                rw [compact_elems (hp u hu)]; simp [show A.length < (spills u).length by omega]
              obtain ⟨A2, B2, hel2, hA2⟩ := split_at hget
              have hr := replaceAt_sim (h.unc u hu) A2 B2 _ (copy p.next e) hel2 (Or.inr (get?_none (h.unc u hu) (fresh h hu e)))
              have heq : OC.replacePos Obj.id (fun _ => true) u (A.length : Int) (copy p.next e) =
                  OC.replaceAt Obj.id u (spills u)[A.length].id A2.length (A2.length : Int) (copy p.next e) := by
                unfold OC.replacePos
                simp only [if_true]
                rw [pyIdx_nat hel]
                simp only [hget, hA2]
              have hnone : none ∉ A2 := by
                intro hm
                exact hp u hu (by rw [hel2]; exact List.mem_append.2 (Or.inl hm))
              have hlenA2 : (A2.filterMap id).length = A2.length := by
                clear hA2 heq hr hel2
                induction A2 with
                | nil => rfl
                | cons a l ih =>
                  cases a with
                  | none => simp at hnone
                  | some x => rw [fm_some, List.length_cons, List.length_cons, ih (fun hm => hnone (List.mem_cons_of_mem _ hm))]
              have hidx1 := indexOf_split g2 (A := A') (B := B') g3
              have hidx2 := indexOf_split g2 (A := A2.filterMap id) (B := B2.filterMap id) (e := copy p.next e) (by
                simp only [repl]
                rw [heq, hr.1]
                exact abs_split rfl)
              rw [hidx1] at hidx2
              simp only [Except.ok.injEq] at hidx2
              omega
            rw [g3, h3]
            have hmap := hcu
            rw [g1, h1, List.map_append, List.map_append, List.map_cons, List.map_cons] at hmap
            obtain ⟨e1, e2⟩ := List.append_inj hmap (by simp [hA'])
            rw [List.map_append, List.map_append, List.map_cons, List.map_cons, e1]
            simp only [List.cons.injEq] at e2
            rw [e2.2]
            rfl
  | toggle b =>
    simp only [step, toggle]
    cases hu : p.unc with
    | none =>
      cases b with
      | false => exact ⟨h, fun hc _ => hc⟩
      | true =>
        exact ⟨h.remake, fun _ _ => Corr.remake h⟩
    | some u =>
      cases b with
      | false =>
        exact ⟨⟨h.cert, by simp, by simp⟩, fun _ _ u hu' => by simp at hu'⟩
      | true => exact ⟨h, fun hc _ => hc⟩
  | clear =>
    simp only [step, clear]
    refine ⟨⟨inv_emptyColl, ?_, ?_⟩, ?_⟩
    · intro u hu
      obtain ⟨u0, _, rfl⟩ := Option.map_eq_some_iff.1 hu
      exact inv_emptyColl
    · intro u hu x hx
      obtain ⟨u0, _, rfl⟩ := Option.map_eq_some_iff.1 hu
      simp [OC.clear, spills, OC.abs] at hx
    · intro _ _ u hu
      obtain ⟨u0, _, rfl⟩ := Option.map_eq_some_iff.1 hu
      rfl
  | rewind =>
    simp only [step, rewind]
    cases hu : p.unc with
    | none => exact ⟨h, fun hc _ => hc⟩
    | some u =>
      simp only
      split
      · exact ⟨h, fun hc _ => hc⟩
      · exact ⟨h.remake, fun _ _ => Corr.remake h⟩
  | modify k v =>
    simp only [step, modify]
    refine ⟨⟨(modColl_spec h.cert k v).1, ?_, ?_⟩, ?_⟩
    · intro u hu
      obtain ⟨u0, hu0, rfl⟩ := Option.map_eq_some_iff.1 hu
      exact (modColl_spec (h.unc u0 hu0) k v).1
    · intro u hu x hx
      obtain ⟨u0, hu0, rfl⟩ := Option.map_eq_some_iff.1 hu
      rw [(modColl_spec (h.unc u0 hu0) k v).2] at hx
      obtain ⟨y, hy, rfl⟩ := List.mem_map.1 hx
      obtain ⟨m, a, b⟩ := h.ids u0 hu0 y hy
      refine ⟨m, ?_, b⟩
      split <;> exact a
    · intro hc _ u hu
      obtain ⟨u0, hu0, rfl⟩ := Option.map_eq_some_iff.1 hu
      simp only
      rw [(modColl_spec (h.unc u0 hu0) k v).2, (modColl_spec h.cert k v).2, List.map_map, List.map_map]
      have e1 : (Obj.org ∘ fun e => if e.id = k then { e with val := v } else e) = Obj.org := by
        funext e; simp only [Function.comp]; split <;> rfl
      have e2 : ((fun e : Obj => some e.id) ∘ fun e => if e.id = k then { e with val := v } else e) = (fun e : Obj => some e.id) := by
        funext e; simp only [Function.comp]; split <;> rfl
      rw [e1, e2]
      exact hc u0 hu0

/-- conditions along a history -/
def GoodRun (p : St) : List Op → Prop
  | [] => True
  | o :: os => GoodOp p o ∧ GoodRun (step p o) os

def PairRun (p : St) : List Op → Prop
  | [] => True
  | o :: os => GoodPair p o ∧ PairRun (step p o) os

theorem run_spec (ops : List Op) {p : St} (h : Good p) (hg : GoodRun p ops) :
    Good (run p ops) ∧ (Corr p → PairRun p ops → Corr (run p ops)) := by
  induction ops generalizing p with
  | nil => exact ⟨h, fun hc _ => hc⟩
  | cons o os ih =>
    obtain ⟨h1, h2⟩ := step_spec h o hg.1
    obtain ⟨h3, h4⟩ := ih h1 hg.2
    exact ⟨h3, fun hc hp => h4 (h2 hc hp.1) hp.2⟩

theorem good_init (b : Bool) : Good (init b) := by
  refine ⟨inv_emptyColl, ?_, ?_⟩
  · intro u hu
    cases b <;> simp [init] at hu
    subst hu; exact inv_emptyColl
  · intro u hu x hx
    cases b <;> simp [init] at hu
    subst hu; simp [spills, OC.abs, emptyColl] at hx

theorem corr_init (b : Bool) : Corr (init b) := by
  intro u hu
  cases b <;> simp [init] at hu
  subst hu; rfl

/-- **C24** (partial): after any history of additions of new spills, removals, replacements (while no removal has left a
hole), switching uncertainty on and off, clearing, rewinding and changing spills, the k-th uncertain spill is a copy of
the k-th certain one, and there are equally many. Missing: additions of spills that are already there, replacements
after a removal (the code fails there, see `C24_counterexample_readd` and `C24_counterexample_replace`). -/
theorem C24_correspond_partial (b : Bool) (ops : List Op) (hg : GoodRun (init b) ops) (hp : PairRun (init b) ops)
    (u : Coll) (hu : (run (init b) ops).unc = some u) :
    (spills u).map Obj.org = (spills (run (init b) ops).cert).map (fun e => some e.id) ∧
    (spills u).length = (spills (run (init b) ops).cert).length := by
  have h := (run_spec ops (good_init b) hg).2 (corr_init b) hp u hu
  exact ⟨h, by simpa using congrArg List.length h⟩

/-- **C24**, rewind: whatever happened before (also re-additions and replacements that got the two out of step, and
changed spills), after a rewind the k-th uncertain spill has the same settings as the k-th certain one. -/
theorem C24_rewind_restores (b : Bool) (ops : List Op) (hg : GoodRun (init b) ops)
    (u : Coll) (hu : (run (init b) (ops ++ [.rewind])).unc = some u) :
    (spills u).map Obj.val = (spills (run (init b) (ops ++ [.rewind])).cert).map Obj.val := by
  have hgood := (run_spec ops (good_init b) hg).1
  have hr : run (init b) (ops ++ [.rewind]) = rewind (run (init b) ops) := by
    simp [run, List.foldl_append, step]
  rw [hr] at hu ⊢
  generalize run (init b) ops = p at *
  unfold rewind at hu ⊢
  cases hpu : p.unc with
  | none => rw [hpu] at hu; simp only [hpu] at hu; cases hu
  | some u0 =>
    simp only [hpu] at hu ⊢
    split at hu
    · rename_i hs
      rw [if_pos hs]
      rw [hpu] at hu
      cases hu
      unfold sameSpills at hs
      rw [Bool.and_eq_true] at hs
      have := hs.2
      rw [objs_eq hgood.cert, objs_eq (hgood.unc _ hpu)] at this
      exact (eq_of_beq this).symm
    · rename_i hs
      rw [if_neg hs]
      simp only [Option.some.injEq] at hu
      subst hu
      rw [(uncertainCopy_spec hgood.cert p.next).2, copies_val]

/-- the claim of C24 without restriction on what is added or replaced -/
def C24_claim : Prop := ∀ (b : Bool) (ops : List Op), GoodRun (init b) ops → ∀ u, (run (init b) ops).unc = some u →
  (spills u).map Obj.org = (spills (run (init b) ops).cert).map (fun e => some e.id)

def sp (n : Nat) : Obj := ⟨.user n, n, none⟩

/-- **C24 is false of the code**: adding a spill that is already there is ignored by the certain container and gives
the uncertain one a second copy. -/
theorem C24_counterexample_readd : ¬ C24_claim := by
  intro h
  have h1 := h true [.add (sp 1), .add (sp 1)] ⟨trivial, trivial, trivial⟩ _ rfl
  revert h1
  decide

/-- **C24 is false of the code**: after a removal, replacing a spill (by id) replaces the wrong copy, or raises. -/
theorem C24_counterexample_replace : ¬ C24_claim := by
  intro h
  have h1 := h true [.add (sp 1), .add (sp 2), .add (sp 3), .remove (.id (.user 1)), .setItem (.id (.user 3)) (sp 4)]
    ⟨trivial, trivial, trivial, trivial, Or.inr (by decide), trivial⟩ _ rfl
  revert h1
  decide

/-- replacing the first spill after a removal raises and leaves the new certain spill without a copy -/
theorem C24_replace_raises : ∃ p, p = run (init true) [.add (sp 1), .add (sp 2), .remove (.id (.user 1))] ∧
    (setItem p (.id (.user 2)) (sp 4)).2 = some .keyError ∧
    (spills (setItem p (.id (.user 2)) (sp 4)).1.cert).map Obj.id = [.user 4] ∧
    (setItem p (.id (.user 2)) (sp 4)).1.unc.map (fun u => (spills u).map Obj.org) = some [some (.user 2)] :=
  ⟨_, rfl, by decide⟩

/-- a long allowed history -/
def exOps : List Op := [.add (sp 1), .add (sp 2), .setItem (.id (.user 1)) (sp 5), .setItem (.pos 1) (sp 6), .toggle true,
  .add (sp 3), .setItem (.id (.user 6)) (sp 7), .modify (.user 7) 9, .remove (.pos (-1)), .rewind, .add (sp 2), .toggle false,
  .toggle true]

example : GoodRun (init false) exOps ∧ PairRun (init false) exOps ∧
    (run (init false) exOps).unc.map (fun u => (spills u).map Obj.val) = some [5, 9, 2] := by
  refine ⟨?_, ?_, by decide⟩
  · refine ⟨trivial, trivial, Or.inr (by decide), ⟨by unfold Compact; decide, by decide, by decide⟩, trivial, trivial, Or.inr (by decide), trivial,
      trivial, trivial, trivial, trivial, trivial, trivial⟩
  · refine ⟨Or.inl rfl, Or.inl rfl, ?_, ?_, trivial, Or.inr (by decide), ?_, trivial, trivial, trivial, Or.inr (by decide),
      trivial, trivial, trivial⟩
    · intro u hu; cases hu
    · intro u hu; cases hu
    · intro u hu; cases hu; unfold Compact; decide

end Verif.Pair
