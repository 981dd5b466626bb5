import Mathlib.Data.List.Forall2

/-!
# C81: updating an object from a dictionary

Source: `py_gnome/gnome/gnomeobject.py` 492-614 (`update_from_dict`, `_attr_changed`),
`py_gnome/gnome/persist/base_schema.py` 702-775 (`process_subnode`); `Model.update_from_dict`
(`model.py:428-498`) treats everything but the spills in the same way.

Simplifications: an attribute holds a plain value, a reference to an object or a list (or collection)
of objects; setters take every value; references come as objects (their own updates, whose outcome is
ignored by the code, are not modelled); an item of a list may fail to be made.
-/

namespace Verif.Update

/-- What an attribute holds; objects are numbers. -/
inductive Attr where
  | plain (v : Int)
  | ref (o : Nat)
  | many (os : List Nat)
  deriving DecidableEq, Repr

/-- An attribute of the schema. -/
structure Slot where
  name : Nat
  updatable : Bool
  val : Attr
  deriving DecidableEq, Repr

/-- What the dictionary gives for an attribute; `none` in a list: an item that cannot be made. -/
inductive In where
  | plain (v : Int)
  | ref (o : Nat)
  | many (os : List (Option Nat))
  | bad
  deriving DecidableEq, Repr

/-- The new value of an attribute after `process_subnode`: for a list it is the list itself, which
has been changed in place. -/
inductive Given where
  | value (v : Int)
  | obj (o : Nat)
  | same
  deriving DecidableEq, Repr

/-- The items up to the first failure. -/
def items : List (Option Nat) → List Nat × Bool
  | [] => ([], true)
  | none :: _ => ([], false)
  | some o :: l => ((o :: (items l).1), (items l).2)

/-- `process_subnode` (`base_schema.py:702-775`); no second component: an exception. -/
def prepare (s : Slot) (i : In) : Slot × Option Given :=
  match i, s.val with
  | .plain v, .plain _ => (s, some (.value v))
  | .ref o, .ref _ => (s, some (.obj o))
  | .many os, .many _ =>
    ({ s with val := .many (items os).1 }, if (items os).2 then some .same else none)
  | _, _ => (s, none)

/-- The first loop of `update_from_dict` (`gnomeobject.py:505-518`). -/
def phase1 (d : Nat → Option In) : List Slot → List (Slot × Option Given) × Bool
  | [] => ([], true)
  | s :: ss =>
    match (if s.updatable then d s.name else none) with
    | none => ((s, none) :: (phase1 d ss).1, (phase1 d ss).2)
    | some i =>
      match prepare s i with
      | (s', some g) => ((s', some g) :: (phase1 d ss).1, (phase1 d ss).2)
      | (s', none) => ((s', none) :: ss.map (·, none), false)

/-- `_attr_changed` (`gnomeobject.py:555-598`). -/
def changed (p : Slot × Option Given) : Bool :=
  match p.2 with
  | some (.value v) => decide (p.1.val ≠ .plain v)
  | some (.obj o) => decide (p.1.val ≠ .ref o)
  | _ => false

/-- `setattr`. -/
def assign (p : Slot × Option Given) : Slot :=
  match p.2 with
  | some (.value v) => { p.1 with val := .plain v }
  | some (.obj o) => { p.1 with val := .ref o }
  | _ => p.1

/-- What `update_from_dict` does: its return value, or none for an exception, and the object. -/
def update (d : Nat → Option In) (ss : List Slot) : Option Bool × List Slot :=
  let (ps, ok) := phase1 d ss
  if ok then (some (ps.any changed), ps.map assign) else (none, ps.map Prod.fst)

/-! ## Spec -/

/-- The attribute that the input describes. -/
def In.attr? : In → Option Attr
  | .plain v => some (.plain v)
  | .ref o => some (.ref o)
  | .many os => (os.mapM id).map .many
  | .bad => none

/-- The attribute is one that the dictionary is to change. -/
def Addressed (d : Nat → Option In) (s : Slot) : Prop := s.updatable = true ∧ (d s.name).isSome

theorem items_ok : ∀ l : List (Option Nat), (items l).2 = true → l.mapM id = some (items l).1 := by
  intro l
  induction l with
  | nil => intro _; rfl
  | cons a l ih =>
    cases a with
    | none => intro h; cases h
    | some o =>
      intro h
      rw [List.mapM_cons, ih h]
      rfl

/-- How one slot looks after the first loop. -/
theorem prepare_spec (s : Slot) (i : In) :
    (prepare s i).1.name = s.name ∧ (prepare s i).1.updatable = s.updatable ∧
    ((∀ os, i ≠ .many os) → (prepare s i).1 = s) ∧
    (∀ g, (prepare s i).2 = some g →
      i.attr? = some (assign ((prepare s i).1, some g)).val) := by
  unfold prepare
  split
  · refine ⟨rfl, rfl, fun _ => rfl, ?_⟩
    intro g hg; cases hg; rfl
  · refine ⟨rfl, rfl, fun _ => rfl, ?_⟩
    intro g hg; cases hg; rfl
  · rename_i os _ _
    refine ⟨rfl, rfl, fun h => absurd rfl (h os), ?_⟩
    intro g hg
    simp only at hg
    split at hg
    · rename_i h
      cases hg
      simp only [In.attr?, items_ok os h, assign, Option.map_some]
    · cases hg
  · refine ⟨rfl, rfl, fun _ => rfl, ?_⟩
    intro g hg; cases hg

/-- What the first loop leaves, slot by slot. -/
theorem phase1_spec (d : Nat → Option In) (ss : List Slot) :
    List.Forall₂ (fun s p => p.1.name = s.name ∧ p.1.updatable = s.updatable ∧
      (¬ Addressed d s → p = (s, none)) ∧
      ((∀ os, d s.name ≠ some (.many os)) → p.1 = s) ∧
      (∀ g, p.2 = some g → ∀ i, d s.name = some i → i.attr? = some (assign p).val) ∧
      ((phase1 d ss).2 = true → Addressed d s → p.2.isSome)) ss (phase1 d ss).1 := by
  suffices H : ∀ ok : Bool, ((phase1 d ss).2 = false → ok = false) →
      List.Forall₂ (fun s p => p.1.name = s.name ∧ p.1.updatable = s.updatable ∧
      (¬ Addressed d s → p = (s, none)) ∧
      ((∀ os, d s.name ≠ some (.many os)) → p.1 = s) ∧
      (∀ g, p.2 = some g → ∀ i, d s.name = some i → i.attr? = some (assign p).val) ∧
      (ok = true → Addressed d s → p.2.isSome)) ss (phase1 d ss).1 by
    exact H _ fun h => h
  induction ss with
  | nil => intro _ _; exact List.Forall₂.nil
  | cons s ss ih =>
    intro ok hok
    rw [phase1] at hok ⊢
    split at hok
    · rename_i h
      refine List.Forall₂.cons ⟨rfl, rfl, fun _ => rfl, fun _ => rfl, ?_, ?_⟩ (ih ok hok)
      · intro g hg; cases hg
      · intro _ ha
        rw [if_pos ha.1] at h
        have h2 := ha.2
        rw [h] at h2
        cases h2
    · rename_i i h
      have hu : s.updatable = true := by
        cases hs : s.updatable with
        | true => rfl
        | false => rw [hs] at h; simp at h
      rw [if_pos hu] at h
      have hp := prepare_spec s i
      split at hok
      · rename_i s' g hg
        rw [hg] at hp
        refine List.Forall₂.cons ⟨hp.1, hp.2.1, ?_, ?_, ?_, fun _ _ => rfl⟩ (ih ok hok)
        · intro ha; exact absurd ⟨hu, by rw [h]; rfl⟩ ha
        · intro hm
          exact hp.2.2.1 fun os e => hm os (by rw [h, e])
        · intro g' hg' i' hi'
          rw [h] at hi'
          cases hi'
          cases hg'
          exact hp.2.2.2 g rfl
      · rename_i s' hg
        rw [hg] at hp
        have hof := hok rfl
        refine List.Forall₂.cons ⟨hp.1, hp.2.1, ?_, ?_, ?_, ?_⟩ ?_
        · intro ha; exact absurd ⟨hu, by rw [h]; rfl⟩ ha
        · intro hm
          exact hp.2.2.1 fun os e => hm os (by rw [h, e])
        · intro g hg'; cases hg'
        · intro ho; rw [hof] at ho; cases ho
        · rw [List.forall₂_map_right_iff]
          refine List.forall₂_same.2 fun a _ => ⟨rfl, rfl, fun _ => rfl, fun _ => rfl, ?_, ?_⟩
          · intro g hg'; cases hg'
          · intro ho; rw [hof] at ho; cases ho

theorem eq_of_forall₂ {α : Type} {l m : List α} (h : List.Forall₂ (fun s s' => s' = s) l m) :
    m = l := by
  induction h with
  | nil => rfl
  | cons e _ ih => rw [e, ih]

theorem assign_none {p : Slot × Option Given} (h : p.2 = none) : assign p = p.1 := by
  unfold assign; rw [h]

theorem assign_name (p : Slot × Option Given) :
    (assign p).name = p.1.name ∧ (assign p).updatable = p.1.updatable := by
  unfold assign; split <;> exact ⟨rfl, rfl⟩

/-- Attributes that may not be updated or are not in the dictionary stay as they are, also when the
update fails. -/
theorem C81_untouched (d : Nat → Option In) (ss : List Slot) :
    List.Forall₂ (fun s s' => s'.name = s.name ∧ s'.updatable = s.updatable ∧
      (¬ Addressed d s → s' = s)) ss (update d ss).2 := by
  have h := phase1_spec d ss
  unfold update
  simp only
  split
  · rw [List.forall₂_map_right_iff]
    refine h.imp fun s p hp => ?_
    have ha := assign_name p
    refine ⟨ha.1.trans hp.1, ha.2.trans hp.2.1, fun hn => ?_⟩
    rw [hp.2.2.1 hn]; rfl
  · rw [List.forall₂_map_right_iff]
    refine h.imp fun s p hp => ⟨hp.1, hp.2.1, fun hn => ?_⟩
    rw [hp.2.2.1 hn]

/-- After an update that does not fail the attributes in the dictionary have the values given there. -/
theorem C81_set (d : Nat → Option In) (ss : List Slot) (b : Bool) (h : (update d ss).1 = some b) :
    List.Forall₂ (fun s s' => Addressed d s → ∀ i, d s.name = some i → i.attr? = some s'.val) ss
      (update d ss).2 := by
  have hs := phase1_spec d ss
  unfold update at h ⊢
  simp only at h ⊢
  split at h
  · rename_i hok
    rw [if_pos hok, List.forall₂_map_right_iff]
    refine hs.imp fun s p hp ha i hi => ?_
    obtain ⟨g, hg⟩ := Option.isSome_iff_exists.1 (hp.2.2.2.2.2 hok ha)
    exact hp.2.2.2.2.1 g hg i hi
  · cases h

/-- Full C81: an update reports a change exactly if there was one. -/
def C81_claim : Prop :=
  ∀ d ss b, (update d ss).1 = some b → (b = true ↔ (update d ss).2 ≠ ss)

/-- C81 fails: changes of lists and collections are not reported. -/
theorem C81_counterexample : ¬ C81_claim := by
  intro h
  have := (h (fun _ => some (.many [some 2])) [⟨0, true, .many [1]⟩] false (by decide)).2 (by decide)
  cases this

theorem assign_changed (p : Slot × Option Given) : changed p = true ↔ assign p ≠ p.1 := by
  obtain ⟨⟨n, u, v⟩, g⟩ := p
  unfold changed assign
  cases g with
  | none => simp
  | some g =>
    cases g with
    | value x =>
      simp only [decide_eq_true_eq]
      exact ⟨fun h e => h (by injection e with _ _ e; exact e.symm), fun h e => h (by rw [e])⟩
    | obj o =>
      simp only [decide_eq_true_eq]
      exact ⟨fun h e => h (by injection e with _ _ e; exact e.symm), fun h e => h (by rw [e])⟩
    | same => simp

/-- C81 for dictionaries without lists. -/
theorem C81_partial (d : Nat → Option In) (ss : List Slot) (b : Bool)
    (hl : ∀ n os, d n ≠ some (.many os)) (h : (update d ss).1 = some b) :
    b = true ↔ (update d ss).2 ≠ ss := by
  have hs := phase1_spec d ss
  unfold update at h ⊢
  simp only at h ⊢
  split at h
  · rename_i hok
    rw [if_pos hok]
    injection h with h
    subst h
    have hf : (phase1 d ss).1.map Prod.fst = ss := by
      have : List.Forall₂ (fun s s' => s' = s) ss ((phase1 d ss).1.map Prod.fst) := by
        rw [List.forall₂_map_right_iff]
        exact hs.imp fun s p hp => hp.2.2.2.1 (hl s.name)
      exact eq_of_forall₂ this
    rw [List.any_eq_true]
    constructor
    · rintro ⟨p, hp, hc⟩ he
      have h1 : (phase1 d ss).1.map assign = (phase1 d ss).1.map Prod.fst := he.trans hf.symm
      exact (assign_changed p).1 hc (List.map_inj_left.1 h1 p hp)
    · intro hne
      by_contra hno
      apply hne
      rw [← hf]
      have : (phase1 d ss).1.map assign = (phase1 d ss).1.map Prod.fst := by
        refine List.map_inj_left.2 fun p hp => ?_
        by_contra hc
        exact hno ⟨p, hp, (assign_changed p).2 hc⟩
      rw [hf] at this ⊢
      exact this
  · cases h

/-- A failed update leaves the object as it was. -/
def C81_refused_claim : Prop := ∀ d ss, (update d ss).1 = none → (update d ss).2 = ss

/-- It does not: a list has been emptied by then. -/
theorem C81_counterexample_refused : ¬ C81_refused_claim := by
  intro h
  have := h (fun _ => some (.many [none])) [⟨0, true, .many [1]⟩] (by decide)
  revert this
  decide

/-- It does if the dictionary has no lists. -/
theorem C81_refused_partial (d : Nat → Option In) (ss : List Slot)
    (hl : ∀ n os, d n ≠ some (.many os)) (h : (update d ss).1 = none) : (update d ss).2 = ss := by
  have hs := phase1_spec d ss
  unfold update at h ⊢
  simp only at h ⊢
  split at h
  · cases h
  · rename_i hok
    rw [if_neg hok]
    have : List.Forall₂ (fun s s' => s' = s) ss ((phase1 d ss).1.map Prod.fst) := by
      rw [List.forall₂_map_right_iff]
      exact hs.imp fun s p hp => hp.2.2.2.1 (hl s.name)
    exact eq_of_forall₂ this

example : update (fun n => if n = 0 then some (.plain 5) else if n = 1 then some (.plain 6) else none)
    [⟨0, true, .plain 4⟩, ⟨1, false, .plain 3⟩, ⟨2, true, .ref 9⟩] =
    (some true, [⟨0, true, .plain 5⟩, ⟨1, false, .plain 3⟩, ⟨2, true, .ref 9⟩]) := by decide

end Verif.Update
