import Verif.Run.AskModel
/-!
# C296, C297: questions to a model and weatherers by name
-/
namespace Verif.Run.Ask

/-- the objects of a model -/
def M.objs (m : M) : List Obj := m.map :: (m.environment ++ m.spills ++ m.movers ++ m.weatherers ++ m.outputters)

theorem inColl_iff (id : Nat) (l : List Obj) : inColl id l = true ↔ ∃ o ∈ l, o.id = id := by
  induction l with
  | nil => simp [inColl]
  | cons o t ih =>
    unfold inColl
    by_cases h : id = o.id
    · simp [h]
    · rw [if_neg h, ih]
      simp [Ne.symm h]

/-- C296, claim: an object that is in the model, be it in an object of the model, is found. -/
def C296_claim : Prop := ∀ (m : M) (id : Nat), contains m id = true ↔ ∃ o ∈ m.objs, o.id = id ∨ id ∈ o.held

/-- C296. Only the map and the objects of the collections are found. Missing for the full claim: objects in objects. -/
theorem C296_partial (m : M) (id : Nat) : contains m id = true ↔ ∃ o ∈ m.objs, o.id = id := by
  unfold contains M.objs
  by_cases h : m.map.id = id
  · rw [if_pos h]
    simp [h]
  · rw [if_neg h]
    simp only [List.any_cons, List.any_nil, Bool.or_false, Bool.or_eq_true, inColl_iff, List.mem_cons, List.mem_append, or_and_right, exists_or]
    have hm : ¬ ∃ x, x = m.map ∧ x.id = id := by
      rintro ⟨x, rfl, hx⟩
      exact h hx
    simp only [hm, false_or, or_assoc]

/-- a model with one spill, number 1, whose release is number 2 -/
def oneSpill : M := ⟨⟨0, ["GnomeMap"], fun _ => none, []⟩, [], [⟨1, ["Spill"], fun _ => none, [2]⟩], [], [], []⟩

/-- The release of a spill is not found. -/
theorem C296_counterexample : ¬ C296_claim := by
  intro h
  have := (h oneSpill 2).2 ⟨⟨1, ["Spill"], fun _ => none, [2]⟩, by simp [M.objs, oneSpill], Or.inr (by simp)⟩
  exact absurd this (by decide)

theorem search_one (p : Obj → Bool) : ∀ (l acc : List Obj),
    search p false acc l = match l.find? p with | some o => .one o | none => if acc = [] then .none else .list acc
  | [], acc => by simp [search]
  | o :: t, acc => by
    unfold search
    by_cases h : p o = true
    · rw [if_pos h]
      simp [h]
    · rw [if_neg h, search_one p t acc]
      simp [h]

theorem search_all (p : Obj → Bool) : ∀ (l acc : List Obj),
    search p true acc l = if acc ++ l.filter p = [] then .none else .list (acc ++ l.filter p)
  | [], acc => by simp [search]
  | o :: t, acc => by
    unfold search
    by_cases h : p o = true
    · rw [if_pos h]
      simp only [if_true]
      rw [search_all p t]
      simp [h]
    · rw [if_neg h, search_all p t acc]
      simp [h]

/-- C296. A search by class gives the first object of the class, or all of them in order; nothing exactly when there is none. -/
theorem C296_class (cls : String) (l : List Obj) :
    (∀ o, byClass cls l false = .one o ↔ ∃ a b, l = a ++ o :: b ∧ cls ∈ o.classes ∧ ∀ x ∈ a, cls ∉ x.classes) ∧
    (∀ r, byClass cls l true = .list r ↔ r = l.filter (fun o => o.classes.contains cls) ∧ r ≠ []) ∧
    (∀ all, byClass cls l all = .none ↔ ∀ o ∈ l, cls ∉ o.classes) := by
  unfold byClass
  refine ⟨?_, ?_, ?_⟩
  · intro o
    rw [search_one]
    constructor
    · intro h
      cases hf : l.find? (fun o => o.classes.contains cls) with
      | none => rw [hf] at h; exact absurd h nofun
      | some x =>
        rw [hf] at h
        injection h with h
        subst h
        obtain ⟨h1, a, b, h2, h3⟩ := List.find?_eq_some_iff_append.1 hf
        exact ⟨a, b, h2, by simpa using h1, fun x hx => by simpa using h3 x hx⟩
    · rintro ⟨a, b, h1, h2, h3⟩
      have : l.find? (fun o => o.classes.contains cls) = some o :=
        List.find?_eq_some_iff_append.2 ⟨by simpa using h2, a, b, h1, fun x hx => by simpa using h3 x hx⟩
      rw [this]
  · intro r
    rw [search_all]
    simp only [List.nil_append]
    by_cases h : l.filter (fun o => o.classes.contains cls) = []
    · rw [if_pos h, h]
      constructor
      · intro h; exact absurd h nofun
      · rintro ⟨h1, h2⟩; exact absurd h1 h2
    · rw [if_neg h]
      constructor
      · intro e; injection e with e; exact ⟨e.symm, e ▸ h⟩
      · rintro ⟨h1, _⟩; rw [h1]
  · intro all
    cases all with
    | false =>
      rw [search_one]
      cases hf : l.find? (fun o => o.classes.contains cls) with
      | none =>
        simp only [if_true, true_iff]
        intro o ho
        simpa using List.find?_eq_none.1 hf o ho
      | some x =>
        constructor
        · intro h; exact absurd h nofun
        · intro h
          exact absurd (by simpa using List.find?_some hf) (h x (List.mem_of_find?_eq_some hf))
    | true =>
      rw [search_all]
      simp only [List.nil_append]
      constructor
      · intro h o ho hc
        split at h
        · rename_i hf
          have : o ∈ l.filter (fun o => o.classes.contains cls) := List.mem_filter.2 ⟨ho, by simpa using hc⟩
          rw [hf] at this
          simp at this
        · exact absurd h nofun
      · intro h
        rw [if_pos]
        rw [List.filter_eq_nil_iff]
        intro o ho hc
        exact h o ho (by simpa using hc)

/-- an object has a value of an attribute: it is the word, or one of the words -/
def HasAttr (attr value : String) (o : Obj) : Prop := o.attr attr = some (.word value) ∨ ∃ l, o.attr attr = some (.words l) ∧ value ∈ l

theorem attrIs_iff (attr value : String) (o : Obj) : attrIs attr value o = true ↔ HasAttr attr value o := by
  unfold attrIs HasAttr
  split
  · rename_i h; simp [h]
  · rename_i s h; simp [h]
  · rename_i l h; simp [h]

/-- C296. A search by attribute gives the first object with the value, or all of them in order; nothing exactly when there is none. -/
theorem C296_attr (attr value : String) (l : List Obj) :
    (∀ o, byAttr attr value l false = .one o ↔ ∃ a b, l = a ++ o :: b ∧ HasAttr attr value o ∧ ∀ x ∈ a, ¬ HasAttr attr value x) ∧
    (∀ r, byAttr attr value l true = .list r → (∀ o, o ∈ r ↔ o ∈ l ∧ HasAttr attr value o) ∧ r.Sublist l) ∧
    (byAttr attr value l true = .none ↔ ∀ o ∈ l, ¬ HasAttr attr value o) := by
  unfold byAttr
  refine ⟨?_, ?_, ?_⟩
  · intro o
    rw [search_one]
    constructor
    · intro h
      cases hf : l.find? (attrIs attr value) with
      | none => rw [hf] at h; exact absurd h nofun
      | some x =>
        rw [hf] at h
        injection h with h
        subst h
        obtain ⟨h1, a, b, h2, h3⟩ := List.find?_eq_some_iff_append.1 hf
        refine ⟨a, b, h2, (attrIs_iff _ _ _).1 h1, fun x hx hc => ?_⟩
        have := h3 x hx
        rw [(attrIs_iff _ _ _).2 hc] at this
        exact absurd this (by decide)
    · rintro ⟨a, b, h1, h2, h3⟩
      have : l.find? (attrIs attr value) = some o :=
        List.find?_eq_some_iff_append.2 ⟨(attrIs_iff _ _ _).2 h2, a, b, h1, fun x hx => by
          cases hb : attrIs attr value x with
          | false => rfl
          | true => exact absurd ((attrIs_iff _ _ _).1 hb) (h3 x hx)⟩
      rw [this]
  · intro r h
    rw [search_all] at h
    simp only [List.nil_append] at h
    split at h
    · exact absurd h nofun
    · injection h with h
      subst h
      exact ⟨fun o => by rw [List.mem_filter, attrIs_iff], List.filter_sublist⟩
  · rw [search_all]
    simp only [List.nil_append]
    constructor
    · intro h o ho hc
      split at h
      · rename_i hf
        have : o ∈ l.filter (attrIs attr value) := List.mem_filter.2 ⟨ho, (attrIs_iff _ _ _).2 hc⟩
        rw [hf] at this
        simp at this
      · exact absurd h nofun
    · intro h
      rw [if_pos]
      rw [List.filter_eq_nil_iff]
      intro o ho hc
      exact h o ho ((attrIs_iff _ _ _).1 hc)

/-! ## C297 -/

theorem addAll_ok (l : List String) : ∀ have_, (∀ n ∈ l, n ∈ known) → addAll have_ l = (have_ ++ l, true) := by
  induction l with
  | nil => intro h _; simp [addAll]
  | cons n t ih =>
    intro h hk
    unfold addAll
    rw [if_pos (hk n (by simp)), ih _ (fun x hx => hk x (by simp [hx]))]
    simp

theorem addAll_bad (a : List String) : ∀ (have_ : List String) (n : String) (b : List String), (∀ x ∈ a, x ∈ known) → n ∉ known →
    addAll have_ (a ++ n :: b) = (have_ ++ a, false) := by
  induction a with
  | nil =>
    intro h n b _ hn
    simp [addAll, hn]
  | cons x t ih =>
    intro h n b hk hn
    rw [List.cons_append]
    unfold addAll
    rw [if_pos (hk x (by simp)), ih _ n b (fun y hy => hk y (by simp [hy])) hn]
    simp

/-- C297, claim: the weatherers that are asked for are added in order, or, when a name is not known, none. -/
def C297_claim : Prop :=
  ∀ (have_ l : List String),
    ((∀ n ∈ l, n ∈ known) → addWeathering have_ (.names l) = (have_ ++ l, true)) ∧ ((∃ n ∈ l, n ∉ known) → addWeathering have_ (.names l) = (have_, false))

/-- Evaporation stays in the model after the refusal of what follows it. -/
theorem C297_counterexample : ¬ C297_claim := by
  intro h
  have := (h [] ["evaporation", "biodegradation"]).2 ⟨"biodegradation", by simp, by decide⟩
  exact absurd this (by decide)

/-- C297. All names known: all added in order after what was there, the standard set is evaporation, dispersion and emulsification. A name that is not known is refused, and
what came before it has been added. Missing for the full claim: taking that back. -/
theorem C297_partial (have_ : List String) :
    (∀ l, (∀ n ∈ l, n ∈ known) → addWeathering have_ (.names l) = (have_ ++ l, true)) ∧
    addWeathering have_ (.word "standard") = (have_ ++ ["evaporation", "dispersion", "emulsification"], true) ∧
    (∀ a n b, (∀ x ∈ a, x ∈ known) → n ∉ known → addWeathering have_ (.names (a ++ n :: b)) = (have_ ++ a, false)) := by
  refine ⟨fun l h => addAll_ok l have_ h, ?_, fun a n b h hn => addAll_bad a have_ n b h hn⟩
  exact addAll_ok standard have_ (by decide)

/-- one letter is no name -/
theorem letter_unknown (c : Char) : String.ofList [c] ∉ known := by
  intro h
  have : ∀ s ∈ known, s.length ≠ 1 := by decide
  exact this _ h (by simp)

/-- C297. A single word other than the set, be it the name of a weatherer, is refused and nothing is added. -/
theorem C297_word (have_ : List String) (s : String) (hs : s ≠ "standard") (hne : s ≠ "") : addWeathering have_ (.word s) = (have_, false) := by
  simp only [addWeathering, namesOf]
  rw [if_neg hs]
  cases hl : s.toList with
  | nil => exact absurd (String.toList_eq_nil_iff.1 hl) hne
  | cons c t =>
    have := addAll_bad [] have_ (String.ofList [c]) (t.map fun c => String.ofList [c]) (by simp) (letter_unknown c)
    simpa using this

example : addWeathering ["skimmer"] (.names ["dissolution", "evaporation"]) = (["skimmer", "dissolution", "evaporation"], true) ∧
    addWeathering [] (.word "evaporation") = ([], false) := by decide

end Verif.Run.Ask
