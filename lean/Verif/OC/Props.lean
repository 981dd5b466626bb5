import Verif.OC.Lemmas
/-!
# Properties C01–C04: `OrderedCollection`

`Spec.step` is the abstract collection (a plain list). `Allowed l op` are the operations for which the code is
right; the excluded ones are `replace` by position (C02) and `replace` with an object that is already stored
elsewhere in the collection (C03); for these the negation is proved below.
-/
namespace Verif.OC
open Verif.Py

section
variable {α ι : Type} [DecidableEq ι] (sid : α → ι) (inst : α → Bool)

/-- events of the model, read as events of the specification -/
def Event.spec : Event α → Spec.Ev α
  | .add e => .add e | .remove e => .remove e | .replace e => .replace e

/-- abstract effect of one API call -/
def specStep (l : List α) : Op α ι → List α × Option Err × List (Spec.Ev α)
  | .add e => if inst e then ((Spec.add sid l e).1, none, (Spec.add sid l e).2) else (l, some .typeError, [])
  | .addMany es => Spec.addMany sid inst l es
  | .removeId k => Spec.removeId sid l k
  | .removePos i => Spec.removePos l i
  | .replaceId k e => Spec.replaceId sid inst l k e
  | .replacePos i e => Spec.replacePos inst l i e
  | .remake => (l, none, [])
  | .clear => ([], none, [])

/-- abstract run -/
def specRun (l : List α) : List (Op α ι) → List α × List (Option Err) × List (Spec.Ev α)
  | [] => (l, [], [])
  | op :: ops =>
    let r := specStep sid inst l op
    let r' := specRun r.1 ops
    (r'.1, r.2.1 :: r'.2.1, r.2.2 ++ r'.2.2)

/-- operations covered: not a positional replacement, and a replacement by id brings an object whose id is
new to the collection (or is the id being replaced). -/
def Allowed (l : List α) : Op α ι → Prop
  | .replaceId k e => sid e = k ∨ Spec.find sid l (sid e) = none
  | .replacePos _ _ => False
  | _ => True

/-- every operation of the history is allowed when it is executed -/
def AllowedRun (l : List α) : List (Op α ι) → Prop
  | [] => True
  | op :: ops => Allowed sid l op ∧ AllowedRun (specStep sid inst l op).1 ops

variable {sid inst}

theorem addMany_sim (es : List α) {s : State α ι} (h : Inv sid s) :
    Inv sid (addMany sid inst s es).1 ∧
    abs (addMany sid inst s es).1 = (Spec.addMany sid inst (abs s) es).1 ∧
    (addMany sid inst s es).2.1 = (Spec.addMany sid inst (abs s) es).2.1 ∧
    (addMany sid inst s es).2.2.map Event.spec = (Spec.addMany sid inst (abs s) es).2.2 := by
  induction es generalizing s with
  | nil => exact ⟨h, rfl, rfl, rfl⟩
  | cons e es ih =>
    unfold addMany Spec.addMany
    split
    · have h1 := add1_sim h e
      have h2 := ih h1.1
      have h3 : (add1 sid s e).2.map Event.spec = (Spec.add sid (abs s) e).2 := by
        unfold add1 Spec.add; rw [has_eq h]; split <;> rfl
      refine ⟨h2.1, ?_, ?_, ?_⟩
      · rw [h2.2.1, h1.2]
      · rw [h2.2.2.1, h1.2]
      · simp only [List.map_append, h2.2.2.2, h1.2, h3]
    · exact ⟨h, rfl, rfl, rfl⟩

theorem erase_filter {l A B : List α} {e : α} (hd : Spec.Distinct sid l) (hl : l = A ++ e :: B) :
    l.filter (fun x => sid x ≠ sid e) = A ++ B := by
  subst hl
  simp only [Spec.Distinct, List.map_append, List.map_cons] at hd
  rw [List.nodup_append] at hd
  have hB := (List.nodup_cons.1 hd.2.1).1
  rw [List.filter_append, List.filter_cons]
  simp only [ne_eq, not_true_eq_false, decide_false, Bool.false_eq_true, if_false]
  congr 1
  · rw [List.filter_eq_self]
    intro x hx
    have := hd.2.2 (sid x) (List.mem_map_of_mem hx) (sid e) (by simp)
    simpa using this
  · rw [List.filter_eq_self]
    intro x hx
    simp only [decide_eq_true_eq]
    intro hs; exact hB (List.mem_map.2 ⟨x, hx, hs⟩)

theorem map_replace {l A B : List α} {o e : α} (hd : Spec.Distinct sid l) (hl : l = A ++ o :: B) :
    l.map (fun x => if sid x = sid o then e else x) = A ++ e :: B := by
  subst hl
  simp only [Spec.Distinct, List.map_append, List.map_cons] at hd
  rw [List.nodup_append] at hd
  have hB := (List.nodup_cons.1 hd.2.1).1
  rw [List.map_append, List.map_cons]
  simp only [if_true]
  congr 1
  · conv_rhs => rw [← List.map_id A]
    apply List.map_congr_left
    intro x hx
    have := hd.2.2 (sid x) (List.mem_map_of_mem hx) (sid o) (by simp)
    simp [this]
  · congr 1
    conv_rhs => rw [← List.map_id B]
    apply List.map_congr_left
    intro x hx
    have : sid x ≠ sid o := fun hs => hB (List.mem_map.2 ⟨x, hx, hs⟩)
    simp [this]

theorem step_sim {s : State α ι} (h : Inv sid s) (op : Op α ι) (ha : Allowed sid (abs s) op) :
    Inv sid (step sid inst s op).1 ∧
    abs (step sid inst s op).1 = (specStep sid inst (abs s) op).1 ∧
    (step sid inst s op).2.1 = (specStep sid inst (abs s) op).2.1 ∧
    (step sid inst s op).2.2.map Event.spec = (specStep sid inst (abs s) op).2.2 := by
  cases op with
  | add e =>
    simp only [step, specStep]
    split
    · have h1 := add1_sim h e
      refine ⟨h1.1, h1.2, rfl, ?_⟩
      unfold add1 Spec.add; rw [has_eq h]; split <;> rfl
    · exact ⟨h, rfl, rfl, rfl⟩
  | addMany es => exact addMany_sim es h
  | removeId k =>
    simp only [step, specStep, removeId, Spec.removeId]
    rcases get?_eq h k with ⟨h1, h2⟩ | ⟨A, B, e, hel, hs, h1, h2⟩
    · simp [Dict.has, h1, h2, h]
    · subst hs
      have h3 := removeKey_sim h A B e hel
      simp only [Dict.has, h1, Option.isSome_some, if_true, h2]
      rw [h3.1] at *
      refine ⟨h3.2, ?_, rfl, rfl⟩
      have hab : abs s = A.filterMap id ++ e :: B.filterMap id := by
        unfold abs; rw [hel, List.filterMap_append, fm_some]
      rw [erase_filter (distinct h) hab]
      show List.filterMap id _ = _
      rw [List.filterMap_append, fm_none]
  | removePos i =>
    simp only [step, specStep, removePos, Spec.removePos]
    rw [getPos_eq h]
    unfold pyGet
    cases hp : pyIdx (abs s).length i with
    | none => simp [h]
    | some n =>
      have hn : n < (abs s).length := by
        unfold pyIdx at hp
        split at hp
        · split at hp <;> simp at hp; omega
        · split at hp <;> simp at hp; omega
      simp only [Option.bind_some, List.getElem?_eq_getElem hn]
      generalize he : (abs s)[n] = e
      obtain ⟨A, B, hab, hA⟩ : ∃ A B, abs s = A ++ e :: B ∧ A.length = n := by
        refine ⟨(abs s).take n, (abs s).drop (n+1), ?_, by simp; omega⟩
        rw [← he, List.getElem_cons_drop, List.take_append_drop]
      have hmem : e ∈ abs s := by rw [hab]; simp
      obtain ⟨m, hm⟩ := (mem_abs e).1 hmem
      obtain ⟨A', B', hel, hA'⟩ := split_at hm
      have h3 := removeKey_sim h A' B' e hel
      rw [h3.1] at *
      refine ⟨h3.2, ?_, rfl, rfl⟩
      have hab' : abs s = A'.filterMap id ++ e :: B'.filterMap id := by
        unfold abs; rw [hel, List.filterMap_append, fm_some]
      have e1 := erase_filter (distinct h) hab
      have e2 := erase_filter (distinct h) hab'
      show List.filterMap id _ = _
      rw [List.filterMap_append, fm_none, ← e2, e1, hab, ← hA]
      simp [List.eraseIdx_append_of_length_le]
  | replaceId k e =>
    simp only [step, specStep, replaceId, Spec.replaceId]
    split
    · rcases get?_eq h k with ⟨h1, h2⟩ | ⟨A, B, o, hel, hs, h1, h2⟩
      · simp [h1, h2, h]
      · subst hs
        have hpi : pyIdx s.elems.length (A.length : Int) = some A.length := by
          unfold pyIdx; simp [hel]; omega
        have hf : sid e = sid o ∨ s.index.get? (sid e) = none := by
          rcases ha with ha | ha
          · exact Or.inl ha
          · right
            rcases get?_eq h (sid e) with ⟨h1, _⟩ | ⟨_, _, _, _, _, _, h3⟩
            · exact h1
            · rw [ha] at h3; simp at h3
        have h3 := replaceAt_sim h A B o e hel hf
        simp only [h1, h2, hpi]
        rw [h3.1] at *
        refine ⟨h3.2, ?_, rfl, rfl⟩
        have hab : abs s = A.filterMap id ++ o :: B.filterMap id := by
          unfold abs; rw [hel, List.filterMap_append, fm_some]
        rw [map_replace (distinct h) hab]
        show List.filterMap id _ = _
        rw [List.filterMap_append, fm_some]
    · exact ⟨h, rfl, rfl, rfl⟩
  | replacePos i e => exact ha.elim
  | remake => exact ⟨(remake_sim h).1, (remake_sim h).2, rfl, rfl⟩
  | clear =>
    refine ⟨⟨Dict.WF.nil, ?_, ?_⟩, rfl, rfl, rfl⟩
    · intro k i hk; simp [step, clear] at hk
    · intro n e he; simp [step, clear] at he

theorem run_sim (ops : List (Op α ι)) {s : State α ι} (h : Inv sid s) (ha : AllowedRun sid inst (abs s) ops) :
    Inv sid (run sid inst s ops).1 ∧
    abs (run sid inst s ops).1 = (specRun sid inst (abs s) ops).1 ∧
    (run sid inst s ops).2.1 = (specRun sid inst (abs s) ops).2.1 ∧
    (run sid inst s ops).2.2.map Event.spec = (specRun sid inst (abs s) ops).2.2 := by
  induction ops generalizing s with
  | nil => exact ⟨h, rfl, rfl, rfl⟩
  | cons op ops ih =>
    have h1 := step_sim (inst := inst) h op ha.1
    have h2 := ih h1.1 (by rw [h1.2.1]; exact ha.2)
    simp only [run, specRun, List.map_append]
    rw [← h1.2.1]
    exact ⟨h2.1, h2.2.1, by rw [h2.2.2.1, h1.2.2.1], by rw [h2.2.2.2, h1.2.2.2]⟩

variable (sid inst)

/-- What a client can see of a collection agrees with the list `l`. -/
structure Shows (s : State α ι) (l : List α) : Prop where
  len : len s = l.length
  iter : iter s = l.map (fun e => .ok (some e))
  values : values s = l
  contains : ∀ e, contains sid s e = (Spec.find sid l (sid e)).isSome
  getId : ∀ k, getId s k = match Spec.find sid l k with
    | some e => .ok (some e) | none => .error .keyError
  getPos : ∀ i, getPos s i = match pyGet l i with
    | some e => .ok (some e) | none => .error .indexError
  indexOf : ∀ k, indexOf s k = match l.findIdx? (fun e => sid e = k) with
    | some j => .ok j | none => .error .valueError

theorem shows_of_inv {s : State α ι} (h : Inv sid s) : Shows sid s (abs s) where
  len := len_eq h
  iter := iter_eq h
  values := rfl
  contains e := has_eq h (sid e)
  getId k := by
    unfold getId
    rcases get?_eq h k with ⟨h1, h2⟩ | ⟨A, B, e, hel, hs, h1, h2⟩
    · simp [h1, h2]
    · rw [h1, h2]
      show slot s _ = _
      rw [slot_nat, hel]; simp
  getPos i := getPos_eq h i
  indexOf k := indexOf_eq h k

/-- **C01.** Start from any list of distinct objects and perform any history of allowed API calls
(add, add of lists, remove by id or position, replace by id with an object new to the collection, remake, clear):
what the collection shows is exactly the abstract list, it has no duplicates, and exactly the same calls raise
exactly the same exceptions as on the abstract list. -/
theorem C01_refines_ordered_map (es : List α) (hes : Spec.Distinct sid es) (ops : List (Op α ι))
    (ha : AllowedRun sid inst es ops) :
    let r := run sid inst (init sid es) ops
    let l := specRun sid inst es ops
    Shows sid r.1 l.1 ∧ Spec.Distinct sid l.1 ∧ r.2.1 = l.2.1 := by
  obtain ⟨h0, h1⟩ := init_inv es hes
  have h := run_sim (inst := inst) ops h0 (by rw [h1]; exact ha)
  rw [h1] at h
  exact ⟨h.2.1 ▸ shows_of_inv sid h.1, h.2.1 ▸ distinct h.1, h.2.2.1⟩

/-- **C04.** The callbacks fired along any allowed history are exactly those of the abstract list:
one `add` per object really added, one `remove`/`replace` per successful removal/replacement, none otherwise. -/
theorem C04_events_match (es : List α) (hes : Spec.Distinct sid es) (ops : List (Op α ι))
    (ha : AllowedRun sid inst es ops) :
    (run sid inst (init sid es) ops).2.2.map Event.spec = (specRun sid inst es ops).2.2 := by
  obtain ⟨h0, h1⟩ := init_inv es hes
  have h := run_sim (inst := inst) ops h0 (by rw [h1]; exact ha)
  rw [h1] at h
  exact h.2.2.2

/-- **C04**, failed calls fire nothing, whatever the state and the operation (single-object operations). -/
theorem C04_failure_is_silent (s : State α ι) (op : Op α ι) (hop : ∀ es, op ≠ .addMany es)
    (hf : (step sid inst s op).2.1 ≠ none) :
    (step sid inst s op).2.2 = [] ∧ (step sid inst s op).1 = s := by
  cases op with
  | add e => simp only [step] at *; split at hf <;> simp_all
  | addMany es => exact absurd rfl (hop es)
  | removeId k =>
    simp only [step, removeId, removeKey] at *
    split at hf
    · split at hf
      · simp_all
      · split at hf
        · simp_all
        · split at hf <;> simp_all
    · simp_all
  | removePos i =>
    simp only [step, removePos, removeKey] at *
    split at hf
    · simp_all
    · simp_all
    · split at hf
      · simp_all
      · split at hf
        · simp_all
        · split at hf <;> simp_all
  | replaceId k e =>
    simp only [step, replaceId, replaceAt] at *
    split at hf
    · split at hf
      · simp_all
      · split at hf
        · simp_all
        · split at hf <;> simp_all
    · simp_all
  | replacePos i e =>
    simp only [step, replacePos, replaceAt] at *
    split at hf
    · split at hf
      · simp_all
      · split at hf
        · split at hf <;> simp_all
        · simp_all
    · simp_all
  | remake => simp [step] at hf
  | clear => simp [step] at hf

/-- an observer that only listens to the callbacks -/
def replay (l : List α) : List (Event α) → List α
  | [] => l
  | .add e :: evs => replay (l ++ [e]) evs
  | .remove e :: evs => replay (l.filter (fun x => sid x ≠ sid e)) evs
  | .replace _ :: evs => replay l evs

theorem replay_append (l : List α) (a b : List (Event α)) :
    replay sid l (a ++ b) = replay sid (replay sid l a) b := by
  induction a generalizing l with
  | nil => rfl
  | cons x a ih => cases x <;> simp [replay, ih]

/-- operations whose events carry everything (neither a replacement nor `clear`) -/
def Replayable : Op α ι → Prop
  | .replaceId _ _ | .replacePos _ _ | .clear => False
  | _ => True

theorem spec_map_inj : ∀ {a b : List (Event α)}, a.map Event.spec = b.map Event.spec → a = b := by
  intro a
  induction a with
  | nil => intro b h; cases b with | nil => rfl | cons => simp at h
  | cons x a ih =>
    intro b h
    cases b with
    | nil => simp at h
    | cons y b =>
      simp only [List.map_cons, List.cons.injEq] at h
      rw [ih h.2]
      congr 1
      cases x <;> cases y <;> simp_all [Event.spec]

theorem add1_replay {s : State α ι} (h : Inv sid s) (e : α) :
    replay sid (abs s) (add1 sid s e).2 = abs (add1 sid s e).1 := by
  rw [(add1_sim h e).2]
  unfold add1 Spec.add
  rw [has_eq h]
  split <;> simp [replay]

theorem addMany_replay (es : List α) {s : State α ι} (h : Inv sid s) :
    replay sid (abs s) (addMany sid inst s es).2.2 = abs (addMany sid inst s es).1 := by
  induction es generalizing s with
  | nil => rfl
  | cons e es ih =>
    unfold addMany
    split
    · simp only [replay_append, add1_replay sid h]
      exact ih (add1_sim h e).1
    · rfl

theorem step_replay {s : State α ι} (h : Inv sid s) (op : Op α ι) (hr : Replayable op) :
    replay sid (abs s) (step sid inst s op).2.2 = abs (step sid inst s op).1 := by
  have ha : Allowed sid (abs s) op := by cases op <;> simp_all [Allowed, Replayable]
  cases op with
  | add e =>
    simp only [step]
    split
    · exact add1_replay sid h e
    · rfl
  | addMany es => exact addMany_replay sid inst es h
  | removeId k =>
    have hs := step_sim (inst := inst) h (.removeId k) ha
    rw [hs.2.1]
    have h4 := hs.2.2.2
    simp only [specStep, Spec.removeId] at *
    cases hf : Spec.find sid (abs s) k with
    | none =>
      rw [hf] at h4
      simp only [List.map_eq_nil_iff] at h4
      rw [h4]; rfl
    | some e =>
      rw [hf] at h4
      have : (step sid inst s (.removeId k)).2.2 = [.remove e] := spec_map_inj (by rw [h4]; rfl)
      rw [this]
      have hk : sid e = k := by simpa using List.find?_some hf
      subst hk; rfl
  | removePos i =>
    have hs := step_sim (inst := inst) h (.removePos i) ha
    rw [hs.2.1]
    have h4 := hs.2.2.2
    simp only [specStep, Spec.removePos] at *
    cases hp : pyIdx (abs s).length i with
    | none =>
      rw [hp] at h4
      simp only [List.map_eq_nil_iff] at h4
      rw [h4]; rfl
    | some n =>
      rw [hp] at h4
      have hn : n < (abs s).length := by
        unfold pyIdx at hp
        split at hp
        · split at hp <;> simp at hp; omega
        · split at hp <;> simp at hp; omega
      simp only [List.getElem?_eq_getElem hn, Option.map_some, Option.toList_some] at h4
      have : (step sid inst s (.removePos i)).2.2 = [.remove (abs s)[n]] := spec_map_inj (by rw [h4]; rfl)
      rw [this]
      simp only [replay]
      have hab : abs s = (abs s).take n ++ (abs s)[n] :: (abs s).drop (n+1) := by
        rw [List.getElem_cons_drop, List.take_append_drop]
      rw [erase_filter (distinct h) hab, List.eraseIdx_eq_take_drop_succ]
  | replaceId k e => exact hr.elim
  | replacePos i e => exact hr.elim
  | remake => exact (remake_sim h).2.symm
  | clear => exact hr.elim

theorem run_replay (ops : List (Op α ι)) {s : State α ι} (h : Inv sid s) (hr : ∀ op ∈ ops, Replayable op) :
    replay sid (abs s) (run sid inst s ops).2.2 = abs (run sid inst s ops).1 := by
  induction ops generalizing s with
  | nil => rfl
  | cons op ops ih =>
    have h0 := hr op (by simp)
    have ha : Allowed sid (abs s) op := by cases op <;> simp_all [Allowed, Replayable]
    have h1 := (step_sim (inst := inst) h op ha).1
    simp only [run, replay_append, step_replay sid inst h op h0]
    exact ih h1 (fun o ho => hr o (List.mem_cons_of_mem _ ho))

/-- **C04**, an observer that starts from the initial list and only replays `add` and `remove` callbacks always
knows the collection, for every history of additions, removals and `remake`. -/
theorem C04_replay (es : List α) (hes : Spec.Distinct sid es) (ops : List (Op α ι))
    (hr : ∀ op ∈ ops, Replayable op) :
    let r := run sid inst (init sid es) ops
    iter r.1 = (replay sid es r.2.2).map (fun e => .ok (some e)) := by
  obtain ⟨h0, h1⟩ := init_inv es hes
  have h := run_replay sid inst ops h0 hr
  have ha : ∀ (ops : List (Op α ι)) (l : List α), (∀ op ∈ ops, Replayable op) → AllowedRun sid inst l ops := by
    intro ops
    induction ops with
    | nil => intro l _; trivial
    | cons op ops ih =>
      intro l hr
      refine ⟨?_, ih _ (fun o ho => hr o (List.mem_cons_of_mem _ ho))⟩
      have := hr op (by simp)
      cases op <;> simp_all [Allowed, Replayable]
  have hi := (run_sim (inst := inst) ops h0 (ha ops _ hr)).1
  rw [h1] at h
  simp only [h]
  exact iter_eq hi

/-! ### C02: replacing by position -/

/-- The claim of C02 for one collection: wherever `coll[i]` shows an object, `coll[i] = e` (with `e` of the right
type and new to the collection) shows the same list with the object at that position replaced. -/
def ReplacesPosition (s : State α ι) : Prop :=
  ∀ (i : Int) (e : α), inst e = true → s.index.get? (sid e) = none → ∀ n, pyIdx (abs s).length i = some n →
    iter (replacePos sid inst s i e).1 = ((abs s).set n e).map (fun e => .ok (some e))

/-- **C02, part that holds**: in a collection without holes (nothing removed since it was built or since the last
`remake`) and for non-negative positions. Missing: collections with holes, negative positions – see the two
counterexamples below. -/
theorem C02_replace_by_position_partial {s : State α ι} (h : Inv sid s) (hno : ∀ o ∈ s.elems, o ≠ none)
    (n : Nat) (hn : n < (abs s).length) (e : α) (hi : inst e = true)
    (hf : s.index.get? (sid e) = none ∨ (abs s)[n]?.map sid = some (sid e)) :
    Shows sid (replacePos sid inst s n e).1 ((abs s).set n e) ∧ (replacePos sid inst s n e).2.1 = none := by
  have hel : s.elems = (abs s).map some := by
    unfold abs
    generalize s.elems = l at hno
    induction l with
    | nil => rfl
    | cons a t ih =>
      cases a with
      | none => exact absurd rfl (hno none (by simp))
      | some a => rw [fm_some, List.map_cons, ← ih (fun o ho => hno o (List.mem_cons_of_mem _ ho))]
  have hlen : s.elems.length = (abs s).length := by rw [hel]; simp [abs]
  obtain ⟨A, B, hAB, hA⟩ : ∃ A B, abs s = A ++ (abs s)[n] :: B ∧ A.length = n := by
    refine ⟨(abs s).take n, (abs s).drop (n+1), ?_, by simp; omega⟩
    rw [List.getElem_cons_drop, List.take_append_drop]
  generalize ho : (abs s)[n] = o at hAB
  have hel' : s.elems = A.map some ++ some o :: B.map some := by
    rw [hel, hAB, List.map_append, List.map_cons]
  have hidx : pyIdx s.elems.length (n : Int) = some n := by
    unfold pyIdx; simp; omega
  have hfr : sid e = sid o ∨ s.index.get? (sid e) = none := by
    rcases hf with hf | hf
    · exact Or.inr hf
    · left
      rw [List.getElem?_eq_getElem hn, ho] at hf
      simpa using hf.symm
  have h3 := replaceAt_sim h (A.map some) (B.map some) o e hel' hfr
  have hAl : (A.map some).length = n := by simpa using hA
  rw [hAl] at h3
  have hr : replacePos sid inst s n e = replaceAt sid s (sid o) n n e := by
    unfold replacePos
    simp only [hi, if_true, hidx]
    have : s.elems[n]? = some (some o) := by rw [hel', ← hAl]; simp
    simp only [this]
  have hres : abs (replacePos sid inst s n e).1 = (abs s).set n e := by
    rw [hr, h3.1, hAB, ← hA]
    simp [abs]
  refine ⟨?_, by rw [hr, h3.1]⟩
  rw [← hres]
  exact shows_of_inv sid (hr ▸ h3.2)

end

/-! ### Concrete instances: objects are numbers, the id is the number itself -/

/-- non-vacuity of C01/C04: a history with every allowed kind of operation, including failing ones -/
example : AllowedRun (α := Nat) (ι := Nat) id (fun n => n < 100) [1, 2, 3]
    [.add 4, .removeId 2, .removePos 0, .replaceId 3 7, .add 7, .addMany [8, 200, 9], .removeId 55, .remake,
     .removePos (-1), .clear, .add 5] := by
  simp [AllowedRun, Allowed, specStep, Spec.find, Spec.add, Spec.removeId, Spec.removePos, pyIdx]

example : ∀ op ∈ ([.add 4, .removeId 2, .removePos (-1), .remake, .addMany [7, 8]] : List (Op Nat Nat)),
    Replayable op := by simp [Replayable]

example : (specRun (α := Nat) (ι := Nat) id (fun n => n < 100) [1, 2, 3]
    [.add 4, .removeId 2, .removePos 0, .replaceId 3 7]).1 = [7, 4] := by decide

/-- non-vacuity of C02's partial theorem -/
example : Inv (id : Nat → Nat) (init id [1, 2, 3]) ∧ (∀ o ∈ (init (ι := Nat) id [1, 2, 3]).elems, o ≠ none) ∧
    1 < (abs (init (ι := Nat) id [1, 2, 3])).length ∧
    (init (ι := Nat) id [1, 2, 3]).index.get? 9 = none :=
  ⟨(init_inv [1, 2, 3] (by simp [Spec.Distinct])).1, by simp [init], by simp [init, abs], by decide⟩

/-- **C02 fails in the code (1).** After removing the first of three objects, the collection shows `[2, 3]`;
`coll[1] = 9` should give `[2, 9]` but overwrites the object shown at position 0: `[9, 3]`. -/
theorem C02_counterexample_hole :
    let s := (removeId (init (ι := Nat) id [1, 2, 3]) 1).1
    iter s = [.ok (some 2), .ok (some 3)] ∧
    iter (replacePos id (fun _ => true) s 1 9).1 = [.ok (some 9), .ok (some 3)] := by
  exact ⟨rfl, rfl⟩

/-- **C02 fails in the code (2).** `coll[-1] = 9` on `[1, 2, 3]` moves the new object to the front: `[9, 1, 2]`. -/
theorem C02_counterexample_negative :
    iter (replacePos id (fun _ => true) (init (ι := Nat) id [1, 2, 3]) (-1) 9).1 =
      [.ok (some 9), .ok (some 1), .ok (some 2)] := by
  rfl

/-- **C02 is false of the code.** Not every collection reachable by allowed operations replaces by position. -/
theorem C02_not_replaces_position :
    ¬ ∀ (ops : List (Op Nat Nat)), AllowedRun id (fun _ => true) [1, 2, 3] ops →
      ReplacesPosition id (fun _ => true) (run id (fun _ => true) (init id [1, 2, 3]) ops).1 := by
  intro h
  have h1 := h [.removeId 1] (by simp [AllowedRun, Allowed]) 1 9 rfl (by decide) 1 (by decide)
  have h2 := C02_counterexample_hole.2
  simp only [run, step] at h1
  rw [h2] at h1
  revert h1
  decide

/-! ### C03: one entry per object -/

/-- The claim of C03 for one replacement: afterwards `values()`, `len` and iteration list the same objects, and no
object twice. -/
def OneEntryEach (s : State Nat Nat) : Prop :=
  iter s = (values s).map (fun e => .ok (some e)) ∧ (values s).Nodup

/-- **C03, part that holds**: any history of allowed operations leaves `values()`, iteration and `len` in agreement
and without duplicates (replacements are by an object new to the collection). Missing: replacement by an
object that the collection already holds at another place, see `C03_counterexample`. -/
theorem C03_one_entry_partial {α ι : Type} [DecidableEq ι] (sid : α → ι) (inst : α → Bool) (es : List α)
    (hes : Spec.Distinct sid es) (ops : List (Op α ι)) (ha : AllowedRun sid inst es ops) :
    let s := (run sid inst (init sid es) ops).1
    iter s = (values s).map (fun e => .ok (some e)) ∧ len s = (values s).length ∧ ((values s).map sid).Nodup := by
  obtain ⟨h, hd, _⟩ := C01_refines_ordered_map sid inst es hes ops ha
  simp only at h hd ⊢
  rw [h.values]
  exact ⟨h.iter, h.len, hd⟩

/-- **C03 is false of the code**: `coll[1's id] = object 2` on `[1, 2]` leaves `values() = [2, 2]`
while `len` is 1 and iteration shows one object. -/
theorem C03_counterexample :
    let s := (replaceId id (fun _ => true) (init (ι := Nat) id [1, 2]) 1 2).1
    values s = [2, 2] ∧ len s = 1 ∧ iter s = [.ok (some 2)] ∧ ¬ OneEntryEach s := by
  have h : values (replaceId id (fun _ => true) (init (ι := Nat) id [1, 2]) 1 2).1 = [2, 2] := by decide
  refine ⟨h, by decide, rfl, ?_⟩
  intro hh
  rw [OneEntryEach, h] at hh
  simp at hh

end Verif.OC
