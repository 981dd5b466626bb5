import Verif.Run.CheckModel
import Mathlib.Tactic.Tauto
/-!
# C203: runs that make no sense are refused before the first step, and nothing else is
-/
namespace Verif.Run.Check

/-! ## Specification -/

/-- what `_ref_as` stands for -/
def Says : RefAs → Ref → Prop
  | .absent, _ => False
  | .one x, r => x = some r
  | .many xs, r => some r ∈ xs

/-- the environment has an object that serves as `r` -/
def Found (env : List Item) (r : Ref) : Prop := ∃ i ∈ env, Says i.refAs r

/-- an object is switched on, or has no switch -/
def Active (i : Item) : Prop := i.on ≠ some false

/-- an object lacks nothing: what is not set is taken from the environment, and objects that may not take it have it set
(only wave and wind objects may do without) -/
def Supplied (env : List Item) (i : Item) : Prop :=
  ∀ r, i.attr r = some false → if i.defaults then Found env r else i.kind ≠ .plain

/-- in the direction of the run, `t` comes before the start of the model -/
def BeforeStart (m : Inputs) (t : Int) : Prop := if m.step < 0 then m.start < t else t < m.start

/-- the oil of a spill is heavier than the water it is in -/
def Sinks (s : SpillIn) : Prop := s.weatherable = true ∧ ∃ t w o, s.water = some (t, w, o) ∧ w < o

/-- runs the model can do, apart from the objects in its collections and from the sign of the duration -/
structure SpillsOk (m : Inputs) : Prop where
  notBefore : ∀ s ∈ m.spills, s.on = true → ¬ BeforeStart m s.release
  floats : ∀ s ∈ m.spills, s.on = true → ¬ Sinks s
  instant : m.step < 0 → ∀ s ∈ m.spills, s.on = true → s.endRelease = s.release
  inert : m.step < 0 → m.weathering = true → ∀ s ∈ m.spills, s.on = true → s.weatherable = false

/-- time step and duration have the same sign -/
def SameSign (m : Inputs) : Prop := (m.step < 0 → m.duration ≤ 0) ∧ (0 < m.step → 0 ≤ m.duration)

/-- the runs that make sense -/
structure Sensible (m : Inputs) : Prop where
  sign : SameSign m
  spills : SpillsOk m
  supplied : ∀ i ∈ m.items, Active i → Supplied m.env i

/-- **C203 in full**: the first step goes ahead for the runs that make sense and for no others. -/
def C203_claim : Prop := ∀ m : Inputs, m.step ≠ 0 → ((∃ msgs, firstStep m = .ok msgs) ↔ Sensible m)

/-! ## Lemmas -/

theorem exists_cons {α : Type} (a : α) (l : List α) (p : α → Prop) :
    (∃ x ∈ a :: l, p x) ↔ p a ∨ ∃ x ∈ l, p x := by simp

theorem refAs_matches (a : RefAs) (r : Ref) : a.matches r = true ↔ Says a r := by
  cases a with
  | absent => simp [RefAs.matches, Says]
  | one x => simp [RefAs.matches, Says]
  | many xs => simp [RefAs.matches, Says]

theorem findByRef_isNone (env : List Item) (r : Ref) : (findByRef env r).isNone = true ↔ ¬ Found env r := by
  simp only [findByRef, Option.isNone_iff_eq_none, List.find?_eq_none, Found, refAs_matches, not_exists, not_and]

theorem off_iff (i : Item) : i.off = true ↔ ¬ Active i := by
  simp [Item.off, Active]

theorem mem_refs (r : Ref) : r ∈ refs := by cases r <;> simp [refs]

theorem validateRefs_valid (i : Item) :
    (validateRefs i).2 = true ↔ ∀ r, i.attr r = some false → i.defaults = true := by
  simp only [validateRefs, refs, List.foldl_cons, List.foldl_nil]
  constructor
  · intro h r hr
    by_contra hd
    cases r <;> by_cases h1 : i.attr .wind = some false <;> by_cases h2 : i.attr .water = some false <;>
      by_cases h3 : i.attr .waves = some false <;> simp_all
  · intro h
    by_cases hd : i.defaults = true
    · split_ifs <;> rfl
    · have h1 : ∀ r, i.attr r ≠ some false := fun r hr => hd (h r hr)
      rw [if_neg (h1 _), if_neg (h1 _), if_neg (h1 _)]

theorem validateRefs_msg (i : Item) (x : Msg) :
    x ∈ (validateRefs i).1 ↔ ∃ r, i.attr r = some false ∧ x = .noRefObject i.name r := by
  simp only [validateRefs, refs, List.foldl_cons, List.foldl_nil]
  constructor
  · intro h
    by_cases h1 : i.attr .wind = some false <;> by_cases h2 : i.attr .water = some false <;>
      by_cases h3 : i.attr .waves = some false <;> simp only [h1, h2, h3, if_true, if_false, List.nil_append,
        List.mem_append, List.mem_singleton, List.not_mem_nil] at h
    all_goals first
      | exact h.elim
      | exact ⟨_, h1, h⟩
      | exact ⟨_, h2, h⟩
      | exact ⟨_, h3, h⟩
      | (rcases h with (h | h) | h
         · exact ⟨_, h1, h⟩
         · exact ⟨_, h2, h⟩
         · exact ⟨_, h3, h⟩)
      | (rcases h with h | h
         · first | exact ⟨_, h1, h⟩ | exact ⟨_, h2, h⟩
         · first | exact ⟨_, h2, h⟩ | exact ⟨_, h3, h⟩)
  · rintro ⟨r, hr, rfl⟩
    cases r <;> by_cases h1 : i.attr .wind = some false <;> by_cases h2 : i.attr .water = some false <;>
      by_cases h3 : i.attr .waves = some false <;> simp_all

theorem validate_item_valid (i : Item) :
    i.validate.2 = true ↔ ∀ r, i.attr r = some false → i.kind = .plain → i.defaults = true := by
  unfold Item.validate
  cases hk : i.kind with
  | plain => simp [validateRefs_valid]
  | windObj c => simp
  | wavesObj => simp

theorem loop_valid (is : List Item) :
    (validateLoop is).2.1 = true ↔
      ∀ i ∈ is, Active i → ∀ r, i.attr r = some false → i.kind = .plain → i.defaults = true := by
  induction is with
  | nil => simp [validateLoop]
  | cons i is ih =>
    simp only [validateLoop]
    by_cases h : i.off = true
    · simp only [h, if_true, List.forall_mem_cons, ih]
      rw [off_iff] at h
      tauto
    · simp only [h, List.forall_mem_cons]
      rw [off_iff, not_not] at h
      simp only [Bool.false_eq_true, if_false, Bool.and_eq_true, ih, validate_item_valid]
      tauto

theorem loop_refs (is : List Item) (r : Ref) :
    r ∈ (validateLoop is).2.2 ↔ ∃ i ∈ is, Active i ∧ i.defaults = true ∧ (i.attr r).isSome = true := by
  induction is with
  | nil => simp [validateLoop]
  | cons i is ih =>
    simp only [validateLoop]
    by_cases h : i.off = true
    · simp only [h, if_true, exists_cons, ih]
      rw [off_iff] at h
      tauto
    · simp only [h, exists_cons]
      rw [off_iff, not_not] at h
      simp only [Bool.false_eq_true, if_false]
      by_cases hd : i.defaults = true
      · simp only [hd, if_true, List.mem_filter, mem_refs, true_and, Bool.or_eq_true, List.contains_iff_mem, ih]
        tauto
      · simp only [hd, Bool.false_eq_true, if_false, ih]
        tauto

theorem env_valid (env : List Item) (rs : List Ref) :
    (validateEnv env rs).2 = true ↔ ∀ r ∈ rs, Found env r := by
  simp only [validateEnv, List.isEmpty_iff, List.filter_eq_nil_iff, findByRef_isNone, not_not]

/-- validity of the objects in the collections, in the terms of the code -/
theorem validate_valid (m : Inputs) :
    (validate m).2 = true ↔ ∀ i ∈ m.items, Active i → ∀ r, i.attr r ≠ none →
      if i.defaults then Found m.env r else (i.attr r = some false → i.kind ≠ .plain) := by
  simp only [validate, Bool.and_eq_true, loop_valid, env_valid, loop_refs]
  constructor
  · rintro ⟨h1, h2⟩ i hi ha r hr
    split_ifs with hd
    · exact h2 r ⟨i, hi, ha, hd, Option.isSome_iff_ne_none.mpr hr⟩
    · intro hf hk; exact hd (h1 i hi ha r hf hk)
  · intro h
    refine ⟨fun i hi ha r hf hk => ?_, ?_⟩
    · by_contra hd
      have := h i hi ha r (by rw [hf]; exact Option.some_ne_none _)
      rw [if_neg hd] at this
      exact this hf hk
    · rintro r ⟨i, hi, ha, hd, hs⟩
      have := h i hi ha r (Option.isSome_iff_ne_none.mp hs)
      rwa [if_pos hd] at this

theorem oilMsgs_cases (s : SpillIn) :
    (Sinks s ∧ oilMsgs s = .error .sinker) ∨
    (¬ Sinks s ∧ ∃ o, oilMsgs s = .ok o ∧
      ∀ x, x ∈ o ↔ s.weatherable = true ∧ ∃ t w d, s.water = some (t, w, d) ∧ t < s.pour ∧ x = .pourPoint t s.pour) := by
  unfold oilMsgs Sinks
  by_cases hw : s.weatherable = true
  · simp only [hw, if_true, true_and]
    rcases hs : s.water with _ | ⟨t, w, d⟩
    · simp
    · by_cases hlt : w < d
      · left; exact ⟨⟨t, w, d, rfl, hlt⟩, by simp [hlt]⟩
      · right
        refine ⟨?_, if t < s.pour then [.pourPoint t s.pour] else [], by simp [hlt], ?_⟩
        · rintro ⟨a, b, c, h, hbc⟩
          simp only [Option.some.injEq, Prod.mk.injEq] at h
          obtain ⟨-, rfl, rfl⟩ := h
          exact hlt hbc
        · intro x
          by_cases hp : t < s.pour
          · simp only [hp, if_true, List.mem_singleton]
            constructor
            · rintro rfl; exact ⟨t, w, d, rfl, hp, rfl⟩
            · rintro ⟨a, b, c, h, _, rfl⟩
              simp only [Option.some.injEq, Prod.mk.injEq] at h
              obtain ⟨rfl, -, -⟩ := h; rfl
          · simp only [hp, if_false, List.not_mem_nil, false_iff]
            rintro ⟨a, b, c, h, hlt', _⟩
            simp only [Option.some.injEq, Prod.mk.injEq] at h
            obtain ⟨rfl, -, -⟩ := h; exact hp hlt'
  · simp [hw]

theorem timeMsgs_valid (m : Inputs) (s : SpillIn) (h0 : m.step ≠ 0) :
    (timeMsgs m s).2 = true ↔ ¬ BeforeStart m s.release := by
  unfold timeMsgs BeforeStart
  split_ifs with h1 h2 h3 <;> simp <;> omega

theorem timeMsgs_msg (m : Inputs) (s : SpillIn) (h0 : m.step ≠ 0) (x : Msg) :
    x ∈ (timeMsgs m s).1 ↔ (BeforeStart m s.release ∧ x = .releasedBefore s.name s.release m.start) ∨
      (s.release ≠ m.start ∧ ¬ BeforeStart m s.release ∧ x = .releasedLater s.name) := by
  by_cases h2 : m.step < 0
  · have h3 : ¬ m.step > 0 := by omega
    simp only [timeMsgs, BeforeStart, h2, h3, and_false, and_true, false_or, if_true]
    by_cases ha : s.release < m.start
    · have hb : ¬ m.start < s.release := by omega
      have hc : s.release ≠ m.start := by omega
      simp [ha, hb, hc]
    · by_cases hb : m.start < s.release
      · simp [ha, hb]
      · have hc : s.release = m.start := by omega
        simp [hc]
  · have h3 : m.step > 0 := by omega
    simp only [timeMsgs, BeforeStart, h2, h3, and_false, and_true, or_false, if_false]
    by_cases ha : s.release < m.start
    · have hb : ¬ m.start < s.release := by omega
      simp [ha, hb]
    · by_cases hb : m.start < s.release
      · have hc : s.release ≠ m.start := by omega
        simp [ha, hb, hc]
      · have hc : s.release = m.start := by omega
        simp [hc]

/-- when the checks of one spill go through -/
theorem spillCheck_ok (m : Inputs) (s : SpillIn) :
    (∃ r, spillCheck m s = .ok r) ↔ ¬ (s.endRelease ≠ s.release ∧ m.step < 0) ∧ ¬ Sinks s := by
  unfold spillCheck
  by_cases h : s.release ≠ s.endRelease ∧ m.step < 0
  · have h' : s.endRelease ≠ s.release ∧ m.step < 0 := ⟨fun e => h.1 e.symm, h.2⟩
    simp [h, h'.1]
  · have h' : ¬ (s.endRelease ≠ s.release ∧ m.step < 0) := fun e => h ⟨fun q => e.1 q.symm, e.2⟩
    rw [if_neg h]
    rcases oilMsgs_cases s with ⟨hs, e⟩ | ⟨hs, o, e, -⟩
    · simp [e, hs]
    · simp only [e, hs, h']; simp

theorem spillCheck_valid {m : Inputs} {s : SpillIn} {r : List Msg × Bool} (h : spillCheck m s = .ok r)
    (h0 : m.step ≠ 0) : r.2 = true ↔ ¬ BeforeStart m s.release := by
  unfold spillCheck at h
  split_ifs at h with h1
  split at h
  · exact absurd h (by simp)
  · simp only [Except.ok.injEq] at h
    rw [← h, timeMsgs_valid m s h0]

theorem spillLoop_ok (m : Inputs) (h0 : m.step ≠ 0) (ss : List SpillIn) :
    (∃ msgs, spillLoop m ss = .ok (msgs, true)) ↔ ∀ s ∈ ss, s.on = true →
      ¬ BeforeStart m s.release ∧ ¬ Sinks s ∧ (m.step < 0 → s.endRelease = s.release) := by
  induction ss with
  | nil => simp [spillLoop]
  | cons s ss ih =>
    simp only [List.forall_mem_cons, ← ih, spillLoop]
    by_cases hon : s.on = true
    · simp only [hon, if_true, true_implies]
      have hc := spillCheck_ok m s
      rcases hck : spillCheck m s with e | r
      · rw [hck] at hc
        have hn : ¬ (¬ (s.endRelease ≠ s.release ∧ m.step < 0) ∧ ¬ Sinks s) := by rw [← hc]; simp
        constructor
        · rintro ⟨_, h⟩; exact absurd h (by simp)
        · rintro ⟨⟨_, h2, h3⟩, -⟩
          exact absurd ⟨fun q => q.1 (h3 q.2), h2⟩ hn
      · have hv := spillCheck_valid hck h0
        have hp := hc.mp ⟨r, hck⟩
        have h3 : m.step < 0 → s.endRelease = s.release := fun q => by
          by_contra e; exact hp.1 ⟨e, q⟩
        simp only
        rcases hl : spillLoop m ss with e | r'
        · simp
        · simp only [Except.ok.injEq, Prod.mk.injEq, Bool.and_eq_true]
          constructor
          · rintro ⟨ms, h1, h2, h4⟩
            exact ⟨⟨hv.mp h2, hp.2, h3⟩, ⟨r'.1, by rw [← h4]⟩⟩
          · rintro ⟨⟨h1, -, -⟩, ms, h4⟩
            exact ⟨_, rfl, hv.mpr h1, by rw [h4]⟩
    · simp [hon]

theorem spillLoop_fst (m : Inputs) (ss : List SpillIn) (r : List Msg × Bool) (h : spillLoop m ss = .ok r) (x : Msg) :
    x ∈ r.1 ↔ ∃ s ∈ ss, s.on = true ∧ ∃ q, spillCheck m s = .ok q ∧ x ∈ q.1 := by
  induction ss generalizing r with
  | nil => simp only [spillLoop, Except.ok.injEq] at h; subst h; simp
  | cons s ss ih =>
    simp only [spillLoop] at h
    by_cases hon : s.on = true
    · simp only [hon, if_true] at h
      rcases hck : spillCheck m s with e | q
      · rw [hck] at h; simp at h
      · rw [hck] at h
        simp only at h
        rcases hl : spillLoop m ss with e | r'
        · rw [hl] at h; simp at h
        · rw [hl] at h
          simp only [Except.ok.injEq] at h
          subst h
          rw [List.mem_append, ih r' hl, exists_cons]
          simp [hon, hck]
    · simp only [hon] at h
      simp only [Bool.false_eq_true, if_false] at h
      rw [ih r h, exists_cons]
      simp [hon]

theorem backwardCheck_none (m : Inputs) : backwardCheck m = none ↔
    (m.step < 0 → m.duration ≤ 0) ∧
    (m.step < 0 → m.weathering = true → ∀ s ∈ m.spills, s.on = true → s.weatherable = false) := by
  unfold backwardCheck
  split_ifs with h1 h2 h3
  · simp only [false_iff]; omega
  · simp only [false_iff]
    rintro ⟨-, h⟩
    simp only [anyWeatherable, Bool.and_eq_true, List.any_eq_true] at h3
    obtain ⟨hw, s, hs, hon, hwe⟩ := h3
    rw [h h1 hw s hs hon] at hwe
    exact absurd hwe (by simp)
  · simp only [true_iff]
    refine ⟨fun _ => by omega, fun _ hw s hs hon => ?_⟩
    simp only [anyWeatherable, Bool.and_eq_true, List.any_eq_true, not_and, not_exists] at h3
    have := h3 hw s hs hon
    simpa using this
  · simp [h1]

theorem firstStep_ok (m : Inputs) : (∃ msgs, firstStep m = .ok msgs) ↔
    (∃ msgs, spillLoop m m.spills = .ok (msgs, true)) ∧ backwardCheck m = none ∧ (validate m).2 = true := by
  unfold firstStep checkInputs
  rcases hl : spillLoop m m.spills with e | ⟨ms, v⟩
  · simp
  · rcases hb : backwardCheck m with _ | e
    · cases v <;> cases hv : (validate m).2 <;> simp
    · simp

/-! ## C203 -/

/-- **C203 (partial)**: for every model with a time step, the first step goes ahead exactly if
* no spill that is on is released before the start, in the direction of the run,
* no spill that is on has an oil heavier than its water,
* backwards: all spills that are on release at once, the duration is not positive, and no substance weathers while a
  weatherer is on,
* every active object may take `wind`, `water` and `waves` from the environment and finds there each one it has an attribute
  for, or has none of them unset.
Missing for the full claim: a positive time step with a negative duration is not refused (`C203_counterexample`), and an object
that has its own wind is refused if the environment has none (`C203_counterexample_own`). -/
theorem C203_partial (m : Inputs) (h0 : m.step ≠ 0) :
    (∃ msgs, firstStep m = .ok msgs) ↔
      SpillsOk m ∧ (m.step < 0 → m.duration ≤ 0) ∧
      ∀ i ∈ m.items, Active i → ∀ r, i.attr r ≠ none →
        if i.defaults then Found m.env r else (i.attr r = some false → i.kind ≠ .plain) := by
  rw [firstStep_ok, spillLoop_ok m h0, backwardCheck_none, validate_valid]
  constructor
  · rintro ⟨h1, ⟨h2, h3⟩, h4⟩
    exact ⟨⟨fun s hs ho => (h1 s hs ho).1, fun s hs ho => (h1 s hs ho).2.1,
      fun hn s hs ho => (h1 s hs ho).2.2 hn, h3⟩, h2, h4⟩
  · rintro ⟨⟨h1, h2, h3, h5⟩, h4, h6⟩
    exact ⟨fun s hs ho => ⟨h1 s hs ho, h2 s hs ho, fun hn => h3 hn s hs ho⟩, ⟨h4, h5⟩, h6⟩

/-- **C203 where it holds**: if a forward run has no negative duration, and what objects have set themselves is in the
environment as well, the first step goes ahead exactly for the runs that make sense. -/
theorem C203_exact (m : Inputs) (h0 : m.step ≠ 0) (hd : 0 < m.step → 0 ≤ m.duration)
    (hs : ∀ i ∈ m.items, Active i → ∀ r, i.attr r = some true → Found m.env r) :
    (∃ msgs, firstStep m = .ok msgs) ↔ Sensible m := by
  rw [C203_partial m h0]
  constructor
  · rintro ⟨h1, h2, h3⟩
    refine ⟨⟨h2, hd⟩, h1, fun i hi ha r hr => ?_⟩
    have := h3 i hi ha r (by rw [hr]; exact Option.some_ne_none _)
    split_ifs with hdf
    · rwa [if_pos hdf] at this
    · rw [if_neg hdf] at this; exact this hr
  · rintro ⟨⟨h1, -⟩, h2, h3⟩
    refine ⟨h2, h1, fun i hi ha r hr => ?_⟩
    cases hb : i.attr r with
    | none => exact absurd hb hr
    | some b =>
      cases b with
      | true =>
        split_ifs
        · exact hs i hi ha r hb
        · intro h; exact absurd h (by simp)
      | false =>
        have := h3 i hi ha r hb
        split_ifs with hdf
        · rwa [if_pos hdf] at this
        · rw [if_neg hdf] at this; exact fun _ => this

/-- **C203, never too lax backwards, never silent**: a run that goes ahead has no spill that is on and released before the start,
none that sinks; a run that is refused without an exception of its own has said why. -/
theorem C203_invalid (m : Inputs) (h0 : m.step ≠ 0) (msgs : List Msg) (h : firstStep m = .error (.invalid msgs)) :
    (∃ s ∈ m.spills, s.on = true ∧ BeforeStart m s.release ∧ .releasedBefore s.name s.release m.start ∈ msgs) ∨
    (∃ i ∈ m.items, Active i ∧ ∃ r, (i.defaults = true ∧ i.attr r ≠ none ∧ ¬ Found m.env r ∧ .notInEnvironment r ∈ msgs) ∨
      (i.defaults = false ∧ i.attr r = some false ∧ i.kind = .plain ∧ .noRefObject i.name r ∈ msgs)) := by
  unfold firstStep checkInputs at h
  rcases hl : spillLoop m m.spills with e | ⟨ms, v⟩
  · rw [hl] at h; simp only [Except.error.injEq] at h
    subst h
    -- the loop over the spills never raises `invalid`
    exfalso
    have key : ∀ ss : List SpillIn, spillLoop m ss ≠ .error (.invalid msgs) := by
      intro ss
      induction ss with
      | nil => simp [spillLoop]
      | cons s ss ih =>
        have hck : spillCheck m s ≠ .error (.invalid msgs) := by
          unfold spillCheck
          split_ifs
          · simp
          · rcases oilMsgs_cases s with ⟨-, e⟩ | ⟨-, o, e, -⟩ <;> rw [e] <;> simp
        simp only [spillLoop]
        split_ifs
        · rcases hc : spillCheck m s with e | r
          · simp only; intro he; rw [hc] at hck; exact hck he
          · simp only
            rcases hl' : spillLoop m ss with e | r'
            · simp only; intro he; rw [hl'] at ih; exact ih he
            · simp
        · exact ih
    exact key _ hl
  · rw [hl] at h
    rcases hb : backwardCheck m with _ | e
    · rw [hb] at h
      simp only at h
      by_cases hv : v = true
      · subst hv
        right
        have hval : (validate m).2 ≠ true := by
          intro hv; rw [hv] at h; simp at h
        have hval' : (validate m).2 = false := by simpa using hval
        rw [hval'] at h
        simp only [Bool.false_and, Except.error.injEq, Err.invalid.injEq] at h
        rw [Ne, validate_valid] at hval
        push Not at hval
        obtain ⟨i, hi, ha, r, hr, hif⟩ := hval
        refine ⟨i, hi, ha, r, ?_⟩
        by_cases hd : i.defaults = true
        · left
          rw [if_pos hd] at hif
          refine ⟨hd, hr, hif, ?_⟩
          rw [← h]
          simp only [List.mem_append, validate, validateEnv]
          left; left; left; left; right
          refine List.mem_map.mpr ⟨r, List.mem_filter.mpr ⟨?_, (findByRef_isNone _ _).mpr hif⟩, rfl⟩
          exact (loop_refs _ _).mpr ⟨i, hi, ha, hd, Option.isSome_iff_ne_none.mpr hr⟩
        · right
          rw [if_neg hd] at hif
          push Not at hif
          have hd' : i.defaults = false := by simpa using hd
          refine ⟨hd', hif.1, hif.2, ?_⟩
          rw [← h]
          simp only [List.mem_append, validate]
          left; left; left; left; left
          have : ∀ is : List Item, i ∈ is → .noRefObject i.name r ∈ (validateLoop is).1 := by
            intro is
            induction is with
            | nil => simp
            | cons j js ih =>
              intro hm
              simp only [validateLoop]
              rcases List.mem_cons.mp hm with rfl | hm
              · have ho : ¬ i.off = true := by rw [off_iff, not_not]; exact ha
                rw [if_neg ho]
                simp only [List.mem_append]
                left
                simp only [Item.validate, hif.2]
                exact (validateRefs_msg i _).mpr ⟨r, hif.1, rfl⟩
              · by_cases ho : j.off = true
                · rw [if_pos ho]; exact ih hm
                · rw [if_neg ho]; simp only [List.mem_append]; right; exact ih hm
          exact this _ hi
      · left
        have hv' : v = false := by simpa using hv
        subst hv'
        have hno : ¬ ∃ ms', spillLoop m m.spills = .ok (ms', true) := by rw [hl]; simp
        simp only [Bool.and_false, Except.error.injEq, Err.invalid.injEq] at h
        have hmem : ∃ s ∈ m.spills, s.on = true ∧ BeforeStart m s.release := by
          by_contra hne
          push Not at hne
          -- otherwise the loop would have been valid
          have hgo : ∀ ss : List SpillIn, (∀ s ∈ ss, s.on = true → ¬ BeforeStart m s.release) → ∀ q,
              spillLoop m ss = .ok q → q.2 = true := by
            intro ss
            induction ss with
            | nil => intro _ q hq; simp only [spillLoop, Except.ok.injEq] at hq; rw [← hq]
            | cons s ss ih =>
              intro hne q hq
              simp only [spillLoop] at hq
              split_ifs at hq with hon
              · rcases hc : spillCheck m s with e | r
                · rw [hc] at hq; simp at hq
                · rw [hc] at hq; simp only at hq
                  rcases hl' : spillLoop m ss with e | r'
                  · rw [hl'] at hq; simp at hq
                  · rw [hl'] at hq
                    simp only [Except.ok.injEq] at hq
                    rw [← hq]
                    simp only [Bool.and_eq_true]
                    exact ⟨(spillCheck_valid hc h0).mpr (hne s (by simp) hon),
                      ih (fun t ht => hne t (by simp [ht])) r' hl'⟩
              · exact ih (fun t ht => hne t (by simp [ht])) q hq
          have := hgo _ hne _ hl
          simp at this
        obtain ⟨s, hs, hon, hbf⟩ := hmem
        refine ⟨s, hs, hon, hbf, ?_⟩
        rw [← h]
        simp only [List.mem_append]
        left; left; right
        rw [show ms = (ms, false).1 from rfl, spillLoop_fst m _ _ hl]
        have hok : ∃ q, spillCheck m s = .ok q := by
          have hgo : ∀ ss : List SpillIn, s ∈ ss → ∀ q, spillLoop m ss = .ok q → ∃ q, spillCheck m s = .ok q := by
            intro ss
            induction ss with
            | nil => simp
            | cons t ts ih =>
              intro hm q hq
              simp only [spillLoop] at hq
              rcases List.mem_cons.mp hm with rfl | hm
              · rw [if_pos hon] at hq
                rcases hc : spillCheck m s with e | r
                · rw [hc] at hq; simp at hq
                · exact ⟨r, rfl⟩
              · split_ifs at hq
                · rcases hc : spillCheck m t with e | r
                  · rw [hc] at hq; simp at hq
                  · rw [hc] at hq; simp only at hq
                    rcases hl' : spillLoop m ts with e | r'
                    · rw [hl'] at hq; simp at hq
                    · exact ih hm r' hl'
                · exact ih hm q hq
          exact hgo _ hs _ hl
        obtain ⟨q, hq⟩ := hok
        refine ⟨s, hs, hon, q, hq, ?_⟩
        unfold spillCheck at hq
        split_ifs at hq
        split at hq
        · exact absurd hq (by simp)
        · simp only [Except.ok.injEq] at hq
          rw [← hq]
          simp only [List.mem_append]
          left; right
          exact (timeMsgs_msg m s h0 _).mpr (.inl ⟨hbf, rfl⟩)
    · rw [hb] at h
      unfold backwardCheck at hb
      split_ifs at hb <;> simp only [Option.some.injEq] at hb <;> subst hb <;> simp at h

/-- the part of a run's messages that concerns a spill -/
theorem C203_warnings (m : Inputs) (h0 : m.step ≠ 0) (msgs : List Msg) (h : firstStep m = .ok msgs) (n : Nat) :
    (.outsideMap n ∈ msgs ↔ ∃ s ∈ m.spills, s.on = true ∧ s.name = n ∧
      (s.startOnMap = false ∨ (s.moving = true ∧ s.endOnMap = false))) ∧
    (.onLand n ∈ msgs ↔ ∃ s ∈ m.spills, s.on = true ∧ s.name = n ∧
      (s.startOnLand = true ∨ (s.moving = true ∧ s.endOnLand = true))) ∧
    (.releasedLater n ∈ msgs ↔ ∃ s ∈ m.spills, s.on = true ∧ s.name = n ∧ s.release ≠ m.start) := by
  have hall := (C203_partial m h0).mp ⟨msgs, h⟩
  have hb : backwardCheck m = none := (((firstStep_ok m).mp ⟨msgs, h⟩).2).1
  obtain ⟨ms, hl⟩ := ((firstStep_ok m).mp ⟨msgs, h⟩).1
  have hv : (validate m).2 = true := (((firstStep_ok m).mp ⟨msgs, h⟩).2).2
  have hm : msgs = (validate m).1 ++ (if m.spills.isEmpty then [.noSpills] else []) ++ ms ++ lateMsgs m ++ moverMsgs m := by
    unfold firstStep checkInputs at h
    rw [hl, hb] at h
    simp only [hv, Bool.and_self, Except.ok.injEq] at h
    exact h.symm
  -- only the loop over the spills has such messages
  have hval : ∀ x, x ∈ (validate m).1 → (∃ i r, x = .noRefObject i r) ∨ (∃ i, x = .calmWind i) ∨ (∃ r, x = .notInEnvironment r) := by
    intro x hx
    simp only [validate, validateEnv, List.mem_append, List.mem_map] at hx
    rcases hx with hx | ⟨r, -, rfl⟩
    · have : ∀ is : List Item, x ∈ (validateLoop is).1 → (∃ i r, x = .noRefObject i r) ∨ (∃ i, x = .calmWind i) ∨
          (∃ r, x = .notInEnvironment r) := by
        intro is
        induction is with
        | nil => simp [validateLoop]
        | cons i is ih =>
          simp only [validateLoop]
          split_ifs
          · exact ih
          · simp only [List.mem_append]
            rintro (hx | hx)
            · unfold Item.validate at hx
              cases hk : i.kind with
              | plain =>
                rw [hk] at hx
                obtain ⟨r, -, e⟩ := (validateRefs_msg i x).mp hx
                exact .inl ⟨_, _, e⟩
              | windObj c =>
                rw [hk] at hx
                cases c <;> simp at hx
                exact .inr (.inl ⟨_, hx⟩)
              | wavesObj => rw [hk] at hx; simp at hx
            · exact ih hx
          · simp only [List.mem_append]
            rintro (hx | hx)
            · unfold Item.validate at hx
              cases hk : i.kind with
              | plain =>
                rw [hk] at hx
                obtain ⟨r, -, e⟩ := (validateRefs_msg i x).mp hx
                exact .inl ⟨_, _, e⟩
              | windObj c =>
                rw [hk] at hx
                cases c <;> simp at hx
                exact .inr (.inl ⟨_, hx⟩)
              | wavesObj => rw [hk] at hx; simp at hx
            · exact ih hx
      exact this _ hx
    · exact .inr (.inr ⟨r, rfl⟩)
  have hlate : ∀ x ∈ lateMsgs m, x = .allTooLate ∨ x = .oneTooLate := by
    intro x hx
    unfold lateMsgs at hx
    split_ifs at hx <;> simp at hx <;> simp [hx]
  have hmov : ∀ x ∈ moverMsgs m, ∃ i, x = .apart i := by
    intro x hx
    obtain ⟨v, -, e⟩ := List.mem_map.mp hx
    exact ⟨_, e.symm⟩
  have hsp : ∀ x, (∀ i r, x ≠ .noRefObject i r) → (∀ i, x ≠ .calmWind i) → (∀ r, x ≠ .notInEnvironment r) → x ≠ .noSpills →
      x ≠ .allTooLate → x ≠ .oneTooLate → (∀ i, x ≠ .apart i) →
      (x ∈ msgs ↔ ∃ s ∈ m.spills, s.on = true ∧ ∃ q, spillCheck m s = .ok q ∧ x ∈ q.1) := by
    intro x h1 h2 h3 h4 h5 h6 h7
    rw [← spillLoop_fst m _ _ hl x, hm]
    simp only [List.mem_append]
    constructor
    · rintro ((((hx | hx) | hx) | hx) | hx)
      · rcases hval x hx with ⟨i, r, e⟩ | ⟨i, e⟩ | ⟨r, e⟩
        · exact absurd e (h1 i r)
        · exact absurd e (h2 i)
        · exact absurd e (h3 r)
      · split_ifs at hx <;> simp at hx
        exact absurd hx h4
      · exact hx
      · rcases hlate x hx with e | e
        · exact absurd e h5
        · exact absurd e h6
      · obtain ⟨i, e⟩ := hmov x hx
        exact absurd e (h7 i)
    · intro hx; exact .inl (.inl (.inr hx))
  have hq : ∀ s ∈ m.spills, s.on = true → ∃ o, spillCheck m s = .ok (placeMsgs s ++ (timeMsgs m s).1 ++ o, (timeMsgs m s).2) ∧
      ∀ x ∈ o, ∃ t p, x = .pourPoint t p := by
    intro s hs hon
    have hn : ¬ (s.release ≠ s.endRelease ∧ m.step < 0) := fun e => e.1 (hall.1.instant e.2 s hs hon).symm
    unfold spillCheck
    rw [if_neg hn]
    rcases oilMsgs_cases s with ⟨hsk, -⟩ | ⟨-, o, e, ho⟩
    · exact absurd hsk (hall.1.floats s hs hon)
    · rw [e]
      refine ⟨o, rfl, fun x hx => ?_⟩
      obtain ⟨-, t, w, d, -, -, e⟩ := (ho x).mp hx
      exact ⟨t, _, e⟩
  have hgen : ∀ x, (∀ i r, x ≠ .noRefObject i r) → (∀ i, x ≠ .calmWind i) → (∀ r, x ≠ .notInEnvironment r) → x ≠ .noSpills →
      x ≠ .allTooLate → x ≠ .oneTooLate → (∀ i, x ≠ .apart i) → (∀ t p, x ≠ .pourPoint t p) →
      (x ∈ msgs ↔ ∃ s ∈ m.spills, s.on = true ∧ (x ∈ placeMsgs s ∨ x ∈ (timeMsgs m s).1)) := by
    intro x h1 h2 h3 h4 h5 h6 h7 h8
    rw [hsp x h1 h2 h3 h4 h5 h6 h7]
    constructor
    · rintro ⟨s, hs, hon, q, e, hx⟩
      obtain ⟨o, e', ho⟩ := hq s hs hon
      rw [e'] at e
      simp only [Except.ok.injEq] at e
      subst e
      simp only [List.mem_append] at hx
      rcases hx with (hx | hx) | hx
      · exact ⟨s, hs, hon, .inl hx⟩
      · exact ⟨s, hs, hon, .inr hx⟩
      · obtain ⟨t, p, e⟩ := ho x hx
        exact absurd e (h8 t p)
    · rintro ⟨s, hs, hon, hx⟩
      obtain ⟨o, e', -⟩ := hq s hs hon
      refine ⟨s, hs, hon, _, e', ?_⟩
      simp only [List.mem_append]
      tauto
  refine ⟨?_, ?_, ?_⟩
  · rw [hgen _ (by simp) (by simp) (by simp) (by simp) (by simp) (by simp) (by simp) (by simp)]
    constructor
    · rintro ⟨s, hs, hon, hx | hx⟩
      · refine ⟨s, hs, hon, ?_⟩
        unfold placeMsgs at hx
        simp only [List.mem_append] at hx
        rcases hx with (hx | hx) | hx
        · split_ifs at hx <;> simp at hx
        · split_ifs at hx with h1 h2 <;> simp at hx
          · exact ⟨hx.symm, .inl (by simpa using h1)⟩
          · exact ⟨hx.symm, .inr (by simpa using h2)⟩
        · split_ifs at hx <;> simp at hx
      · rw [timeMsgs_msg m s h0] at hx; simp at hx
    · rintro ⟨s, hs, hon, rfl, hx⟩
      refine ⟨s, hs, hon, .inl ?_⟩
      unfold placeMsgs
      simp only [List.mem_append]
      left; right
      split_ifs with h1 h2
      · simp
      · simp
      · rcases hx with hx | hx
        · simp [hx] at h1
        · simp [hx] at h2
  · rw [hgen _ (by simp) (by simp) (by simp) (by simp) (by simp) (by simp) (by simp) (by simp)]
    constructor
    · rintro ⟨s, hs, hon, hx | hx⟩
      · refine ⟨s, hs, hon, ?_⟩
        unfold placeMsgs at hx
        simp only [List.mem_append] at hx
        rcases hx with (hx | hx) | hx
        · split_ifs at hx <;> simp at hx
        · split_ifs at hx <;> simp at hx
        · split_ifs at hx with h1 h2 <;> simp at hx
          · exact ⟨hx.symm, .inl h1⟩
          · exact ⟨hx.symm, .inr (by simpa using h2)⟩
      · rw [timeMsgs_msg m s h0] at hx; simp at hx
    · rintro ⟨s, hs, hon, rfl, hx⟩
      refine ⟨s, hs, hon, .inl ?_⟩
      unfold placeMsgs
      simp only [List.mem_append]
      right
      split_ifs with h1 h2
      · simp
      · simp
      · rcases hx with hx | hx
        · simp [hx] at h1
        · simp [hx] at h2
  · rw [hgen _ (by simp) (by simp) (by simp) (by simp) (by simp) (by simp) (by simp) (by simp)]
    constructor
    · rintro ⟨s, hs, hon, hx | hx⟩
      · unfold placeMsgs at hx
        simp only [List.mem_append] at hx
        rcases hx with (hx | hx) | hx
        · split_ifs at hx <;> simp at hx
        · split_ifs at hx <;> simp at hx
        · split_ifs at hx <;> simp at hx
      · rw [timeMsgs_msg m s h0] at hx
        simp only [reduceCtorEq, and_false, Msg.releasedLater.injEq, false_or] at hx
        exact ⟨s, hs, hon, hx.2.2.symm, hx.1⟩
    · rintro ⟨s, hs, hon, rfl, hx⟩
      exact ⟨s, hs, hon, .inr ((timeMsgs_msg m s h0 _).mpr (.inr ⟨hx, hall.1.notBefore s hs hon, rfl⟩))⟩

/-- the map and a mover have a point in common -/
def Meet (m : Inputs) (v : MoverIn) : Prop :=
  ∃ x y : ℚ, m.west ≤ x ∧ x ≤ m.east ∧ m.south ≤ y ∧ y ≤ m.north ∧ v.west ≤ x ∧ x ≤ v.east ∧ v.south ≤ y ∧ y ≤ v.north

theorem apart_iff (m : Inputs) (v : MoverIn) (h1 : m.west ≤ m.east) (h2 : m.south ≤ m.north) (h3 : v.west ≤ v.east)
    (h4 : v.south ≤ v.north) : apart m v = true ↔ ¬ Meet m v := by
  unfold apart Meet
  simp only [Bool.or_eq_true, decide_eq_true_eq]
  constructor
  · rintro (((h | h) | h) | h) ⟨x, y, a1, a2, a3, a4, a5, a6, a7, a8⟩
    · exact absurd (le_trans a1 a6) (not_le.mpr h)
    · exact absurd (le_trans a5 a2) (not_le.mpr h)
    · exact absurd (le_trans a3 a8) (not_le.mpr h)
    · exact absurd (le_trans a7 a4) (not_le.mpr h)
  · intro h
    by_contra hn
    push Not at hn
    obtain ⟨⟨⟨b1, b2⟩, b3⟩, b4⟩ := hn
    exact h ⟨max m.west v.west, max m.south v.south, le_max_left _ _, max_le h1 b2, le_max_left _ _, max_le h2 b4,
      le_max_right _ _, max_le b1 h3, le_max_right _ _, max_le b3 h4⟩

/-- the other messages: movers that have no point of the map, runs in which no spill is released before the end, runs without spills -/
theorem C203_others (m : Inputs) (msgs : List Msg) (h : firstStep m = .ok msgs) :
    (∀ n, m.west ≤ m.east → m.south ≤ m.north → (∀ v ∈ m.movers, v.west ≤ v.east ∧ v.south ≤ v.north) →
      (.apart n ∈ msgs ↔ ∃ v ∈ m.movers, v.on = true ∧ v.name = n ∧ ¬ Meet m v)) ∧
    ((.oneTooLate ∈ msgs ∨ .allTooLate ∈ msgs) ↔ (∃ s ∈ m.spills, s.on = true) ∧ ∀ s ∈ m.spills, s.on = true →
      if m.backward then s.release ≤ m.start + m.duration else m.start + m.duration ≤ s.release) ∧
    (.noSpills ∈ msgs ↔ m.spills = []) := by
  have hb : backwardCheck m = none := (((firstStep_ok m).mp ⟨msgs, h⟩).2).1
  obtain ⟨ms, hl⟩ := ((firstStep_ok m).mp ⟨msgs, h⟩).1
  have hv : (validate m).2 = true := (((firstStep_ok m).mp ⟨msgs, h⟩).2).2
  have hm : msgs = (validate m).1 ++ (if m.spills.isEmpty then [.noSpills] else []) ++ ms ++ lateMsgs m ++ moverMsgs m := by
    unfold firstStep checkInputs at h
    rw [hl, hb] at h
    simp only [hv, Bool.and_self, Except.ok.injEq] at h
    exact h.symm
  have hval : ∀ x, x ∈ (validate m).1 → (∃ i r, x = .noRefObject i r) ∨ (∃ i, x = .calmWind i) ∨ (∃ r, x = .notInEnvironment r) := by
    intro x hx
    simp only [validate, validateEnv, List.mem_append, List.mem_map] at hx
    rcases hx with hx | ⟨r, -, rfl⟩
    · have : ∀ is : List Item, x ∈ (validateLoop is).1 → (∃ i r, x = .noRefObject i r) ∨ (∃ i, x = .calmWind i) ∨
          (∃ r, x = .notInEnvironment r) := by
        intro is
        induction is with
        | nil => simp [validateLoop]
        | cons i is ih =>
          have step : x ∈ i.validate.1 → (∃ i r, x = .noRefObject i r) ∨ (∃ i, x = .calmWind i) ∨ (∃ r, x = .notInEnvironment r) := by
            intro hx
            unfold Item.validate at hx
            cases hk : i.kind with
            | plain =>
              rw [hk] at hx
              obtain ⟨r, -, e⟩ := (validateRefs_msg i x).mp hx
              exact .inl ⟨_, _, e⟩
            | windObj c =>
              rw [hk] at hx
              cases c <;> simp at hx
              exact .inr (.inl ⟨_, hx⟩)
            | wavesObj => rw [hk] at hx; simp at hx
          simp only [validateLoop]
          by_cases ho : i.off = true
          · rw [if_pos ho]; exact ih
          · rw [if_neg ho]
            simp only [List.mem_append]
            rintro (hx | hx)
            · exact step hx
            · exact ih hx
      exact this _ hx
    · exact .inr (.inr ⟨r, rfl⟩)
  have hms : ∀ x ∈ ms, (∃ d, x = .aboveSurface d) ∨ (∃ n, x = .outsideMap n) ∨ (∃ n, x = .onLand n) ∨ (∃ n, x = .releasedLater n) ∨
      (∃ n a b, x = .releasedBefore n a b) ∨ ∃ t p, x = .pourPoint t p := by
    intro x hx
    obtain ⟨s, hs, hon, q, hq, hxq⟩ := (spillLoop_fst m _ _ hl x).mp hx
    unfold spillCheck at hq
    split_ifs at hq
    rcases oilMsgs_cases s with ⟨-, e⟩ | ⟨-, o, e, ho⟩
    · rw [e] at hq; simp at hq
    · rw [e] at hq
      simp only [Except.ok.injEq] at hq
      subst hq
      simp only [List.mem_append] at hxq
      rcases hxq with (hx | hx) | hx
      · unfold placeMsgs at hx
        simp only [List.mem_append] at hx
        rcases hx with (hx | hx) | hx <;> split_ifs at hx <;> simp at hx <;> simp [hx]
      · unfold timeMsgs at hx
        split_ifs at hx <;> simp at hx <;> simp [hx]
      · obtain ⟨-, t, w, d, -, -, e⟩ := (ho x).mp hx
        simp [e]
  have hlate : ∀ x ∈ lateMsgs m, x = .allTooLate ∨ x = .oneTooLate := by
    intro x hx
    unfold lateMsgs at hx
    split_ifs at hx <;> simp at hx <;> simp [hx]
  have hmov : ∀ x ∈ moverMsgs m, ∃ i, x = .apart i := by
    intro x hx
    obtain ⟨v, -, e⟩ := List.mem_map.mp hx
    exact ⟨_, e.symm⟩
  refine ⟨fun n h1 h2 h3 => ?_, ?_, ?_⟩
  · have : .apart n ∈ msgs ↔ .apart n ∈ moverMsgs m := by
      rw [hm]
      simp only [List.mem_append]
      constructor
      · rintro ((((hx | hx) | hx) | hx) | hx)
        · exact absurd (hval _ hx) (by simp)
        · split_ifs at hx <;> simp at hx
        · exact absurd (hms _ hx) (by simp)
        · exact absurd (hlate _ hx) (by simp)
        · exact hx
      · exact .inr
    rw [this]
    unfold moverMsgs
    simp only [List.mem_map, List.mem_filter, Bool.and_eq_true, Msg.apart.injEq]
    constructor
    · rintro ⟨v, ⟨hv1, hv2, hv3⟩, e⟩
      exact ⟨v, hv1, hv2, e, (apart_iff m v h1 h2 (h3 v hv1).1 (h3 v hv1).2).mp hv3⟩
    · rintro ⟨v, hv1, hv2, e, hv3⟩
      exact ⟨v, ⟨hv1, hv2, (apart_iff m v h1 h2 (h3 v hv1).1 (h3 v hv1).2).mpr hv3⟩, e⟩
  · have : (.oneTooLate ∈ msgs ∨ .allTooLate ∈ msgs) ↔ lateMsgs m ≠ [] := by
      rw [hm]
      simp only [List.mem_append]
      have hno : ∀ x : Msg, x = .oneTooLate ∨ x = .allTooLate → (((x ∈ (validate m).1 ∨ x ∈ (if m.spills.isEmpty then [Msg.noSpills] else [])) ∨ x ∈ ms) ∨
          x ∈ lateMsgs m) ∨ x ∈ moverMsgs m → x ∈ lateMsgs m := by
        rintro x hx0 ((((hx | hx) | hx) | hx) | hx)
        · rcases hx0 with rfl | rfl <;> exact absurd (hval _ hx) (by simp)
        · rcases hx0 with rfl | rfl <;> split_ifs at hx <;> simp at hx
        · rcases hx0 with rfl | rfl <;> exact absurd (hms _ hx) (by simp)
        · exact hx
        · rcases hx0 with rfl | rfl <;> exact absurd (hmov _ hx) (by simp)
      constructor
      · rintro (hx | hx)
        · exact List.ne_nil_of_mem (hno _ (.inl rfl) hx)
        · exact List.ne_nil_of_mem (hno _ (.inr rfl) hx)
      · intro hne
        obtain ⟨x, hx⟩ := List.exists_mem_of_ne_nil _ hne
        rcases hlate x hx with rfl | rfl
        · exact .inr (.inl (.inr hx))
        · exact .inl (.inl (.inr hx))
    rw [this]
    have hin : ∀ s, inTime m s = true ↔ ¬ (if m.backward then s.release ≤ m.start + m.duration else m.start + m.duration ≤ s.release) := by
      intro s
      unfold inTime
      by_cases hbk : m.backward = true <;> simp [hbk]
    unfold lateMsgs
    constructor
    · intro hne
      split_ifs at hne with h1 h2
      all_goals first | exact absurd rfl hne | skip
      all_goals
        simp only [Bool.and_eq_true, List.any_eq_true, Bool.not_eq_true', List.any_eq_false] at h1
        refine ⟨h1.1, fun s hs hon => ?_⟩
        by_contra hc
        exact h1.2 s hs ⟨hon, (hin s).mpr hc⟩
    · rintro ⟨⟨s, hs, hon⟩, hall⟩
      rw [if_pos]
      · split_ifs <;> simp
      · simp only [Bool.and_eq_true, List.any_eq_true, Bool.not_eq_true', List.any_eq_false]
        exact ⟨⟨s, hs, hon⟩, fun t ht hc => (hin t).mp hc.2 (hall t ht hc.1)⟩
  · rw [hm]
    simp only [List.mem_append]
    constructor
    · rintro ((((hx | hx) | hx) | hx) | hx)
      · exact absurd (hval _ hx) (by simp)
      · split_ifs at hx with he
        · exact List.isEmpty_iff.mp he
        · simp at hx
      · exact absurd (hms _ hx) (by simp)
      · exact absurd (hlate _ hx) (by simp)
      · exact absurd (hmov _ hx) (by simp)
    · intro he
      simp [he]

/-! ## Cases -/

/-- a spill on the water, on the map, released at time 0 -/
def spill0 : SpillIn := ⟨1, true, 0, true, true, false, false, false, 0, 0, false, 0, none⟩

/-- a forward model of a day with that spill -/
def model0 : Inputs := ⟨0, 86400, 900, false, false, [], [], [spill0], [], -180, -90, 180, 90⟩

/-- a day forward: accepted without a message -/
example : firstStep model0 = .ok [] := by decide +kernel

/-- a mover that takes its wind from the environment -/
def windMover : Item := ⟨7, some true, .plain, true, fun r => if r = .wind then some false else none, .absent⟩

/-- a wind -/
def wind : Item := ⟨8, none, .windObj false, true, fun _ => none, .one (some .wind)⟩

/-- the hypotheses of `C203_exact` are met by a model with a wind mover and a wind in its environment … -/
example : firstStep { model0 with items := [windMover, wind], env := [wind] } = .ok [.noRefObject 7 .wind] := by
  decide +kernel

/-- … and the model is refused without the wind -/
example : firstStep { model0 with items := [windMover] } =
    .error (.invalid [.noRefObject 7 .wind, .notInEnvironment .wind]) := by decide +kernel

/-- refused: released before the start -/
example : firstStep { model0 with spills := [{ spill0 with release := -1 }] } =
    .error (.invalid [.releasedBefore 1 (-1) 0]) := by decide +kernel

/-- a backward run of a continuous release and a backward run with positive duration -/
example : firstStep { model0 with step := -900, duration := -86400, backward := true, spills := [{ spill0 with endRelease := 5 }] } =
      .error .continuousBackwards ∧
    firstStep { model0 with step := -900 } = .error .signs := by decide +kernel

/-- what `validate` says of the objects that are on -/
theorem validateLoop_mem (is : List Item) (x : Msg) : x ∈ (validateLoop is).1 ↔ ∃ i ∈ is, Active i ∧ x ∈ i.validate.1 := by
  induction is with
  | nil => simp [validateLoop]
  | cons i is ih =>
    simp only [validateLoop]
    by_cases ho : i.off = true
    · rw [if_pos ho, ih]
      have hn : ¬ Active i := by
        unfold Active
        simpa [Item.off] using ho
      constructor
      · rintro ⟨j, hj, h⟩
        exact ⟨j, List.mem_cons_of_mem _ hj, h⟩
      · rintro ⟨j, hj, ha, h⟩
        rcases List.mem_cons.mp hj with e | hj
        · rw [e] at ha; exact absurd ha hn
        · exact ⟨j, hj, ha, h⟩
    · rw [if_neg ho]
      have hy : Active i := by
        unfold Active
        simpa [Item.off] using ho
      simp only [List.mem_append, ih, List.mem_cons]
      constructor
      · rintro (h | ⟨j, hj, h⟩)
        · exact ⟨i, .inl rfl, hy, h⟩
        · exact ⟨j, .inr hj, h⟩
      · rintro ⟨j, rfl | hj, ha, h⟩
        · exact .inl h
        · exact .inr ⟨j, hj, ha, h⟩

/-- **The warnings about objects**: a wind whose speeds are all 0 is reported, and the references that an object that is on does not have; no other
object is. -/
theorem C203_objects (m : Inputs) (msgs : List Msg) (h : firstStep m = .ok msgs) (n : Nat) :
    (.calmWind n ∈ msgs ↔ ∃ i ∈ m.items, Active i ∧ i.name = n ∧ i.kind = .windObj true) ∧
    (∀ r, .noRefObject n r ∈ msgs ↔ ∃ i ∈ m.items, Active i ∧ i.name = n ∧ i.kind = .plain ∧ i.attr r = some false) := by
  have hb : backwardCheck m = none := (((firstStep_ok m).mp ⟨msgs, h⟩).2).1
  obtain ⟨ms, hl⟩ := ((firstStep_ok m).mp ⟨msgs, h⟩).1
  have hv : (validate m).2 = true := (((firstStep_ok m).mp ⟨msgs, h⟩).2).2
  have hm : msgs = (validate m).1 ++ (if m.spills.isEmpty then [.noSpills] else []) ++ ms ++ lateMsgs m ++ moverMsgs m := by
    unfold firstStep checkInputs at h
    rw [hl, hb] at h
    simp only [hv, Bool.and_self, Except.ok.injEq] at h
    exact h.symm
  have hms : ∀ x ∈ ms, (∃ d, x = .aboveSurface d) ∨ (∃ n, x = .outsideMap n) ∨ (∃ n, x = .onLand n) ∨ (∃ n, x = .releasedLater n) ∨
      (∃ n a b, x = .releasedBefore n a b) ∨ ∃ t p, x = .pourPoint t p := by
    intro x hx
    obtain ⟨s, hs, hon, q, hq, hxq⟩ := (spillLoop_fst m _ _ hl x).mp hx
    unfold spillCheck at hq
    split_ifs at hq
    rcases oilMsgs_cases s with ⟨-, e⟩ | ⟨-, o, e, ho⟩
    · rw [e] at hq; simp at hq
    · rw [e] at hq
      simp only [Except.ok.injEq] at hq
      subst hq
      simp only [List.mem_append] at hxq
      rcases hxq with (hx | hx) | hx
      · unfold placeMsgs at hx
        simp only [List.mem_append] at hx
        rcases hx with (hx | hx) | hx <;> split_ifs at hx <;> simp at hx <;> simp [hx]
      · unfold timeMsgs at hx
        split_ifs at hx <;> simp at hx <;> simp [hx]
      · obtain ⟨-, t, w, d, -, -, e⟩ := (ho x).mp hx
        simp [e]
  have key : ∀ x : Msg, ((∃ i, x = .calmWind i) ∨ ∃ i r, x = .noRefObject i r) → (x ∈ msgs ↔ x ∈ (validateLoop m.items).1) := by
    intro x hx
    rw [hm]
    simp only [List.mem_append, validate, validateEnv, List.mem_map]
    constructor
    · rintro (((((h' | ⟨r, _, h'⟩) | h') | h') | h') | h')
      · exact h'
      · subst h'; simp at hx
      · split_ifs at h' <;> simp at h'
        subst h'; simp at hx
      · rcases hms _ h' with ⟨_, e⟩ | ⟨_, e⟩ | ⟨_, e⟩ | ⟨_, e⟩ | ⟨_, _, _, e⟩ | ⟨_, _, e⟩ <;> subst e <;> simp at hx
      · unfold lateMsgs at h'
        split_ifs at h' <;> simp at h' <;> subst h' <;> simp at hx
      · obtain ⟨v, -, e⟩ := List.mem_map.mp h'
        subst e; simp at hx
    · intro h'
      exact .inl (.inl (.inl (.inl (.inl h'))))
  constructor
  · rw [key _ (.inl ⟨n, rfl⟩), validateLoop_mem]
    refine exists_congr fun i => and_congr_right fun _ => and_congr_right fun _ => ?_
    unfold Item.validate
    cases hk : i.kind with
    | plain =>
      simp only [reduceCtorEq, and_false, iff_false]
      intro hx
      obtain ⟨r, -, e⟩ := (validateRefs_msg i _).mp hx
      cases e
    | windObj c => cases c <;> simp [eq_comm]
    | wavesObj => simp
  · intro r
    rw [key _ (.inr ⟨n, r, rfl⟩), validateLoop_mem]
    refine exists_congr fun i => and_congr_right fun _ => and_congr_right fun _ => ?_
    unfold Item.validate
    cases hk : i.kind with
    | plain =>
      simp only [true_and]
      rw [validateRefs_msg]
      constructor
      · rintro ⟨r', h1, e⟩
        cases e
        exact ⟨rfl, h1⟩
      · rintro ⟨e, h1⟩
        exact ⟨r, h1, by rw [e]⟩
    | windObj c => cases c <;> simp
    | wavesObj => simp

/-- **C203 is false of the code (first)**: with a time step of 900 s and a duration of minus one day the checks pass without a
message, though the number of time steps is −95, so that the run ends after step 0. The second test of the duration in
`check_inputs` repeats the first one instead of testing the other combination of signs. -/
theorem C203_counterexample :
    firstStep { model0 with duration := -86400 } = .ok [.oneTooLate] ∧
    numSteps { model0 with duration := -86400 } = -95 ∧ ¬ C203_claim := by
  refine ⟨by decide +kernel, by decide +kernel, fun h => ?_⟩
  have h1 := (h { model0 with duration := -86400 } (by decide)).mp ⟨_, (by decide +kernel : _ = Except.ok [.oneTooLate])⟩
  have h2 := h1.sign.2 (by decide)
  exact absurd h2 (by decide)

/-- a mover that has been given its own wind after it was added to the model -/
def ownWind : Item := { windMover with attr := fun r => if r = .wind then some true else none }

/-- **C203 is false of the code (second)**: a mover that has its own wind lacks nothing, yet the model is refused if the
environment has no wind, because the mover may take its wind from there. -/
theorem C203_counterexample_own :
    Sensible { model0 with items := [ownWind] } ∧
    firstStep { model0 with items := [ownWind] } = .error (.invalid [.notInEnvironment .wind]) := by
  refine ⟨⟨⟨by decide, by decide⟩, ⟨?_, ?_, by decide, by decide⟩, ?_⟩, by decide +kernel⟩
  · intro s hs _
    simp only [model0, List.mem_singleton] at hs
    subst hs
    simp [BeforeStart, model0, spill0]
  · intro s hs _
    simp only [model0, List.mem_singleton] at hs
    subst hs
    simp [Sinks, spill0]
  · intro i hi _ r hr
    simp only [List.mem_singleton] at hi
    subst hi
    cases r <;> simp [ownWind, windMover] at hr

/-- **The warnings of a backward run**: with a negative time step and duration set by hand, while `run_backwards` is not, a spill released
at the start is reported to be released after the interval being modelled. -/
theorem C203_counterexample_late :
    firstStep { model0 with step := -900, duration := -86400 } = .ok [.oneTooLate] ∧
    firstStep { model0 with step := -900, duration := -86400, backward := true } = .ok [] := by
  constructor <;> decide +kernel

/-- **The messages do not tell the start from the end**: a spill with its end outside of the map gets the very message of a spill
with its start outside. -/
theorem C203_counterexample_end (s : SpillIn) (hm : s.moving = true) :
    placeMsgs { s with startOnMap := true, endOnMap := false } = placeMsgs { s with startOnMap := false, endOnMap := true } := by
  simp [placeMsgs, hm]

end Verif.Run.Check
