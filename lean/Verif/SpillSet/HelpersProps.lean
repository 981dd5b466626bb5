import Verif.SpillSet.HelpersModel
import Mathlib.Tactic.NormNum

/-!
C257 (the windages of a spill are those given for it), C258 (a spill is released where and when it was asked for).
-/

namespace Verif.SpillSet.Helpers

/-! ## Specification -/

/-- A range that may be given: two numbers of at least 0. -/
def GoodRange (r : List ℚ) : Prop := ∃ a b, r = [a, b] ∧ 0 ≤ a ∧ 0 ≤ b

/-- A persistence that may be given. -/
def GoodPersist (p : Persist) : Prop := p ≠ .secs 0

/-- The seconds of a persistence, -1 for ever. -/
def seconds : Persist → ℚ
  | .secs q => q
  | .inf => -1

/-- The windages of an object are those that were given, and the others are as they were. -/
def Has (s old : Subst) (c : Call) : Prop :=
  s.range = c.range.getD old.range ∧ s.persist = (c.persist.map seconds).getD old.persist

/-- A call that sets no windages on the object `i`. -/
def Leaves (i : Nat) (c : Call) : Prop :=
  (c.range = none ∧ c.persist = none) ∨ (∀ j, c.substance = .obj j → j ≠ i)

/-! ## Lemmas -/

theorem goodRange_iff (r : List ℚ) : GoodRange r ↔ (r.any (fun x => decide (x < 0)) || decide (r.length ≠ 2)) = false := by
  constructor
  · rintro ⟨a, b, rfl, ha, hb⟩
    simp [ha, hb]
  · intro h
    match r, h with
    | [], h => simp at h
    | [_], h => simp at h
    | [a, b], h =>
      refine ⟨a, b, rfl, ?_, ?_⟩ <;> simp at h
      · exact h.1
      · exact h.2
    | _ :: _ :: _ :: _, h => simp at h

theorem setRange_good (s : Subst) (r : List ℚ) (h : GoodRange r) : setRange s r = ({ s with range := r }, false) := by
  have e : setRange s r = if r.any (fun x => decide (x < 0)) || decide (r.length ≠ 2) then (s, true)
    else ({ s with range := r }, false) := rfl
  rw [e, (goodRange_iff r).1 h]; rfl

theorem setRange_bad (s : Subst) (r : List ℚ) (h : ¬ GoodRange r) : setRange s r = (s, true) := by
  have e : setRange s r = if r.any (fun x => decide (x < 0)) || decide (r.length ≠ 2) then (s, true)
    else ({ s with range := r }, false) := rfl
  rw [goodRange_iff, Bool.not_eq_false] at h
  rw [e, h]; rfl

theorem setPersist_eq (s : Subst) (p : Persist) : setPersist s p = if seconds p = 0 then (s, true)
    else ({ s with persist := seconds p }, false) := by
  cases p <;> rfl

theorem seconds_zero (p : Persist) : seconds p = 0 ↔ ¬ GoodPersist p := by
  cases p with
  | secs q => simp [seconds, GoodPersist]
  | inf => simp [seconds, GoodPersist]

/-- What the helper does to the substance of the spill. -/
theorem override_spec (s : Subst) (c : Call) :
    ((override s c).2 = false ↔ (∀ r, c.range = some r → GoodRange r) ∧ (∀ p, c.persist = some p → GoodPersist p)) ∧
      ((override s c).2 = false → Has (override s c).1 s c) := by
  obtain ⟨sub, good, r, p⟩ := c
  cases r with
  | none =>
    cases p with
    | none => simp [override, Has]
    | some p =>
      simp only [override, Bool.false_eq_true, if_false, setPersist_eq]
      by_cases h : seconds p = 0
      · simp [h, (seconds_zero p).1 h]
      · have h' : GoodPersist p := by
          by_contra h2; exact h ((seconds_zero p).2 h2)
        simp [h, h', Has]
  | some r =>
    by_cases hr : GoodRange r
    · cases p with
      | none => simp [override, setRange_good s r hr, hr, Has]
      | some p =>
        simp only [override, setRange_good s r hr, Bool.false_eq_true, if_false, setPersist_eq]
        by_cases h : seconds p = 0
        · simp [h, (seconds_zero p).1 h]
        · have h' : GoodPersist p := by
            by_contra h2; exact h ((seconds_zero p).2 h2)
          simp [h, h', hr, Has]
    · simp [override, setRange_bad s r hr, hr]

theorem override_none (s : Subst) (c : Call) (h : c.range = none ∧ c.persist = none) : override s c = (s, false) := by
  obtain ⟨sub, good, r, p⟩ := c
  obtain ⟨rfl, rfl⟩ := h
  rfl

/-- The object that an argument stands for, before windages are set: one of the caller's, or a new one. -/
def subject (h : List Subst) : Arg → Option (Nat × Subst)
  | .obj i => (h[i]?).map fun s => (i, s)
  | .new s => some (h.length, s)
  | .bad => none

theorem setup_none (h : List Subst) (c : Call) (hs : subject h c.substance = none) : setup h c = (h, none) := by
  unfold setup
  cases hc : c.substance with
  | obj i =>
    rw [hc] at hs
    simp only [subject, Option.map_eq_none_iff, List.getElem?_eq_none_iff] at hs
    simp [place, Nat.not_lt.2 hs]
  | new s => rw [hc] at hs; simp [subject] at hs
  | bad => simp [place]

theorem setup_some (h : List Subst) (c : Call) (i : Nat) (s : Subst) (hs : subject h c.substance = some (i, s)) :
    ∃ h', h'[i]? = some s ∧ (∀ (j : Nat), j < h.length → h'[j]? = h[j]?) ∧
      setup h c = if c.good then (h'.set i (override s c).1, if (override s c).2 then none else some i) else (h', none) := by
  cases hc : c.substance with
  | obj k =>
    rw [hc] at hs
    simp only [subject, Option.map_eq_some_iff, Prod.mk.injEq] at hs
    obtain ⟨t, ht, rfl, rfl⟩ := hs
    have hl : k < h.length := (List.getElem?_eq_some_iff.1 ht).1
    refine ⟨h, ht, fun j _ => rfl, ?_⟩
    have hg : h.getD k plain = t := by simp [List.getD_eq_getElem?_getD, ht]
    simp only [setup, hc, place, hl, if_true, hg]
  | new t =>
    rw [hc] at hs
    simp only [subject, Option.some.injEq, Prod.mk.injEq] at hs
    obtain ⟨rfl, rfl⟩ := hs
    refine ⟨h ++ [t], by simp, fun j hj => by simp [List.getElem?_append_left hj], ?_⟩
    have hg : (h ++ [t]).getD h.length plain = t := by simp [List.getD_eq_getElem?_getD]
    simp only [setup, hc, place, hg]
  | bad => rw [hc] at hs; simp [subject] at hs

theorem setup_length (h : List Subst) (c : Call) : h.length ≤ (setup h c).1.length := by
  unfold setup
  cases hc : c.substance with
  | obj i =>
    by_cases hi : i < h.length
    · by_cases hg : c.good <;> simp [place, hi, hg]
    · simp [place, hi]
  | new s => by_cases hg : c.good <;> simp [place, hg]
  | bad => simp [place]

/-- A call leaves every object that it is not given, and its own if it gives no windages. -/
theorem setup_leaves (h : List Subst) (c : Call) (i : Nat) (hi : i < h.length) (hl : Leaves i c) :
    (setup h c).1[i]? = h[i]? := by
  cases hs : subject h c.substance with
  | none => rw [setup_none h c hs]
  | some x =>
    obtain ⟨k, s⟩ := x
    obtain ⟨h', h1, h2, e⟩ := setup_some h c k s hs
    rw [e]
    by_cases hg : c.good
    · rw [if_pos hg]
      rcases hl with hl | hl
      · rw [override_none s c hl]
        by_cases hk : k = i
        · subst hk
          rw [List.getElem?_set]
          have : k < h'.length := (List.getElem?_eq_some_iff.1 h1).1
          simp only [if_true, this]
          rw [← h2 k hi, h1]
        · rw [List.getElem?_set_ne hk, h2 i hi]
      · have hk : k ≠ i := by
          cases hc : c.substance with
          | obj j =>
            have := hl j hc
            rw [hc] at hs
            simp only [subject, Option.map_eq_some_iff, Prod.mk.injEq] at hs
            obtain ⟨t, ht, rfl, rfl⟩ := hs
            exact this
          | new t =>
            rw [hc] at hs
            simp only [subject, Option.some.injEq, Prod.mk.injEq] at hs
            obtain ⟨rfl, rfl⟩ := hs
            omega
          | bad => rw [hc] at hs; simp [subject] at hs
        simp only
        rw [List.getElem?_set_ne hk, h2 i hi]
    · rw [if_neg hg, h2 i hi]

theorem calls_leaves (l : List Call) : ∀ (h : List Subst) (i : Nat), i < h.length → (∀ c ∈ l, Leaves i c) →
    (calls h l)[i]? = h[i]? := by
  induction l with
  | nil => intro h i _ _; rfl
  | cons c l ih =>
    intro h i hi hl
    have e : calls h (c :: l) = calls (setup h c).1 l := rfl
    rw [e, ih _ i (lt_of_lt_of_le hi (setup_length h c)) (fun d hd => hl d (List.mem_cons_of_mem _ hd))]
    exact setup_leaves h c i hi (hl c List.mem_cons_self)

/-! ## C257 -/

/-- **C257**: a spill is made exactly when there is a substance, amount and units are accepted, and windages that are given are two
numbers of at least 0 and a persistence other than 0; -/
theorem C257_accepted (h : List Subst) (c : Call) :
    (setup h c).2.isSome ↔ (subject h c.substance).isSome ∧ c.good = true ∧
      (∀ r, c.range = some r → GoodRange r) ∧ (∀ p, c.persist = some p → GoodPersist p) := by
  cases hs : subject h c.substance with
  | none => rw [setup_none h c hs]; simp
  | some x =>
    obtain ⟨k, s⟩ := x
    obtain ⟨h', h1, h2, e⟩ := setup_some h c k s hs
    rw [e]
    by_cases hg : c.good
    · rw [if_pos hg]
      have := (override_spec s c).1
      by_cases ho : (override s c).2 = false
      · simp only [ho, Bool.false_eq_true, if_false, Option.isSome_some, true_and, hg]
        exact ⟨fun _ => this.1 ho, fun _ => trivial⟩
      · have ho' : (override s c).2 = true := by simpa using ho
        simp only [ho', if_true, Option.isSome_none, Bool.false_eq_true, false_iff, Option.isSome_some, true_and, hg]
        exact fun h => ho (this.2 h)
    · simp [hg]

/-- **C257**: it then has the windages that were given, where none were given those of its substance; and every other substance keeps
its own. -/
theorem C257_made (h : List Subst) (c : Call) (i : Nat) (hm : (setup h c).2 = some i) :
    ∃ s, subject h c.substance = some (i, s) ∧ (∃ t, (setup h c).1[i]? = some t ∧ Has t s c) ∧
      ∀ (j : Nat), j < h.length → j ≠ i → (setup h c).1[j]? = h[j]? := by
  cases hs : subject h c.substance with
  | none => rw [setup_none h c hs] at hm; cases hm
  | some x =>
    obtain ⟨k, s⟩ := x
    obtain ⟨h', h1, h2, e⟩ := setup_some h c k s hs
    rw [e] at hm ⊢
    by_cases hg : c.good
    · rw [if_pos hg] at hm ⊢
      by_cases ho : (override s c).2 = false
      · simp only [ho, Bool.false_eq_true, if_false, Option.some.injEq] at hm
        subst hm
        have hk : k < h'.length := (List.getElem?_eq_some_iff.1 h1).1
        refine ⟨s, rfl, ⟨(override s c).1, ?_, (override_spec s c).2 ho⟩, fun j hj hne => ?_⟩
        · simp [hk]
        · simp only
          rw [List.getElem?_set_ne (Ne.symm hne), h2 j hj]
      · have ho' : (override s c).2 = true := by simpa using ho
        simp [ho'] at hm
    · rw [if_neg hg] at hm; cases hm

/-- The claim: whatever spills are made after it, a spill keeps the windages that were given for it. -/
def C257_claim : Prop := ∀ (h : List Subst) (c : Call) (l : List Call) (i : Nat), (setup h c).2 = some i →
  ∀ r, c.range = some r → ((calls (setup h c).1 l)[i]?).map (·.range) = some r

/-- The claim: a call that is refused changes nothing. -/
def C257_claim_refused : Prop := ∀ (h : List Subst) (c : Call), (setup h c).2 = none → ∀ i < h.length, (setup h c).1[i]? = h[i]?

/-- **C257** in part: a spill keeps its windages as long as no later call sets windages on the same object. -/
theorem C257_partial (h : List Subst) (c : Call) (l : List Call) (i : Nat) (hm : (setup h c).2 = some i)
    (hl : ∀ d ∈ l, Leaves i d) :
    ∃ s t, subject h c.substance = some (i, s) ∧ (calls (setup h c).1 l)[i]? = some t ∧ Has t s c := by
  obtain ⟨s, h1, ⟨t, h2, h3⟩, _⟩ := C257_made h c i hm
  have hi : i < (setup h c).1.length := (List.getElem?_eq_some_iff.1 h2).1
  exact ⟨s, t, h1, by rw [calls_leaves l _ i hi hl, h2], h3⟩

/-- **C257** in part: a spill made without a substance, or with the name of one, is not changed by any later call that is not given its
substance. -/
theorem C257_own_partial (h : List Subst) (c : Call) (l : List Call) (s : Subst) (i : Nat) (hc : c.substance = .new s)
    (hm : (setup h c).2 = some i) (hl : ∀ d ∈ l, ∀ j, d.substance = .obj j → j < h.length) :
    ∃ t, (calls (setup h c).1 l)[i]? = some t ∧ Has t s c := by
  obtain ⟨s', t, h1, h2, h3⟩ := C257_partial h c l i hm (fun d hd => Or.inr fun j hj hij => by
    obtain ⟨s', h1, _⟩ := C257_made h c i hm
    rw [hc] at h1
    simp only [subject, Option.some.injEq, Prod.mk.injEq] at h1
    have := hl d hd j hj
    omega)
  rw [hc] at h1
  simp only [subject, Option.some.injEq, Prod.mk.injEq] at h1
  obtain ⟨_, rfl⟩ := h1
  exact ⟨t, h2, h3⟩

/-- **C257** fails: two spills of one substance, the second with a windage of 0: the first has it too. -/
theorem C257_counterexample : ¬ C257_claim := by
  intro h
  have := h [plain] ⟨.obj 0, true, some [1 / 100, 2 / 100], none⟩ [⟨.obj 0, true, some [0, 0], none⟩] 0 (by decide +kernel) _ rfl
  revert this
  decide +kernel

/-- **C257** fails: a call is refused for its persistence of 0, but the range has been set on the caller's substance. -/
theorem C257_counterexample_refused : ¬ C257_claim_refused := by
  intro h
  have := h [plain] ⟨.obj 0, true, some [0, 0], some (.secs 0)⟩ (by decide +kernel) 0 (by decide)
  revert this
  decide +kernel

/-- **C257** in part: a refused call that does not name an object of the caller, or whose amount, units or range are refused, or that gives
no range, leaves every object of the caller. -/
theorem C257_refused_partial (h : List Subst) (c : Call) (hm : (setup h c).2 = none)
    (hc : (∀ j, c.substance ≠ .obj j) ∨ c.good = false ∨ c.range = none ∨ ∃ r, c.range = some r ∧ ¬ GoodRange r) :
    ∀ i < h.length, (setup h c).1[i]? = h[i]? := by
  intro i hi
  rcases hc with hc | hc | hc | ⟨r, hr, hb⟩
  · exact setup_leaves h c i hi (Or.inr fun j hj => absurd hj (hc j))
  all_goals
    cases hs : subject h c.substance with
    | none => rw [setup_none h c hs]
    | some x =>
      obtain ⟨k, s⟩ := x
      obtain ⟨h', h1, h2, e⟩ := setup_some h c k s hs
      rw [e] at hm ⊢
      have keep : ∀ u, u = s → (h'.set k u)[i]? = h[i]? := by
        rintro u rfl
        have hk : k < h'.length := (List.getElem?_eq_some_iff.1 h1).1
        by_cases hki : k = i
        · subst hki
          rw [List.getElem?_set]
          simp only [if_true, hk]
          rw [← h1, h2 k hi]
        · rw [List.getElem?_set_ne hki, h2 i hi]
      first
      | rw [hc, if_neg (by simp)]; exact h2 i hi
      | by_cases hg : c.good
        · rw [if_pos hg] at hm ⊢
          refine keep _ ?_
          obtain ⟨sub, good, r', p⟩ := c
          first
          | (simp only at hc; subst hc
             cases p with
             | none => rfl
             | some p =>
               by_cases hp : seconds p = 0
               · simp [override, setPersist_eq, hp]
               · simp [override, setPersist_eq, hp] at hm)
          | (simp only at hr; subst hr
             simp [override, setRange_bad s _ hb])
        · rw [if_neg hg]; exact h2 i hi

/-- The hypotheses can be met: a spill of a caller's substance with a windage of its own, then one of a new substance. -/
example : (setup [plain] ⟨.obj 0, true, some [0, 1 / 50], some .inf⟩).2 = some 0 ∧
    (calls (setup [plain] ⟨.obj 0, true, some [0, 1 / 50], some .inf⟩).1 [⟨.new plain, true, some [0, 0], none⟩])[0]? =
      some ⟨[0, 1 / 50], -1⟩ := by
  decide +kernel

/-! ## C258 -/

/-- The point of a position: its depth is 0 if it has none. -/
def Point (l : List ℚ) (p : ℚ × ℚ × ℚ) : Prop := l = [p.1, p.2.1, p.2.2] ∨ (l = [p.1, p.2.1] ∧ p.2.2 = 0)

/-- The release that is asked for. -/
def Asked (P : List ℚ → ℚ × ℚ × ℚ → Prop) (start : List ℚ) (stop : Option (List ℚ)) (t : ℤ) (te : Option ℤ) (r : Rel) : Prop :=
  P start r.start ∧ (∀ l, stop = some l → P l r.stop) ∧ (stop = none → r.stop = r.start) ∧ r.time = t ∧
    r.endTime = te.getD t ∧ r.time ≤ r.endTime

theorem three_iff (l : List ℚ) (p : ℚ × ℚ × ℚ) : three l = some p ↔ l = [p.1, p.2.1, p.2.2] := by
  obtain ⟨x, y, z⟩ := p
  match l with
  | [] => simp [three]
  | [_] => simp [three]
  | [_, _] => simp [three]
  | [a, b, c] => simp [three]
  | _ :: _ :: _ :: _ :: _ => simp [three]

theorem pointLine_iff (start : List ℚ) (stop : Option (List ℚ)) (t : ℤ) (te : Option ℤ) (r : Rel) :
    pointLine start stop t te = some r ↔ Asked (fun l p => three l = some p) start stop t te r := by
  obtain ⟨s, e, rt, re⟩ := r
  have key : ∀ q, pointLine.build start stop t q = some ⟨s, e, rt, re⟩ ↔
      three start = some s ∧ (∀ l, stop = some l → three l = some e) ∧ (stop = none → e = s) ∧ rt = t ∧ re = q := by
    intro q
    unfold pointLine.build
    cases h1 : three start with
    | none => simp
    | some p =>
      cases stop with
      | none => simp; rintro rfl; constructor <;> (rintro ⟨rfl, rfl, rfl⟩; simp)
      | some l =>
        cases h2 : three l with
        | none => simp [h2]
        | some p2 => simp [h2]; rintro rfl rfl; constructor <;> (rintro ⟨rfl, rfl⟩; simp)
  unfold pointLine
  cases te with
  | none =>
    rw [key]
    simp only [Asked, Option.getD_none]
    constructor
    · rintro ⟨h1, h2, h3, rfl, rfl⟩; exact ⟨h1, h2, h3, rfl, rfl, le_refl _⟩
    · rintro ⟨h1, h2, h3, h4, h5, _⟩; exact ⟨h1, h2, h3, h4, h5⟩
  | some q =>
    simp only [Asked, Option.getD_some]
    by_cases h : t > q
    · rw [if_pos h]
      constructor
      · intro h; cases h
      · rintro ⟨_, _, _, rfl, rfl, h6⟩; omega
    · rw [if_neg h, key]
      constructor
      · rintro ⟨h1, h2, h3, rfl, rfl⟩; exact ⟨h1, h2, h3, rfl, rfl, by omega⟩
      · rintro ⟨h1, h2, h3, h4, h5, _⟩; exact ⟨h1, h2, h3, h4, h5⟩

theorem pad_point (l : List ℚ) (p : ℚ × ℚ × ℚ) : three (pad l) = some p ↔ Point l p := by
  obtain ⟨x, y, z⟩ := p
  rw [three_iff]
  match l with
  | [] => simp [pad, Point]
  | [_] => simp [pad, Point]
  | [a, b] => simp [pad, Point]; constructor <;> (rintro ⟨h1, h2, h3⟩; simp_all)
  | [a, b, c] => simp [pad, Point]
  | _ :: _ :: _ :: _ :: _ => simp [pad, Point]

/-- **C258**: `point_line_spill` makes a release exactly when every position has two or three numbers and the end is not before the
beginning; it is then from the start to the end that were given, a position without depth at the surface, all at the start if no end is
given, and lasts from the one time to the other. -/
theorem C258_point (start : List ℚ) (stop : Option (List ℚ)) (t : ℤ) (te : Option ℤ) (r : Rel) :
    pointLineSpill start stop t te = some r ↔ Asked Point start stop t te r := by
  unfold pointLineSpill
  rw [pointLine_iff]
  simp only [Asked, pad_point]
  cases stop with
  | none => simp
  | some l => simp [pad_point]

/-- The point at the surface over a position, whatever comes after its longitude and latitude. -/
def Over (l : List ℚ) (p : ℚ × ℚ × ℚ) : Prop := ∃ m, l = p.1 :: p.2.1 :: m ∧ p.2.2 = 0

theorem flat_over (l : List ℚ) (p : ℚ × ℚ × ℚ) : three (flat l) = some p ↔ Over l p := by
  obtain ⟨x, y, z⟩ := p
  rw [three_iff]
  match l with
  | [] => simp [flat, Over]
  | [_] => simp [flat, Over]
  | a :: b :: m => simp [flat, Over]; constructor <;> (rintro ⟨h1, h2, h3⟩; simp_all)

/-- **C258**: `surface_point_line_spill` does the same at the surface. -/
theorem C258_surface (start : List ℚ) (stop : Option (List ℚ)) (t : ℤ) (te : Option ℤ) (r : Rel) :
    surfaceSpill start stop t te = some r ↔ Asked Over start stop t te r := by
  unfold surfaceSpill
  rw [pointLine_iff]
  simp only [Asked, flat_over]
  cases stop with
  | none => simp
  | some l => simp [flat_over]

/-- **C258**: `subsurface_spill` makes a release at the point with three numbers that is given, and refuses others. -/
theorem C258_subsurface (start : List ℚ) (t : ℤ) (te : Option ℤ) (r : Rel) :
    subsurfaceSpill start t te = some r ↔
      start = [r.start.1, r.start.2.1, r.start.2.2] ∧ r.stop = r.start ∧ r.time = t ∧ r.endTime = te.getD t ∧ r.time ≤ r.endTime := by
  unfold subsurfaceSpill
  rw [pointLine_iff]
  simp [Asked, three_iff]

example : pointLineSpill [-144, 48] (some [-143, 49, 10]) 0 (some 3600) = some ⟨(-144, 48, 0), (-143, 49, 10), 0, 3600⟩ := by
  decide +kernel
example : surfaceSpill [-144, 48, 100] none 0 none = some ⟨(-144, 48, 0), (-144, 48, 0), 0, 0⟩ := by decide +kernel
example : subsurfaceSpill [-144, 48, 1000] 5 (some 9) = some ⟨(-144, 48, 1000), (-144, 48, 1000), 5, 9⟩ := by decide +kernel
example : pointLineSpill [-144, 48] none 5 (some 4) = none := by decide +kernel

end Verif.SpillSet.Helpers
