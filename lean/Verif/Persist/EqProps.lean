import Verif.Persist.Eq

/-!
# C80: `==` compares objects
-/

namespace Verif.PersistEq

theorem of_yes {b : Bool} : Res.of b = .yes ↔ b = true := by
  cases b <;> simp [Res.of]

theorem of_ne_raised {b : Bool} : Res.of b ≠ .raised := by
  cases b <;> simp [Res.of]

theorem close_iff (a b : ℚ) : close a b = true ↔ Near a b := by
  unfold close Near atol rtol
  exact decide_eq_true_iff

theorem allClose_iff (a b : List ℚ) :
    (a.length = b.length ∧ allClose a b = true) ↔ List.Forall₂ Near a b := by
  induction a generalizing b with
  | nil => cases b <;> simp [allClose]
  | cons x a ih =>
    cases b with
    | nil => simp [allClose]
    | cons y b =>
      have := ih b
      simp only [allClose, List.length_cons, List.zip_cons_cons, List.all_cons, Bool.and_eq_true,
        close_iff, List.forall₂_cons] at this ⊢
      constructor
      · rintro ⟨h1, h2, h3⟩
        exact ⟨h2, this.1 ⟨by omega, h3⟩⟩
      · rintro ⟨h1, h2⟩
        obtain ⟨h3, h4⟩ := this.2 h2
        exact ⟨by omega, h1, h4⟩

theorem arrNum_iff (a : List ℚ) (q : ℚ) : arrNum a q = .yes ↔ List.Forall₂ Near a [q] := by
  rw [arrNum, of_yes]
  cases a with
  | nil => simp
  | cons x a =>
    cases a with
    | nil => simp [close_iff]
    | cons y a => simp

theorem numArr_iff (a : List ℚ) (q : ℚ) : numArr q a = .yes ↔ List.Forall₂ Near [q] a := by
  rw [numArr, of_yes]
  cases a with
  | nil => simp
  | cons x a =>
    cases a with
    | nil => simp [close_iff]
    | cons y a => simp

theorem near_iff {a b : Val} (h : a.inexact ∨ b.inexact) :
    Alike a b ↔ ∃ l m, a.nums = some l ∧ b.nums = some m ∧ List.Forall₂ Near l m := by
  constructor
  · intro h'
    cases h' with
    | none => simp [Val.inexact] at h
    | int n => simp [Val.inexact] at h
    | str n => simp [Val.inexact] at h
    | near _ h1 h2 h3 => exact ⟨_, _, h1, h2, h3⟩
    | obj _ => simp [Val.inexact] at h
  · rintro ⟨l, m, h1, h2, h3⟩
    exact Alike.near h h1 h2 h3

mutual
theorem eqVal_iff : ∀ a b : Val, eqVal a b = .yes ↔ Alike a b
  | .arr a, .arr b => by
    rw [near_iff (by simp [Val.inexact])]
    simp only [eqVal, Val.nums, Option.some.injEq, ← allClose_iff]
    split
    · rename_i h; simp [of_yes, h]
    · rename_i h; simp [h]
  | .arr a, .float q => by
    rw [near_iff (by simp [Val.inexact])]
    simp [eqVal, arrNum_iff, Val.nums]
  | .arr a, .int n => by
    rw [near_iff (by simp [Val.inexact])]
    simp [eqVal, arrNum_iff, Val.nums]
  | .float q, .arr a => by
    rw [near_iff (by simp [Val.inexact])]
    simp [eqVal, numArr_iff, Val.nums]
  | .int n, .arr a => by
    rw [near_iff (by simp [Val.inexact])]
    simp [eqVal, numArr_iff, Val.nums]
  | .arr a, .none => by rw [near_iff (by simp [Val.inexact])]; simp [eqVal, Val.nums]
  | .arr a, .str _ => by rw [near_iff (by simp [Val.inexact])]; simp [eqVal, Val.nums]
  | .arr a, .obj _ _ => by rw [near_iff (by simp [Val.inexact])]; simp [eqVal, Val.nums]
  | .none, .arr a => by rw [near_iff (by simp [Val.inexact])]; simp [eqVal, Val.nums]
  | .str _, .arr a => by rw [near_iff (by simp [Val.inexact])]; simp [eqVal, Val.nums]
  | .obj _ _, .arr a => by rw [near_iff (by simp [Val.inexact])]; simp [eqVal, Val.nums]
  | .float a, .float b => by
    rw [near_iff (by simp [Val.inexact])]; simp [eqVal, Val.nums, of_yes, close_iff]
  | .float a, .int b => by
    rw [near_iff (by simp [Val.inexact])]; simp [eqVal, Val.nums, of_yes, close_iff]
  | .int a, .float b => by
    rw [near_iff (by simp [Val.inexact])]; simp [eqVal, Val.nums, of_yes, close_iff]
  | .float a, .none => by rw [near_iff (by simp [Val.inexact])]; simp [eqVal, Val.nums]
  | .float a, .str _ => by rw [near_iff (by simp [Val.inexact])]; simp [eqVal, Val.nums]
  | .float a, .obj _ _ => by rw [near_iff (by simp [Val.inexact])]; simp [eqVal, Val.nums]
  | .none, .float a => by rw [near_iff (by simp [Val.inexact])]; simp [eqVal, Val.nums]
  | .str _, .float a => by rw [near_iff (by simp [Val.inexact])]; simp [eqVal, Val.nums]
  | .obj _ _, .float a => by rw [near_iff (by simp [Val.inexact])]; simp [eqVal, Val.nums]
  | .none, .none => ⟨fun _ => Alike.none, fun _ => by rw [eqVal]⟩
  | .int a, .int b => by
    rw [eqVal, of_yes, decide_eq_true_iff]
    constructor
    · rintro rfl; exact Alike.int _
    · intro h
      cases h with
      | int _ => rfl
      | near h _ _ _ => simp [Val.inexact] at h
  | .str a, .str b => by
    rw [eqVal, of_yes, decide_eq_true_iff]
    constructor
    · rintro rfl; exact Alike.str _
    · intro h
      cases h with
      | str _ => rfl
      | near h _ _ _ => simp [Val.inexact] at h
  | .obj c as, .obj c' bs => by
    rw [eqVal]
    constructor
    · intro h
      split at h
      · rename_i hc; subst hc; exact Alike.obj ((eqAttrs_iff as bs).1 h)
      · cases h
    · intro h
      cases h with
      | near h _ _ _ => simp [Val.inexact] at h
      | obj h => rw [if_pos rfl]; exact (eqAttrs_iff as bs).2 h
  | .none, .int _ => ⟨fun h => by simp [eqVal] at h, fun h => by cases h; simp_all [Val.inexact]⟩
  | .none, .str _ => ⟨fun h => by simp [eqVal] at h, fun h => by cases h; simp_all [Val.inexact]⟩
  | .none, .obj _ _ => ⟨fun h => by simp [eqVal] at h, fun h => by cases h; simp_all [Val.inexact]⟩
  | .int _, .none => ⟨fun h => by simp [eqVal] at h, fun h => by cases h; simp_all [Val.inexact]⟩
  | .int _, .str _ => ⟨fun h => by simp [eqVal] at h, fun h => by cases h; simp_all [Val.inexact]⟩
  | .int _, .obj _ _ => ⟨fun h => by simp [eqVal] at h, fun h => by cases h; simp_all [Val.inexact]⟩
  | .str _, .none => ⟨fun h => by simp [eqVal] at h, fun h => by cases h; simp_all [Val.inexact]⟩
  | .str _, .int _ => ⟨fun h => by simp [eqVal] at h, fun h => by cases h; simp_all [Val.inexact]⟩
  | .str _, .obj _ _ => ⟨fun h => by simp [eqVal] at h, fun h => by cases h; simp_all [Val.inexact]⟩
  | .obj _ _, .none => ⟨fun h => by simp [eqVal] at h, fun h => by cases h; simp_all [Val.inexact]⟩
  | .obj _ _, .int _ => ⟨fun h => by simp [eqVal] at h, fun h => by cases h; simp_all [Val.inexact]⟩
  | .obj _ _, .str _ => ⟨fun h => by simp [eqVal] at h, fun h => by cases h; simp_all [Val.inexact]⟩
theorem eqAttrs_iff : ∀ as bs : List (Bool × Val), eqAttrs as bs = .yes ↔ AlikeAll as bs
  | [], [] => ⟨fun _ => AlikeAll.nil, fun _ => by rw [eqAttrs]⟩
  | [], _ :: _ => ⟨fun h => by simp [eqAttrs] at h, fun h => by cases h⟩
  | (true, _) :: _, [] => ⟨fun h => by simp [eqAttrs] at h, fun h => by cases h⟩
  | (false, _) :: _, [] => ⟨fun h => by simp [eqAttrs] at h, fun h => by cases h⟩
  | (true, a) :: as, (f, b) :: bs => by
    rw [eqAttrs]
    have h1 := eqVal_iff a b
    have h2 := eqAttrs_iff as bs
    constructor
    · intro h
      split at h
      · rename_i hv; exact AlikeAll.cons (h1.1 hv) (h2.1 h)
      · rename_i hv; exact absurd h (by intro e; exact hv e)
    · intro h
      cases h with
      | cons ha hb => rw [h1.2 ha]; exact h2.2 hb
  | (false, a) :: as, (f, b) :: bs => by
    rw [eqAttrs]
    have h2 := eqAttrs_iff as bs
    constructor
    · intro h; exact AlikeAll.skip (h2.1 h)
    · intro h
      cases h with
      | skip hb => exact h2.2 hb
end

/-- `==` is true exactly for objects that agree, up to the documented tolerance, in everything that
counts, at any depth. -/
theorem C80_means (a b : Val) : eqVal a b = .yes ↔ Alike a b := eqVal_iff a b

theorem near_refl (q : ℚ) : Near q q := by
  unfold Near
  rw [sub_self, abs_zero]
  have := abs_nonneg q
  linarith

mutual
theorem alike_refl : ∀ a : Val, Alike a a
  | .none => Alike.none
  | .int n => Alike.int n
  | .str n => Alike.str n
  | .float q => Alike.near (Or.inl trivial) rfl rfl (List.Forall₂.cons (near_refl q) List.Forall₂.nil)
  | .arr _ => Alike.near (Or.inl trivial) rfl rfl (List.forall₂_same.2 fun q _ => near_refl q)
  | .obj _ as => Alike.obj (alikeAll_refl as)
theorem alikeAll_refl : ∀ as : List (Bool × Val), AlikeAll as as
  | [] => AlikeAll.nil
  | (true, a) :: as => AlikeAll.cons (alike_refl a) (alikeAll_refl as)
  | (false, _) :: as => AlikeAll.skip (alikeAll_refl as)
end

/-- Every object equals itself and every copy of itself. -/
theorem C80_refl (a : Val) : eqVal a a = .yes := (eqVal_iff a a).2 (alike_refl a)

/-- Full C80: equality is symmetric and never raises. -/
def C80_claim : Prop := ∀ a b, eqVal a b = eqVal b a ∧ eqVal a b ≠ .raised

/-- C80 fails: the tolerance is relative to the second. -/
theorem C80_counterexample_sym :
    ∃ c x y, eqVal (.obj c [(true, .float x)]) (.obj c [(true, .float y)]) = .yes ∧
      eqVal (.obj c [(true, .float y)]) (.obj c [(true, .float x)]) = .no := by
  refine ⟨0, 1 - 1001 / 100000000, 1, ?_, ?_⟩
  · simp [eqVal, eqAttrs, close, Res.of, atol, rtol, abs_of_neg, abs_of_pos]; norm_num [abs_of_neg]
  · simp [eqVal, eqAttrs, close, Res.of, atol, rtol, abs_of_pos]; norm_num [abs_of_pos]

/-- C80 fails: a number that is given in one and not in the other raises an exception. -/
theorem C80_counterexample_raises :
    ∃ c x, eqVal (.obj c [(true, .float x)]) (.obj c [(true, .none)]) = .raised :=
  ⟨0, 5, by simp [eqVal, eqAttrs]⟩

theorem C80_counterexample : ¬ C80_claim := by
  intro h
  obtain ⟨c, x, hx⟩ := C80_counterexample_raises
  exact (h _ _).2 hx

mutual
/-- Objects of the same class have the same attributes, and where one has a float the other has a number
or an array. -/
def Fits : Val → Val → Prop
  | .obj c as, .obj c' bs => c = c' → FitsAll as bs
  | .float _, .none | .float _, .str _ | .float _, .obj _ _ => False
  | .none, .float _ | .str _, .float _ | .obj _ _, .float _ => False
  | _, _ => True
/-- Attribute by attribute. -/
def FitsAll : List (Bool × Val) → List (Bool × Val) → Prop
  | [], [] => True
  | (f, a) :: as, (g, b) :: bs => f = g ∧ Fits a b ∧ FitsAll as bs
  | _, _ => False
end

theorem arrNum_ne (a : List ℚ) (q : ℚ) : arrNum a q ≠ .raised := of_ne_raised
theorem numArr_ne (a : List ℚ) (q : ℚ) : numArr q a ≠ .raised := of_ne_raised

mutual
theorem fits_ne : ∀ a b : Val, Fits a b → eqVal a b ≠ .raised
  | .obj c as, .obj c' bs, h => by
    rw [Fits] at h
    rw [eqVal]
    split
    · rename_i hc; exact fitsAll_ne as bs (h hc)
    · simp
  | .arr a, .arr b, _ => by
    rw [eqVal]; split
    · exact of_ne_raised
    · simp
  | .arr a, .float q, _ => by rw [eqVal]; exact arrNum_ne a q
  | .arr a, .int n, _ => by rw [eqVal]; exact arrNum_ne a n
  | .float q, .arr a, _ => by rw [eqVal]; exact numArr_ne a q
  | .int n, .arr a, _ => by rw [eqVal]; exact numArr_ne a n
  | .arr _, .none, _ | .arr _, .str _, _ | .arr _, .obj _ _, _ => by simp [eqVal]
  | .none, .arr _, _ | .str _, .arr _, _ | .obj _ _, .arr _, _ => by simp [eqVal]
  | .float a, .float b, _ => by rw [eqVal]; exact of_ne_raised
  | .float a, .int b, _ => by rw [eqVal]; exact of_ne_raised
  | .int a, .float b, _ => by rw [eqVal]; exact of_ne_raised
  | .float _, .none, h | .float _, .str _, h | .float _, .obj _ _, h => by rw [Fits] at h; exact h.elim
  | .none, .float _, h | .str _, .float _, h | .obj _ _, .float _, h => by rw [Fits] at h; exact h.elim
  | .none, .none, _ => by simp [eqVal]
  | .int a, .int b, _ => by rw [eqVal]; exact of_ne_raised
  | .str a, .str b, _ => by rw [eqVal]; exact of_ne_raised
  | .none, .int _, _ | .none, .str _, _ | .none, .obj _ _, _ => by simp [eqVal]
  | .int _, .none, _ | .int _, .str _, _ | .int _, .obj _ _, _ => by simp [eqVal]
  | .str _, .none, _ | .str _, .int _, _ | .str _, .obj _ _, _ => by simp [eqVal]
  | .obj _ _, .none, _ | .obj _ _, .int _, _ | .obj _ _, .str _, _ => by simp [eqVal]
theorem fitsAll_ne : ∀ as bs : List (Bool × Val), FitsAll as bs → eqAttrs as bs ≠ .raised
  | [], [], _ => by simp [eqAttrs]
  | [], _ :: _, h => by simp [FitsAll] at h
  | (_, _) :: _, [], h => by simp [FitsAll] at h
  | (true, a) :: as, (g, b) :: bs, h => by
    rw [FitsAll] at h
    have h1 := fits_ne a b h.2.1
    have h2 := fitsAll_ne as bs h.2.2
    rw [eqAttrs]
    split
    · exact h2
    · exact h1
  | (false, a) :: as, (g, b) :: bs, h => by
    rw [FitsAll] at h
    rw [eqAttrs]
    exact fitsAll_ne as bs h.2.2
end

/-- No exception where floats meet numbers. -/
theorem C80_no_raise_partial (a b : Val) (h : Fits a b) : eqVal a b ≠ .raised := fits_ne a b h

mutual
/-- No floats and no arrays anywhere. -/
def Exact : Val → Prop
  | .float _ => False
  | .arr _ => False
  | .obj _ as => ExactAll as
  | _ => True
/-- Attribute by attribute. -/
def ExactAll : List (Bool × Val) → Prop
  | [] => True
  | (_, a) :: as => Exact a ∧ ExactAll as
end

mutual
theorem alike_sym : ∀ a b : Val, Exact a → Exact b → Fits a b → Alike a b → Alike b a
  | a, b, ha, hb, hf, h => by
    cases h with
    | none => exact Alike.none
    | int n => exact Alike.int n
    | str n => exact Alike.str n
    | near h _ _ _ =>
      exfalso
      rcases h with h | h
      · cases a <;> simp_all [Val.inexact, Exact]
      · cases b <;> simp_all [Val.inexact, Exact]
    | obj h =>
      rw [Exact] at ha hb
      rw [Fits] at hf
      exact Alike.obj (alikeAll_sym _ _ ha hb (hf rfl) h)
theorem alikeAll_sym : ∀ as bs : List (Bool × Val), ExactAll as → ExactAll bs → FitsAll as bs →
    AlikeAll as bs → AlikeAll bs as
  | as, bs, ha, hb, hf, h => by
    cases h with
    | nil => exact AlikeAll.nil
    | cons h1 h2 =>
      rw [ExactAll] at ha hb
      rw [FitsAll] at hf
      obtain ⟨rfl, hf1, hf2⟩ := hf
      exact AlikeAll.cons (alike_sym _ _ ha.1 hb.1 hf1 h1) (alikeAll_sym _ _ ha.2 hb.2 hf2 h2)
    | skip h2 =>
      rw [ExactAll] at ha hb
      rw [FitsAll] at hf
      obtain ⟨rfl, hf1, hf2⟩ := hf
      exact AlikeAll.skip (alikeAll_sym _ _ ha.2 hb.2 hf2 h2)
end

/-- Symmetric for objects without floats and arrays. -/
theorem C80_sym_partial (a b : Val) (ha : Exact a) (hb : Exact b) (h : Fits a b)
    (hy : eqVal a b = .yes) : eqVal b a = .yes :=
  (eqVal_iff b a).2 (alike_sym a b ha hb h ((eqVal_iff a b).1 hy))

example : eqVal (.obj 0 [(true, .int 3), (false, .str 1), (true, .obj 1 [(true, .arr [1, 2])])])
    (.obj 0 [(true, .int 3), (false, .str 2), (true, .obj 1 [(true, .arr [1, 2])])]) = .yes := by
  rw [C80_means]
  refine Alike.obj (.cons (.int 3) (.skip (.cons (.obj (.cons (alike_refl _) .nil)) .nil)))

end Verif.PersistEq
