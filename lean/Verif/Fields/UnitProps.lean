import Verif.Fields.UnitModel

/-!
# C151, C152: gridded data are returned in the unit asked for
-/

namespace Verif.Fields

/-- Two numbers with units that are the same quantity: one kind, one value in the base unit. -/
def Same (reg : Reg) (a : String) (v : ℚ) (b : String) (w : ℚ) : Prop :=
  ∃ x y, reg a = some x ∧ reg b = some y ∧ x.kind = y.kind ∧ x.fac * v + x.off = y.fac * w + y.off

/-- A table of units in which every unit is of some size. -/
def Good (reg : Reg) : Prop := ∀ u x, reg u = some x → x.fac ≠ 0

/-- Both units are known and of one kind. -/
def Compatible (reg : Reg) (a b : String) : Prop :=
  ∃ x y, reg a = some x ∧ reg b = some y ∧ x.kind = y.kind

theorem lin_same {x y : Scale} (hy : y.fac ≠ 0) (v : ℚ) :
    x.fac * v + x.off = y.fac * lin x y v + y.off := by
  unfold lin; field_simp; ring

theorem toUnit_same (reg : Reg) (hg : Good reg) (a b : String) (v : ℚ) (h : Compatible reg a b) :
    ∃ w, toUnit reg (some a) (some b) v = .ok w ∧ Same reg a v b w := by
  obtain ⟨x, y, hx, hy, hk⟩ := h
  unfold toUnit
  by_cases hab : a = b
  · subst hab
    exact ⟨v, by simp, x, x, hx, hx, rfl, rfl⟩
  · refine ⟨lin x y v, ?_, x, y, hx, hy, hk, lin_same (hg b y hy) v⟩
    simp [hab, convertWarn, hx, hy, hk]

/-! ## C151 -/

/-- **C151, as stated**: a value is returned in the unit asked for, else in the unit of GNOME, else as it is
stored; a unit that is not known gets a warning and the value as it is stored. -/
def C151_claim : Prop :=
  ∀ (reg : Reg), Good reg → ∀ (x : Var) (req : Option String) (v : ℚ) (a b : String),
    x.units.or x.gnome = some a → (req.or x.gnome).getD a = b →
      (Compatible reg a b → ∃ w, x.at_ reg req v = .ok w ∧ Same reg a v b w)
      ∧ (reg a = none ∨ reg b = none → (x.at_ reg req v).val = some v)

/-- **C151 (partial)**: all but a requested unit that is not known. -/
theorem C151_partial (reg : Reg) (hg : Good reg) (x : Var) (req : Option String) (v : ℚ) (a b : String)
    (ha : x.units.or x.gnome = some a) (hb : (req.or x.gnome).getD a = b) :
    (Compatible reg a b → ∃ w, x.at_ reg req v = .ok w ∧ Same reg a v b w)
    ∧ (reg a = none → (x.at_ reg req v).val = some v)
    ∧ (a = b → x.at_ reg req v = .ok v) := by
  unfold Var.at_
  rw [ha]
  cases hr : req.or x.gnome with
  | none =>
    simp only [hr, Option.getD_none] at hb
    subst hb
    refine ⟨fun h => ?_, fun _ => rfl, fun _ => rfl⟩
    obtain ⟨p, q, hp, _, _⟩ := h
    exact ⟨v, rfl, p, p, hp, hp, rfl, rfl⟩
  | some c =>
    simp only [hr, Option.getD_some] at hb
    subst hb
    refine ⟨toUnit_same reg hg a c v, fun h => ?_, fun h => by simp [toUnit, h]⟩
    unfold toUnit
    by_cases hac : a = c
    · simp [hac, Res.val]
    · simp [hac, convertWarn, h, Res.val]

/-- Data without any unit are returned as they are, whatever is asked for. -/
theorem C151_no_unit (reg : Reg) (req : Option String) (v : ℚ) :
    (Var.mk none none).at_ reg req v = .ok v := by
  simp [Var.at_, toUnit]

/-- A table with a few of the units of `nucos`. -/
def few : Reg := fun u =>
  if u = "m/s" then some ⟨0, 1, 0⟩ else if u = "cm/s" then some ⟨0, 1 / 100, 0⟩
  else if u = "K" then some ⟨1, 1, 0⟩ else if u = "C" then some ⟨1, 1, 27315 / 100⟩ else none

theorem few_good : Good few := by
  intro u x h
  unfold few at h
  split_ifs at h <;> simp only [Option.some.injEq] at h <;> subst h <;> norm_num

theorem few_vals : few "m/s" = some ⟨0, 1, 0⟩ ∧ few "cm/s" = some ⟨0, 1 / 100, 0⟩ ∧ few "K" = some ⟨1, 1, 0⟩
    ∧ few "C" = some ⟨1, 1, 27315 / 100⟩ ∧ few "furlong" = none := by simp [few]

/-- Non-trivial case: 0 °C is 273.15 K when GNOME wants kelvin. -/
example : (Var.mk (some "C") (some "K")).at_ few none 0 = .ok (27315 / 100) := by
  simp [Var.at_, toUnit, convertWarn, few_vals, lin]

/-- **C151 fails**: a requested unit that is not known raises `IndexError` instead of a warning. -/
theorem C151_counterexample_unknown :
    (Var.mk (some "C") (some "K")).at_ few (some "furlong") 0 = .formatError := by
  simp [Var.at_, toUnit, convertWarn, few_vals]

theorem C151_counterexample : ¬ C151_claim := by
  intro h
  have := (h few few_good ⟨some "C", some "K"⟩ (some "furlong") 0 "C" "furlong" rfl rfl).2
    (Or.inr few_vals.2.2.2.2)
  rw [C151_counterexample_unknown] at this
  simp [Res.val] at this

/-! ## C152 -/

/-- **C152, as stated**: the components of a vector are returned in the unit asked for, else in the unit of
GNOME. -/
def C152_claim : Prop :=
  ∀ (reg : Reg), Good reg → ∀ (n : Nat) (a b : String) (g req : Option String) (vs : List ℚ),
    vs.length = n → req.or g = some b → Compatible reg a b →
      List.Forall₂ (fun v r => ∃ w, r = .ok w ∧ Same reg a v b w) vs
        ((mkVec (List.replicate n ⟨some a, none⟩) g).at_ reg req vs)

theorem mkVec_units (n : Nat) (a : String) (g : Option String) :
    (mkVec (List.replicate (n + 1) ⟨some a, none⟩) g).units = some a := by
  simp [mkVec, Vec.units, List.replicate_succ]

/-- What a vector returns: the conversion applied twice. -/
theorem vec_at (reg : Reg) (a b : String) (g req : Option String) (n : Nat) (vs : List ℚ)
    (hn : vs.length = n) (hb : req.or g = some b) :
    (mkVec (List.replicate n ⟨some a, none⟩) g).at_ reg req vs
      = vs.map fun v => match toUnit reg (some a) (some b) v with
        | .ok w => toUnit reg (some a) (some b) w
        | .warned w => toUnit reg (some a) (some b) w
        | e => e := by
  subst hn
  cases vs with
  | nil => simp [mkVec, Vec.at_]
  | cons v0 vs0 =>
    have hu : (mkVec (List.replicate (v0 :: vs0).length ⟨some a, none⟩) g).units = some a :=
      mkVec_units vs0.length a g
    have hz : ∀ l : List ℚ, List.zipWith (fun (c : Var) v => c.at_ reg (some b) v)
        (List.replicate l.length ⟨some a, g⟩) l = l.map fun v => toUnit reg (some a) (some b) v := by
      intro l
      induction l with
      | nil => rfl
      | cons y ys ih => simp only [List.length_cons, List.replicate_succ, List.zipWith_cons_cons, List.map_cons, ih]; rfl
    unfold Vec.at_
    simp only [hu]
    have hg : (mkVec (List.replicate (v0 :: vs0).length ⟨some a, none⟩) g).gnome = g := rfl
    have hcs : (mkVec (List.replicate (v0 :: vs0).length ⟨some a, none⟩) g).comps
        = List.replicate (v0 :: vs0).length ⟨some a, g⟩ := by
      simp [mkVec, List.map_replicate]
    rw [hg, hcs, hb, hz, List.map_map]
    simp only [Option.some_or]
    rfl

/-- **C152 (partial)**: right when the data are stored in the unit asked for. -/
theorem C152_partial (reg : Reg) (a : String) (g req : Option String) (n : Nat) (vs : List ℚ)
    (hn : vs.length = n) (hb : req.or g = some a) :
    (mkVec (List.replicate n ⟨some a, none⟩) g).at_ reg req vs = vs.map .ok := by
  rw [vec_at reg a a g req n vs hn hb]
  congr 1
  funext v
  simp [toUnit]

/-- Otherwise the number is converted twice: for units without an offset, the factor is squared. -/
theorem C152_twice (reg : Reg) (hg : Good reg) (a b : String) (x y : Scale) (g req : Option String) (n : Nat)
    (vs : List ℚ) (hn : vs.length = n) (hb : req.or g = some b) (hab : a ≠ b)
    (hx : reg a = some x) (hy : reg b = some y) (hk : x.kind = y.kind) (hx0 : x.off = 0) (hy0 : y.off = 0) :
    (mkVec (List.replicate n ⟨some a, none⟩) g).at_ reg req vs
      = vs.map fun v => .ok ((x.fac / y.fac) ^ 2 * v) := by
  rw [vec_at reg a b g req n vs hn hb]
  congr 1
  funext v
  have := hg b y hy
  simp only [toUnit, hab, if_false, convertWarn, hx, hy, hk, if_true, lin, hx0, hy0]
  congr 1
  field_simp
  ring

/-- **C152 fails**: a current of 100 cm/s to the east is returned as 0.01 m/s. -/
theorem C152_counterexample_speed :
    (mkVec [⟨some "cm/s", none⟩, ⟨some "cm/s", none⟩] (some "m/s")).at_ few none [100, 0]
      = [.ok (1 / 100), .ok 0] := by
  simp [mkVec, Vec.at_, Var.at_, toUnit, convertWarn, few_vals, lin, Vec.units]

theorem C152_counterexample : ¬ C152_claim := by
  intro h
  have := h few few_good 2 "cm/s" "m/s" (some "m/s") none [100, 0] rfl rfl
    ⟨⟨0, 1 / 100, 0⟩, ⟨0, 1, 0⟩, few_vals.2.1, few_vals.1, rfl⟩
  rw [show List.replicate 2 (Var.mk (some "cm/s") none) = [⟨some "cm/s", none⟩, ⟨some "cm/s", none⟩] from rfl,
    C152_counterexample_speed] at this
  obtain ⟨⟨w, hw, x, y, hx, hy, _, he⟩, _⟩ := List.forall₂_cons.mp this
  rw [few_vals.2.1] at hx
  rw [few_vals.1] at hy
  simp only [Option.some.injEq] at hx hy
  subst hx hy
  simp only [Res.ok.injEq] at hw
  subst hw
  norm_num at he

/-- Non-trivial case of the partial theorem. -/
example : (mkVec [⟨some "m/s", none⟩, ⟨some "m/s", none⟩] (some "m/s")).at_ few none [3, -4]
    = [.ok 3, .ok (-4)] := by
  norm_num [mkVec, Vec.at_, Var.at_, toUnit, Vec.units]

/-- A constant vector can be made with a list of units, one for each component... -/
theorem C152_constant (g : Option String) (values : List ℚ) (us : List String)
    (h : us.length = values.length) :
    constantVec g values (.many us) = .ok (mkVec (us.map fun u => ⟨some u, none⟩) g) := by
  simp only [constantVec]
  rw [if_pos (by omega), ← h, List.take_length]

/-- ...but not with one unit for all of two or more components, and not without units. -/
theorem C152_constant_counterexample (g : Option String) (values : List ℚ) (u : String)
    (h : 2 ≤ values.length) :
    constantVec g values (.one u) = .indexError ∧ constantVec g values .none_ = .typeError := by
  constructor
  · simp only [constantVec]; rw [if_neg (by omega)]
  · simp only [constantVec]; rw [if_neg (by rintro rfl; simp at h)]

end Verif.Fields
