import Verif.Fields.SeriesModel
import Verif.Fields.UnitProps

/-!
# C153, C154, C155: time series of numbers and vectors
-/

namespace Verif.Fields

/-! ## C153 -/

/-- A well-made series: two or more ascending times, a number for each. -/
structure Ser.Wf (x : Ser) : Prop where
  len : x.data.length = x.times.length
  two : 2 ≤ x.times.length
  asc : ∀ i j (hi : i < x.times.length) (hj : j < x.times.length), i < j → x.times[i] < x.times[j]

theorem takeWhile_len {α : Type} (p : α → Bool) (l : List α) (k : Nat) (hk : k ≤ l.length)
    (h1 : ∀ j (h : j < k), p (l[j]'(by omega)) = true) (h2 : ∀ h : k < l.length, p l[k] = false) :
    (l.takeWhile p).length = k := by
  induction l generalizing k with
  | nil => simp at hk ⊢; omega
  | cons a l ih =>
    cases k with
    | zero =>
      have := h2 (by simp)
      simp only [List.getElem_cons_zero] at this
      simp [this]
    | succ k =>
      have ha := h1 0 (by omega)
      simp only [List.getElem_cons_zero] at ha
      simp only [List.takeWhile_cons, ha, if_true, List.length_cons]
      congr 1
      apply ih k (by simpa using hk)
      · intro j hj
        have := h1 (j + 1) (by omega)
        simpa using this
      · intro hlt
        have := h2 (by simpa using hlt)
        simpa using this

theorem indexOf_between (x : Ser) (hw : x.Wf) (t : Int) (i : Nat) (hi : i + 1 < x.times.length)
    (h1 : x.times[i] < t) (h2 : t ≤ x.times[i + 1]) : indexOf x.times t = i + 1 := by
  apply takeWhile_len _ _ _ (by omega)
  · intro j hj
    simp only [decide_eq_true_eq]
    rcases Nat.lt_or_ge j i with h | h
    · have := hw.asc j i (by omega) (by omega) h; omega
    · have : j = i := by omega
      subst this; exact h1
  · intro h
    simp only [decide_eq_false_iff_not]; omega

theorem head_eq (x : Ser) (hw : x.Wf) : x.times.headD 0 = x.times[0]'(by have := hw.two; omega) := by
  have := hw.two
  have hgen : ∀ (l : List Int) (h : 0 < l.length), l.headD 0 = l[0] := by
    intro l h
    cases l with
    | nil => simp at h
    | cons a l => rfl
  exact hgen _ _

theorem last_eq {α : Type} (l : List α) (d : α) (h : 0 < l.length) : l.getLastD d = l[l.length - 1] := by
  rw [List.getLastD_eq_getLast?, List.getLast?_eq_getElem?, List.getElem?_eq_getElem (by omega)]
  rfl

theorem getD_eq {α : Type} (l : List α) (d : α) (i : Nat) (h : i < l.length) : l.getD i d = l[i] := by
  simp [h]

/-- **C153**: a series is the line between its values; outside of its times it is its first or last value if
it may be extrapolated, and refused if not. -/
theorem C153 (x : Ser) (hw : x.Wf) (t : Int) (e : Bool) :
    (∀ i (hi : i < x.times.length), x.times[i] = t → x.raw t e = some (x.data[i]'(by rw [hw.len]; exact hi)))
    ∧ (∀ i (hi : i + 1 < x.times.length), x.times[i] ≤ t → t ≤ x.times[i + 1] →
        ∃ v, x.raw t e = some v ∧
          (v - x.data[i]'(by rw [hw.len]; omega)) * ((x.times[i + 1] - x.times[i] : Int) : ℚ)
            = (x.data[i + 1]'(by rw [hw.len]; omega) - x.data[i]'(by rw [hw.len]; omega))
              * ((t - x.times[i] : Int) : ℚ))
    ∧ (t < x.times[0]'(by have := hw.two; omega) →
        x.raw t e = if x.extrap || e then some (x.data[0]'(by rw [hw.len]; have := hw.two; omega)) else none)
    ∧ (x.times[x.times.length - 1]'(by have := hw.two; omega) < t →
        x.raw t e = if x.extrap || e
          then some (x.data[x.data.length - 1]'(by rw [hw.len]; have := hw.two; omega)) else none) := by
  have htwo := hw.two
  have hlen := hw.len
  have hne : ¬ x.times.length = 1 := by omega
  have hlo := head_eq x hw
  have hhi := last_eq x.times 0 (by omega)
  have hd0 := getD_eq x.data 0 0 (by omega)
  have hdl := last_eq x.data 0 (by omega)
  have hmono : ∀ i j (hi : i < x.times.length) (hj : j < x.times.length), i ≤ j →
      x.times[i] ≤ x.times[j] := by
    intro i j hi hj h
    rcases Nat.lt_or_ge i j with h' | h'
    · exact (hw.asc i j hi hj h').le
    · have : i = j := by omega
      subst this; exact le_refl _
  -- strictly after the first time and not after the last
  have hmid : ∀ i (hi : i + 1 < x.times.length), x.times[i] < t → t ≤ x.times[i + 1] →
      x.raw t e = some (x.data[i]'(by omega) + (x.data[i + 1]'(by omega) - x.data[i]'(by omega)) *
        (((t - x.times[i] : Int) : ℚ) / ((x.times[i + 1] - x.times[i] : Int) : ℚ))) := by
    intro i hi h1 h2
    have hge := hmono 0 i (by omega) (by omega) (by omega)
    have hle := hmono (i + 1) (x.times.length - 1) (by omega) (by omega) (by omega)
    unfold Ser.raw
    simp only [hne, if_false, hlo, hhi]
    have c1 : decide (t < x.times[0]) = false := by simp; omega
    have c2 : decide (x.times[x.times.length - 1] < t) = false := by simp; omega
    have c3 : decide (t ≤ x.times[0]) = false := by simp; omega
    simp only [c1, c2, c3, Bool.or_false, Bool.and_false, Bool.false_eq_true, if_false]
    rw [indexOf_between x hw t i hi h1 h2]
    simp only [Nat.add_sub_cancel, alpha, Nat.succ_ne_zero, if_false,
      getD_eq x.data 0 i (by omega), getD_eq x.data 0 (i + 1) (by omega),
      getD_eq x.times 0 i (by omega), getD_eq x.times 0 (i + 1) (by omega)]
  have hfirst : t = x.times[0] → x.raw t e = some x.data[0] := by
    intro ht
    have hle := hmono 0 (x.times.length - 1) (by omega) (by omega) (by omega)
    unfold Ser.raw
    simp only [hne, if_false, hlo, hhi]
    have c1 : decide (t < x.times[0]) = false := by simp; omega
    have c2 : decide (x.times[x.times.length - 1] < t) = false := by simp; omega
    have c3 : decide (t ≤ x.times[0]) = true := by simp; omega
    have hi0 : indexOf x.times t = 0 := by
      apply takeWhile_len _ _ _ (by omega)
      · intro j hj; omega
      · intro _; simp; omega
    simp only [c1, c2, c3, Bool.or_false, Bool.and_false, Bool.and_true, Bool.false_eq_true, if_false, hi0, hd0]
    split <;> simp [alpha]
  have hat : ∀ i (hi : i < x.times.length), x.times[i] = t →
      x.raw t e = some (x.data[i]'(by omega)) := by
    intro i hi ht
    cases i with
    | zero => exact hfirst ht.symm
    | succ i =>
      have hlt := hw.asc i (i + 1) (by omega) hi (by omega)
      rw [hmid i hi (by omega) (by omega)]
      have hq : ((x.times[i + 1] - x.times[i] : Int) : ℚ) ≠ 0 := by
        have : x.times[i + 1] - x.times[i] ≠ 0 := by omega
        exact_mod_cast this
      rw [← ht, div_self hq]
      congr 1; ring
  refine ⟨hat, ?_, ?_, ?_⟩
  · intro i hi h1 h2
    have hlt := hw.asc i (i + 1) (by omega) hi (by omega)
    have hq : ((x.times[i + 1] - x.times[i] : Int) : ℚ) ≠ 0 := by
      have : x.times[i + 1] - x.times[i] ≠ 0 := by omega
      exact_mod_cast this
    rcases Int.lt_or_eq_of_le h1 with h | h
    · refine ⟨_, hmid i hi h h2, ?_⟩
      rw [add_sub_cancel_left, mul_assoc, div_mul_cancel₀ _ hq]
    · refine ⟨_, hat i (by omega) h, ?_⟩
      have : t - x.times[i] = 0 := by omega
      rw [this]; simp
  · intro ht
    unfold Ser.raw
    simp only [hne, if_false, hlo, hhi]
    have c1 : decide (t < x.times[0]) = true := by simp; omega
    have c3 : decide (t ≤ x.times[0]) = true := by simp; omega
    cases hex : x.extrap || e <;> simp [c1, c3]
    exact hd0
  · intro ht
    have hle := hmono 0 (x.times.length - 1) (by omega) (by omega) (by omega)
    unfold Ser.raw
    simp only [hne, if_false, hlo, hhi]
    have c2 : decide (x.times[x.times.length - 1] < t) = true := by simp; omega
    have c3 : decide (t ≤ x.times[0]) = false := by simp; omega
    simp only [c2, c3, Bool.and_false, Bool.and_true, Bool.or_true, Bool.false_eq_true, if_false, hdl]
    cases hex : x.extrap || e <;> simp

/-- Setting data or times keeps as many numbers as times, or is refused. -/
theorem C153_lengths (x : Ser) (h : x.data.length = x.times.length) (d : List ℚ) (t : List Int) :
    (∀ y, x.setData d = .ok y → y.data = d ∧ y.times = x.times ∧ y.data.length = y.times.length)
    ∧ (∀ y, x.setTimes t = .ok y → y.times = t ∧ y.data = x.data ∧ y.data.length = y.times.length)
    ∧ (d.length = x.times.length → ∃ y, x.setData d = .ok y)
    ∧ (t.length = x.times.length → ∃ y, x.setTimes t = .ok y) := by
  unfold Ser.setData Ser.setTimes
  refine ⟨?_, ?_, ?_, ?_⟩
  · intro y hy
    split at hy
    · cases hy
    · rename_i hc
      cases hy
      simp only [ne_eq, not_not] at hc
      exact ⟨rfl, rfl, hc⟩
  · intro y hy
    split at hy
    · cases hy
    · rename_i hc
      cases hy
      simp only [ne_eq, not_not] at hc
      exact ⟨rfl, rfl, hc.symm⟩
  · intro hd; exact ⟨_, by rw [if_neg (by simp [hd])]⟩
  · intro ht; exact ⟨_, by rw [if_neg (by simp [ht, h])]⟩

/-- A series is made from as many values as times, and from these. -/
theorem C153_made (times : List Int) (data : List ℚ) (units gnome : Option String) (extrap : Bool) :
    (∀ y, mkSer times data units gnome extrap = .ok y →
      y.data.length = y.times.length ∧ y.times = times ∧ y.data = data ∧ y.units = units ∧ y.gnome = gnome ∧ y.extrap = extrap)
    ∧ (times.length = data.length → ∃ y, mkSer times data units gnome extrap = .ok y) := by
  unfold mkSer
  constructor
  · intro y hy
    split at hy
    · cases hy
    · rename_i hc
      cases hy
      simp only [ne_eq, not_not] at hc
      exact ⟨hc.symm, rfl, rfl, rfl, rfl, rfl⟩
  · intro h
    rw [if_neg (by simpa using h)]
    exact ⟨_, rfl⟩

/-- A series with one time has its value at all times. -/
theorem C153_single (x : Ser) (s t : Int) (v : ℚ) (e : Bool) (ht : x.times = [s]) (hd : x.data = [v]) : x.raw t e = some v := by
  simp [Ser.raw, ht, hd]

/-- The value is the one asked for, in the unit asked for, or that of the data. -/
theorem C153_units (reg : Reg) (hg : Good reg) (x : Ser) (t : Int) (e : Bool) (v : ℚ) (a b : String)
    (req : Option String) (hv : x.raw t e = some v) (ha : x.units.or x.gnome = some a) (hb : req.getD a = b)
    (hc : Compatible reg a b) : ∃ w, x.at_ reg t req e = .ok w ∧ Same reg a v b w := by
  unfold Ser.at_
  simp only [hv, ha]
  cases req with
  | none =>
    simp only [Option.getD_none] at hb
    subst hb
    exact toUnit_same reg hg a a v hc
  | some c =>
    simp only [Option.getD_some] at hb
    subst hb
    exact toUnit_same reg hg a c v hc

/-- A series of three values. -/
def three : Ser := ⟨[0, 10, 30], [0, 20, 0], some "C", some "K", false⟩

/-- Non-trivial case. -/
example : three.Wf ∧ three.raw 15 false = some 15 ∧ three.raw 31 false = none
    ∧ three.raw 31 true = some 0 := by
  refine ⟨⟨rfl, by decide, ?_⟩, ?_, ?_, ?_⟩
  · intro i j hi hj hij
    simp only [three, List.length_cons, List.length_nil] at hi hj
    have : (i = 0 ∧ j = 1) ∨ (i = 0 ∧ j = 2) ∨ (i = 1 ∧ j = 2) := by omega
    rcases this with ⟨rfl, rfl⟩ | ⟨rfl, rfl⟩ | ⟨rfl, rfl⟩ <;> simp [three]
  all_goals norm_num [three, Ser.raw, indexOf, alpha]

/-! ## C154 -/

/-- **C154, as stated**: a copy of a series in other units says the same in every unit. -/
def C154_claim : Prop :=
  ∀ (reg : Reg), Good reg → ∀ (x y : Ser) (u : String), x.inUnits reg u = some y →
    ∀ (t : Int) (e : Bool) (b : String) (v w : ℚ),
      x.at_ reg t (some b) e = .ok v → y.at_ reg t (some b) e = .ok w → v = w

/-- **C154 (partial)**: the numbers of the copy are those of the original in the new unit... -/
theorem C154_partial (reg : Reg) (hg : Good reg) (x y : Ser) (u a : String) (ha : x.units = some a)
    (h : x.inUnits reg u = some y) :
    List.Forall₂ (fun v w => Same reg a v u w) x.data y.data ∧ y.times = x.times := by
  unfold Ser.inUnits at h
  rw [ha] at h
  simp only at h
  cases hp : reg a with
  | none => simp [hp] at h
  | some p =>
    cases hq : reg u with
    | none => simp [hp, hq] at h
    | some q =>
      simp only [hp, hq] at h
      split at h
      · rename_i hk
        cases h
        refine ⟨?_, rfl⟩
        rw [List.forall₂_map_right_iff, List.forall₂_same]
        intro v _
        exact ⟨p, q, hp, hq, hk, lin_same (hg u q hq) v⟩
      · cases h

/-- ...and the copy is right when the unit is the one it had. -/
theorem C154_same_unit (reg : Reg) (hg : Good reg) (x y : Ser) (a : String) (ha : x.units = some a)
    (h : x.inUnits reg a = some y) : y = x := by
  unfold Ser.inUnits at h
  rw [ha] at h
  simp only at h
  cases hp : reg a with
  | none => simp [hp] at h
  | some p =>
    simp only [hp, if_true, Option.some.injEq] at h
    subst h
    have hl : lin p p = id := by
      funext v
      have := hg a p hp
      unfold lin; simp only [id]; field_simp; ring
    rw [hl, List.map_id, ← ha]

/-- **C154 fails**: the copy in kelvin of 20 °C says it is 293.15 °C. -/
theorem C154_counterexample_kelvin :
    ∃ y, three.inUnits few "K" = some y ∧ three.at_ few 10 (some "C") = .ok 20
      ∧ y.at_ few 10 (some "C") = .ok (29315 / 100) := by
  refine ⟨{ three with data := three.data.map (lin ⟨1, 1, 27315 / 100⟩ ⟨1, 1, 0⟩) }, ?_, ?_, ?_⟩
  · simp [Ser.inUnits, three, few_vals]
  · norm_num [Ser.at_, three, Ser.raw, indexOf, alpha, toUnit]
  · norm_num [Ser.at_, three, Ser.raw, indexOf, alpha, toUnit, lin]

theorem C154_counterexample : ¬ C154_claim := by
  intro h
  obtain ⟨y, h1, h2, h3⟩ := C154_counterexample_kelvin
  have := h few few_good three y "K" h1 10 false "C" _ _ h2 h3
  norm_num at this

/-! ## C155 -/

/-- **C155, as stated**: a vector made of series gives what its components gave; asking for no extrapolation
is obeyed. -/
def C155_claim : Prop :=
  (∀ (reg : Reg), Good reg → ∀ (gnome : Option String) (vars vec : List Ser) (units : Option String),
    mkSerVec reg vars units = .ok vec → ∀ (t : Int) (b : String),
      serVecAt reg gnome vec t (some b) = vars.map fun v => v.at_ reg t (some b))
  ∧ (∀ (reg : Reg) (gnome : Option String) (vec : List Ser) (t : Int) (req : Option String) (e : Bool),
      serVecAt reg gnome vec t req e = vec.map fun v => v.at_ reg t (req.or gnome) e)

/-- **C155 (partial)**: components that all have the unit of the vector are asked as they are. -/
theorem C155_partial (reg : Reg) (gnome : Option String) (vars vec : List Ser) (units : Option String)
    (h : mkSerVec reg vars units = .ok vec)
    (hu : ∀ v ∈ vars, v.units = units.or (vars.head?.bind Ser.units)) (t : Int) (req : Option String) :
    vec = vars ∧ serVecAt reg gnome vec t req = vars.map fun v => v.at_ reg t (req.or gnome) := by
  unfold mkSerVec at h
  cases vars with
  | nil => cases h
  | cons v vs =>
    simp only at h
    split at h
    · cases h
    · split at h
      · cases h
      · cases h
        have hmap : ((v :: vs).map fun w => { w with units := units.or v.units }) = v :: vs := by
          conv_rhs => rw [← List.map_id (v :: vs)]
          apply List.map_congr_left
          intro w hw
          have := hu w hw
          simp only [List.head?_cons, Option.bind_some] at this
          rw [← this]; rfl
        rw [hmap]
        exact ⟨rfl, rfl⟩

/-- Non-trivial case: two components in one unit. -/
example : mkSerVec few [three, three] none = .ok [three, three] := by
  simp [mkSerVec, three, few_vals]

/-- **C155 fails**: a component in kelvin beside one in degrees Celsius is taken to be in degrees Celsius, and
so is the object that was given. -/
theorem C155_counterexample_units :
    ∃ vec, mkSerVec few [three, { three with units := some "K" }] none = .ok vec
      ∧ ({ three with units := some "K" } : Ser).at_ few 10 (some "K") = .ok 20
      ∧ (serVecAt few none vec 10 (some "K"))[1]? = some (.ok (29315 / 100)) := by
  refine ⟨[three, three], ?_, ?_, ?_⟩
  · simp [mkSerVec, three, few_vals]
  · norm_num [Ser.at_, three, Ser.raw, indexOf, alpha, toUnit]
  · simp [serVecAt, Ser.at_, three, Ser.raw, indexOf, alpha, toUnit, convertWarn, few_vals, lin]
    norm_num

/-- **C155 fails**: a request to extrapolate does not reach the components. -/
theorem C155_counterexample_extrapolate :
    serVecAt few none [three, three] 31 none true = [.badTime, .badTime]
      ∧ three.at_ few 31 none true = .ok 0 := by
  constructor
  · norm_num [serVecAt, Ser.at_, three, Ser.raw]
  · norm_num [Ser.at_, three, Ser.raw, toUnit]

theorem C155_counterexample : ¬ C155_claim := by
  intro h
  have := h.2 few none [three, three] 31 none true
  rw [C155_counterexample_extrapolate.1] at this
  simp [C155_counterexample_extrapolate.2] at this

end Verif.Fields
