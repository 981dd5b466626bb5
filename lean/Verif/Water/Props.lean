import Verif.Water.Model
import Mathlib.Tactic.NormNum
import Mathlib.Tactic.Ring
/-!
# C130 the properties of the water are returned in the unit asked for
-/
namespace Verif.Water

/-- conversions of `nucos` between valid units of a property: to the same unit and one after the other -/
structure IsConv (n : Nuc) : Prop where
  same : ∀ a u x, u ∈ n.valid a → n.conv a u u x = x
  trans : ∀ a u v t x, u ∈ n.valid a → v ∈ n.valid a → t ∈ n.valid a → n.conv a v t (n.conv a u v x) = n.conv a u t x
  si : ∀ a, si a ∈ n.valid a

/-- spec: what the water is, in SI units: the number held, read in the unit held -/
def phys (n : Nuc) (w : Wat) (a : Attr) : Option ℚ :=
  match a with
  | .density => some (density n w)
  | a => (value n w a).map (n.conv a (w.units a) (si a))

/-- every unit held is a valid one -/
def Good (n : Nuc) (w : Wat) : Prop := ∀ a, w.units a ∈ n.valid a

theorem good_put {n : Nuc} {w : Wat} {a : Attr} {u : String} (h : Good n w) (hu : u ∈ n.valid a) : Good n (putUnit w a u) := by
  intro b
  unfold putUnit
  dsimp only
  split
  · rename_i e; rw [e]; exact hu
  · exact h b

theorem setValue_units {w w' : Wat} {a : Attr} {v : ℚ} (h : setValue w a v = .ok w') : w'.units = w.units := by
  cases a <;> simp only [setValue, Except.ok.injEq, reduceCtorEq] at h <;> rw [← h]

theorem good_setUnits {n : Nuc} (us : List (Attr × String)) : ∀ {w : Wat}, Good n w → Good n (setUnits n w us).1 := by
  induction us with
  | nil => intro w h; exact h
  | cons p us ih =>
    intro w h
    obtain ⟨a, u⟩ := p
    unfold setUnits
    split
    · exact h
    · rename_i hu
      exact ih (good_put h (by simpa using hu))

theorem good_step {n : Nuc} {w : Wat} (op : Op) (h : Good n w) : Good n (step n w op) := by
  cases op with
  | set a v u =>
    unfold step set
    by_cases hu : u ∈ n.valid a
    · simp only [hu, not_true_eq_false, if_false]
      cases e : setValue w a v with
      | error e => exact h
      | ok w' =>
        refine good_put ?_ hu
        intro b
        rw [setValue_units e]
        exact h b
    · simp only [hu, not_false_eq_true, if_true]
      exact h
  | assign a v =>
    unfold step
    dsimp only
    split
    · rename_i w' e
      intro b
      rw [setValue_units e]
      exact h b
    · exact h
  | units us => exact good_setUnits us h

/-- Whatever is done with a water, refused or not, its units stay valid. -/
theorem C130_units_valid {n : Nuc} {w : Wat} (ops : List Op) (h : Good n w) : Good n (run n w ops) := by
  induction ops generalizing w with
  | nil => exact h
  | cons op ops ih => exact ih (good_step op h)

/-- A new water has valid units. -/
theorem C130_new_valid {n : Nuc} (hn : IsConv n) (t s sed : ℚ) (wh f : Option ℚ) (us : Option (List (Attr × String))) (w : Wat)
    (h : new n t s sed wh f us = .ok w) : Good n w := by
  have h0 : Good n ⟨t, s, sed, wh, f, 1 / 1000000, si⟩ := fun a => hn.si a
  unfold new at h
  cases us with
  | none => dsimp only at h; cases h; exact h0
  | some us =>
    dsimp only at h
    have := good_setUnits (n := n) us h0
    revert h this
    cases setUnits n ⟨t, s, sed, wh, f, 1 / 1000000, si⟩ us with
    | mk w' e =>
      cases e with
      | none => intro h hg; cases h; exact hg
      | some e => intro h; cases h

theorem getIn_eq {n : Nuc} (hn : IsConv n) {w : Wat} (hw : Good n w) (a : Attr) (u : String) (v : ℚ) (hu : u ∈ n.valid a) :
    getIn n w a u v = .ok (n.conv a (w.units a) u v) := by
  unfold getIn
  split
  · rename_i e; rw [e, hn.same a _ v (hw a)]
  · rfl

/-- the full claim: what `get` returns is the water's property in the unit asked for, or in the SI unit -/
def C130_claim : Prop := ∀ (n : Nuc), IsConv n → ∀ (w : Wat), Good n w → ∀ (a : Attr),
  get n w a none = .ok (phys n w a) ∧
  ∀ u ∈ n.valid a, get n w a (some u) = .ok ((phys n w a).map (n.conv a (si a) u))

/-- Holds for all but the density, and for the density if its unit has not been changed. -/
theorem C130_get_partial {n : Nuc} (hn : IsConv n) {w : Wat} (hw : Good n w) (a : Attr)
    (ha : a = .density → w.units .density = si .density) :
    get n w a none = .ok (phys n w a) ∧
    ∀ u ∈ n.valid a, get n w a (some u) = .ok ((phys n w a).map (n.conv a (si a) u)) := by
  have hp : phys n w a = (value n w a).map (n.conv a (w.units a) (si a)) := by
    by_cases hd : a = .density
    · subst hd
      simp only [phys, value, Option.map_some]
      rw [ha rfl, hn.same _ _ _ (hn.si _)]
    · cases a <;> first | exact absurd rfl hd | rfl
  rw [hp]
  unfold get
  cases value n w a with
  | none => exact ⟨rfl, fun u _ => rfl⟩
  | some v =>
    refine ⟨?_, fun u hu => ?_⟩
    · dsimp only
      split
      · rename_i e
        rw [Option.map_some, e, hn.same a _ v (hw a)]
      · rw [getIn_eq hn hw a _ v (hn.si a)]
        rfl
    · dsimp only
      rw [getIn_eq hn hw a u v hu]
      simp only [Option.map_some]
      rw [hn.trans a _ _ _ v (hw a) (hn.si a) hu]
      rfl

/-- The density is that of water of the salinity held and the temperature in °C, in whatever unit that was given. -/
theorem C130_density {n : Nuc} (hn : IsConv n) {w : Wat} (hw : Good n w) (v : ℚ) (h : get n w .temperature (some "C") = .ok (some v)) :
    value n w .density = some (n.rho w.salinity v) := by
  have h' : (getIn n w .temperature "C" w.temperature).map some = .ok (some v) := h
  unfold getIn at h'
  simp only [value, density]
  split at h'
  · rename_i e
    have hv : w.temperature = v := by simpa [Except.map] using h'
    have hc : "C" ∈ n.valid .temperature := by rw [e]; exact hw .temperature
    rw [← e, hn.same _ _ _ hc, hv]
  · split at h'
    · have hv : n.conv .temperature (w.units .temperature) "C" w.temperature = v := by simpa [Except.map] using h'
      rw [hv]
    · simp [Except.map] at h'

/-- Units that are not of the property are refused, where there is a value. -/
theorem C130_get_refused {n : Nuc} {w : Wat} (hw : Good n w) (a : Attr) (u : String) (hu : u ∉ n.valid a) :
    get n w a (some u) = if (value n w a).isSome then .error .invalidUnit else .ok none := by
  unfold get
  cases value n w a with
  | none => rfl
  | some v =>
    have : u ≠ w.units a := fun e => hu (e ▸ hw a)
    simp [getIn, this, hu, Except.map]

/-- A value set in a unit is returned in that unit as it was given, and is what was given in SI; nothing else changes but the
density, which goes with temperature and salinity. -/
theorem C130_set {n : Nuc} {w : Wat} {a : Attr} (ha : a ≠ .density) (v : ℚ) {u : String} (hu : u ∈ n.valid a) :
    ∃ w', set n w a v u = .ok w' ∧ get n w' a (some u) = .ok (some v) ∧ phys n w' a = some (n.conv a u (si a) v) ∧
    ∀ b, b ≠ a → b ≠ .density → phys n w' b = phys n w b ∧ w'.units b = w.units b := by
  have key : ∃ w1, setValue w a v = .ok w1 ∧ value n w1 a = some v ∧ ∀ b, b ≠ a → b ≠ .density → value n w1 b = value n w b := by
    cases a <;> first
      | exact absurd rfl ha
      | exact ⟨_, rfl, rfl, by intro b h1 h2; cases b <;> first | exact absurd rfl h1 | exact absurd rfl h2 | rfl⟩
  obtain ⟨w1, e, hv, ho⟩ := key
  have hval : ∀ b, b ≠ .density → value n (putUnit w1 a u) b = value n w1 b := by
    intro b hb
    cases b <;> first | exact absurd rfl hb | rfl
  have hun : (putUnit w1 a u).units a = u := by simp [putUnit]
  refine ⟨putUnit w1 a u, ?_, ?_, ?_, ?_⟩
  · unfold set
    rw [if_neg (not_not.2 hu), e]
    rfl
  · unfold get
    rw [hval a ha, hv]
    simp [getIn, hun, Except.map]
  · have : phys n (putUnit w1 a u) a = (value n (putUnit w1 a u) a).map (n.conv a ((putUnit w1 a u).units a) (si a)) := by
      cases a <;> first | exact absurd rfl ha | rfl
    rw [this, hval a ha, hv, hun]
    rfl
  · intro b hb hd
    have hub : (putUnit w1 a u).units b = w.units b := by
      unfold putUnit
      dsimp only
      rw [if_neg hb, setValue_units e]
    refine ⟨?_, hub⟩
    have e1 : ∀ w2 : Wat, phys n w2 b = (value n w2 b).map (n.conv b (w2.units b) (si b)) := by
      intro w2
      cases b <;> first | exact absurd rfl hd | rfl
    rw [e1, e1, hval b hd, ho b hb hd, hub]

/-- `set` is refused for units that are not of the property and for the density. -/
theorem C130_set_refused {n : Nuc} (w : Wat) (a : Attr) (v : ℚ) (u : String) :
    (∃ e, set n w a v u = .error e) ↔ u ∉ n.valid a ∨ a = .density := by
  unfold set
  by_cases hu : u ∈ n.valid a
  · simp only [hu, not_true_eq_false, if_false, false_or]
    cases a <;> simp [setValue, Except.map]
  · simp [hu]

theorem setUnits_cons {n : Nuc} (w : Wat) (a : Attr) (u : String) (us : List (Attr × String)) (h : u ∈ n.valid a) :
    setUnits n w ((a, u) :: us) = setUnits n (putUnit w a u) us := by
  rw [setUnits, if_neg (not_not.2 h)]

/-- Units that are all valid are accepted; each property then has the unit given for it, or its old one. The numbers held stay:
they are read in the new units. -/
theorem C130_units {n : Nuc} (us : List (Attr × String)) : ∀ (w : Wat), (∀ p ∈ us, p.2 ∈ n.valid p.1) →
    (setUnits n w us).2 = none ∧
    (∀ a u, (us.map Prod.fst).Nodup → (a, u) ∈ us → (setUnits n w us).1.units a = u) ∧
    (∀ a, a ∉ us.map Prod.fst → (setUnits n w us).1.units a = w.units a) ∧
    (∀ a, a ≠ .density → value n (setUnits n w us).1 a = value n w a) := by
  induction us with
  | nil => intro w _; exact ⟨rfl, fun a u _ h => (nomatch h), fun _ _ => rfl, fun _ _ => rfl⟩
  | cons p us ih =>
    intro w h
    obtain ⟨a, u⟩ := p
    have hu : u ∈ n.valid a := h (a, u) (by simp)
    rw [setUnits_cons w a u us hu]
    obtain ⟨i1, i2, i3, i4⟩ := ih (putUnit w a u) (fun q hq => h q (List.mem_cons_of_mem _ hq))
    refine ⟨i1, ?_, ?_, ?_⟩
    · intro b t hn hb
      simp only [List.map_cons, List.nodup_cons] at hn
      rcases List.mem_cons.1 hb with e | e
      · cases e
        rw [i3 a hn.1]
        simp [putUnit]
      · exact i2 b t hn.2 e
    · intro b hb
      simp only [List.map_cons, List.mem_cons, not_or] at hb
      rw [i3 b hb.2]
      simp [putUnit, hb.1]
    · intro b hb
      rw [i4 b hb]
      cases b <;> first | exact absurd rfl hb | rfl

/-- the full claim: units that are refused leave the water as it was -/
def C130_claim_refused : Prop := ∀ (n : Nuc), IsConv n → ∀ (w : Wat) (us : List (Attr × String)),
  (setUnits n w us).2 ≠ none → (setUnits n w us).1 = w

/-- Holds if the first unit is the wrong one. -/
theorem C130_refused_partial {n : Nuc} (w : Wat) (a : Attr) (u : String) (us : List (Attr × String)) (h : u ∉ n.valid a) :
    setUnits n w ((a, u) :: us) = (w, some .invalidUnit) := by
  rw [setUnits, if_pos h]

/-- As an environment object, the water has its value at each of the points; without a value there is an error. -/
theorem C130_at {P : Type} {n : Nuc} (hn : IsConv n) {w : Wat} (hw : Good n w) (a : Attr) (ha : a ≠ .density) (points : List P)
    {u : String} (hu : u ∈ n.valid a) :
    at_ n w a points u = match phys n w a with
      | none => .error .notGiven
      | some v => .ok (List.replicate points.length (n.conv a (si a) u v)) := by
  unfold at_
  rw [(C130_get_partial hn hw a (fun e => absurd e ha)).2 u hu]
  cases phys n w a with
  | none => rfl
  | some v => simp [List.map_const']

/-- units of a small `nucos`: kilograms or grams, kelvin, Celsius, metres -/
def toy : Nuc where
  valid a := match a with
    | .temperature => ["K", "C"]
    | .salinity => ["psu"]
    | .sediment => ["kg/m^3"]
    | .waveHeight => ["m", "km"]
    | .fetch => ["m", "km"]
    | .viscosity => ["m^2/s"]
    | .density => ["kg/m^3", "g/cm^3"]
  conv _ u v x :=
    let b := if u = "C" then x + 273 else if u = "km" ∨ u = "g/cm^3" then x * 1000 else x
    if v = "C" then b - 273 else if v = "km" ∨ v = "g/cm^3" then b / 1000 else b
  rho s t := 1000 + s - t / 10

theorem toy_conv : IsConv toy := by
  constructor
  · intro a u x hu
    cases a <;> simp [toy] at hu <;> rcases hu with rfl | rfl <;> simp [toy]
  · intro a u v t x hu hv ht
    cases a <;> simp [toy] at hu hv ht <;> rcases hu with rfl | rfl <;> rcases hv with rfl | rfl <;>
      rcases ht with rfl | rfl <;> simp [toy]
  · intro a
    cases a <;> simp [toy, si]

def sea : Wat := ⟨283, 35, 5 / 1000, none, some 3, 1 / 1000000, fun a => if a = .fetch then "km" else si a⟩

theorem sea_good : Good toy sea := by
  intro a
  cases a <;> simp [toy, sea, si]

/-- False for the density: it is always computed in kg/m³ but is taken to be in the unit given for it. -/
theorem C130_counterexample : ¬ C130_claim := by
  intro h
  have := (h toy toy_conv (putUnit sea .density "g/cm^3") (good_put sea_good (by simp [toy])) .density).1
  simp [get, value, phys, density, putUnit, sea, si, toy, getIn, Except.map] at this
  norm_num at this

/-- False: units given before the wrong one are taken over. -/
theorem C130_counterexample_refused : ¬ C130_claim_refused := by
  intro h
  have := h toy toy_conv sea [(.temperature, "C"), (.salinity, "m")] (by simp [setUnits, toy])
  have e := congrArg (fun w => w.units .temperature) this
  simp [setUnits, toy, putUnit, sea, si] at e

/-! concrete cases -/
example : get toy sea .fetch none = .ok (some 3000) := by
  have := (C130_get_partial toy_conv sea_good .fetch (by intro h; cases h)).1
  rw [this]
  simp [phys, value, sea, toy, si]
  norm_num
example : ∃ w', set toy sea .temperature 20 "C" = .ok w' ∧ get toy w' .temperature (some "C") = .ok (some 20) := by
  obtain ⟨w', h1, h2, _⟩ := C130_set (n := toy) (w := sea) (a := .temperature) (by decide) 20 (u := "C") (by simp [toy])
  exact ⟨w', h1, h2⟩
example : Good toy (run toy sea [.set .fetch 7 "m", .units [(.waveHeight, "km")], .assign .salinity 30]) :=
  C130_units_valid _ sea_good

end Verif.Water
