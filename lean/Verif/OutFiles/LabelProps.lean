import Verif.OutFiles.LabelModel
import Verif.OutFiles.LegendProps
import Mathlib.Tactic.FieldSimp
import Mathlib.Tactic.NormNum
import Mathlib.Tactic.Linarith
import Mathlib.Tactic.Positivity

/-!
# C369: the numbers of the ERMA legend
-/
namespace Verif.OutFiles.Label
open Verif.OutFiles.Legend Verif.SpillSet

/-- How many kilograms an amount in some units is, for oil of a density. -/
def kilograms (u : Units) (density a : ℚ) : ℚ := match u with
  | .mass kg => a * kg
  | .volume m3 => a * m3 * density

/-- Units are positive, and a kilogram is known by both its names. -/
structure Table (unit : String → Option Units) : Prop where
  mass : ∀ n p, unit n = some (.mass p) → 0 < p
  volume : ∀ n p, unit n = some (.volume p) → 0 < p
  kg : unit "kg" = some (.mass 1)
  kilograms : unit "kilograms" = some (.mass 1)

/-! ### The conversion -/

/-- What is converted is as many kilograms as before, and any unit of mass or volume can be asked for. -/
theorem C369_convert (unit : String → Option Units) (h : Table unit) (a b : String) (p density x : ℚ) (ha : unit a = some (.mass p))
    (hd : density ≠ 0) (u : Units) (hb : unit b = some u) :
    ∃ r, convert unit a b density x = some r ∧ kilograms u density r = x * p := by
  cases u with
  | mass q =>
    have hq := (h.mass b q hb).ne'
    refine ⟨x * p / q, ?_, ?_⟩
    · simp [convert, convMass, ha, hb]
    · simp only [kilograms]; field_simp
  | volume q =>
    have hq := (h.volume b q hb).ne'
    refine ⟨x * p / 1 / density / q, ?_, ?_⟩
    · simp [convert, convMass, convVolume, ha, hb, h.kg]
    · simp only [kilograms]; field_simp

/-- Nothing else is converted: not from a volume, not to something that is neither. -/
theorem C369_refused (unit : String → Option Units) (a b : String) (density x : ℚ) (h : (∀ p, unit a ≠ some (.mass p)) ∨ unit b = none) :
    convert unit a b density x = none := by
  rcases h with h | h
  · have : ∀ c, convMass unit a c x = none := by
      intro c
      unfold convMass
      split
      · rename_i p q h1 _; exact absurd h1 (h p)
      · rfl
    simp [convert, this]
  · have h1 : convMass unit a b x = none := by simp [convMass, h]
    simp [convert, h1, convVolume, h]

/-- It is what a spill says of itself: its amount in the unit. -/
theorem C369_amount (unit : String → Option Units) (h : Table unit) (s : Spill) (b : String) (hb : unit b = some s.units) :
    convert unit "kg" b s.density s.mass = some s.amount := by
  rcases s with ⟨u, d, m, sc⟩
  cases u with
  | mass q => simp [convert, convMass, h.kg, hb, Spill.amount] 
  | volume q => simp [convert, convMass, convVolume, h.kg, hb, Spill.amount]

/-- A larger mass has a larger number, in every unit. -/
theorem C369_order (unit : String → Option Units) (h : Table unit) (a b : String) (density x y r t : ℚ) (hd : 0 < density) (hxy : x < y)
    (hr : convert unit a b density x = some r) (ht : convert unit a b density y = some t) : r < t := by
  rcases ha : unit a with _ | _ | p
  · rw [C369_refused unit a b density x (.inl (by simp [ha]))] at hr; simp at hr
  · rename_i p
    rcases hb : unit b with _ | u
    · rw [C369_refused unit a b density x (.inr hb)] at hr; simp at hr
    obtain ⟨r', h1, h2⟩ := C369_convert unit h a b p density x ha hd.ne' u hb
    obtain ⟨t', h3, h4⟩ := C369_convert unit h a b p density y ha hd.ne' u hb
    rw [hr] at h1; rw [ht] at h3
    obtain rfl := Option.some.inj h1
    obtain rfl := Option.some.inj h3
    have hp := h.mass a p ha
    have hlt : kilograms u density r < kilograms u density t := by rw [h2, h4]; exact mul_lt_mul_of_pos_right hxy hp
    cases u with
    | mass q => exact lt_of_mul_lt_mul_right hlt (h.mass b q hb).le
    | volume q =>
      simp only [kilograms] at hlt
      exact lt_of_mul_lt_mul_right (lt_of_mul_lt_mul_right hlt hd.le) (h.volume b q hb).le
  · rw [C369_refused unit a b density x (.inl (by simp [ha]))] at hr; simp at hr

/-! ### The legend -/

/-- The texts of a group tell for a spill `j` of it, whose style shows the mass in units `u`, what its classes are: as many kilograms of its own oil as the bounds of
the colour. -/
def Tells (density : Nat → ℚ) (j : Nat) (s : Style) (u : Units) (ls : List (ℚ × ℚ)) : Prop :=
  ∀ i, i < ls.length → ∃ p, ls[i]? = some p ∧ kilograms u (density j) p.1 = lower s i ∧ kilograms u (density j) p.2 = upper s i

/-- **C369**, as one would expect: the texts tell the bounds for each spill of the group. -/
def C369_claim : Prop :=
  ∀ (unit : String → Option Units) (disable : Bool) (spills : List (Option Style)) (density : Nat → ℚ) (g : List Nat) (j : Nat) (s : Style)
    (u : Units) (ls : List (ℚ × ℚ)),
    Table unit → (∀ k, 0 < density k) → g ∈ groups disable spills → j ∈ g → (spills[j]?).join = some s → unit s.units = some u →
    labels unit spills density g = some ls → Tells density j s u ls

/-- A table of three units. -/
def someUnits (n : String) : Option Units :=
  if n = "kg" ∨ n = "kilograms" then some (.mass 1) else if n = "m^3" then some (.volume 1) else none

theorem someUnits_table : Table someUnits := by
  refine ⟨?_, ?_, by decide, by decide⟩
  · intro n p h
    unfold someUnits at h
    split_ifs at h <;> simp_all
    rw [← h]; norm_num
  · intro n p h
    unfold someUnits at h
    split_ifs at h <;> simp_all
    rw [← h]; norm_num

/-- A style in cubic metres. -/
def cubic : Style := { red with units := "m^3" }

/-- Two spills of oils with other densities and the same style: the text has the volumes for the first oil. -/
theorem C369_counterexample : ¬ C369_claim := by
  intro h
  have hl : labels someUnits [some cubic, some cubic] (fun k => if k = 0 then 1 else 2) [0, 1] = some [(0, 5), (5, 10)] := by decide +kernel
  have := h someUnits false [some cubic, some cubic] (fun k => if k = 0 then 1 else 2) [0, 1] 1 cubic (.volume 1) _ someUnits_table
    (by intro k; split_ifs <;> norm_num) (by decide +kernel) (by decide) rfl (by decide) hl 0 (by decide)
  obtain ⟨p, hp, -, h2⟩ := this
  simp only [List.getElem?_cons_zero, Option.some.injEq] at hp
  subst hp
  norm_num [kilograms, cubic, red, upper] at h2

theorem mapM_each {α β : Type} (l : List α) (f : α → Option β) (ls : List β) (h : l.mapM f = some ls) :
    ls.length = l.length ∧ ∀ (i : Nat) (a : α), l[i]? = some a → ∃ b, ls[i]? = some b ∧ f a = some b := by
  induction l generalizing ls with
  | nil =>
    simp only [List.mapM_nil, pure, Option.some.injEq] at h
    subst h
    simp
  | cons x r ih =>
    rw [List.mapM_cons] at h
    rcases hx : f x with _ | y
    · rw [hx] at h; simp at h
    rcases hr : r.mapM f with _ | zs
    · rw [hx, hr] at h; simp at h
    rw [hx, hr] at h
    obtain rfl := Option.some.inj h
    obtain ⟨h1, h2⟩ := ih zs hr
    refine ⟨by simp [h1], fun i a hi => ?_⟩
    cases i with
    | zero =>
      simp only [List.getElem?_cons_zero, Option.some.injEq] at hi
      subst hi
      exact ⟨y, rfl, hx⟩
    | succ i => exact h2 i a (by simpa using hi)

theorem mapM_range {β : Type} (n : Nat) (f : Nat → Option β) (ls : List β) (h : (List.range n).mapM f = some ls) :
    ls.length = n ∧ ∀ i < n, ∃ b, ls[i]? = some b ∧ f i = some b := by
  obtain ⟨h1, h2⟩ := mapM_each _ f ls h
  exact ⟨by simpa using h1, fun i hi => h2 i i (by simp [hi])⟩

/-- **C369** for spills that are not put together, for a unit of mass, or for oils of one density; with one text for each colour of the first spill.  Missing: the text of a group is made with the
density of its first spill. -/
theorem C369_partial (unit : String → Option Units) (disable : Bool) (spills : List (Option Style)) (density : Nat → ℚ) (g : List Nat)
    (j : Nat) (s : Style) (u : Units) (ls : List (ℚ × ℚ)) (h : Table unit) (hd : ∀ k, 0 < density k) (hg : g ∈ groups disable spills)
    (hj : j ∈ g) (hs : (spills[j]?).join = some s) (hu : unit s.units = some u) (hl : labels unit spills density g = some ls)
    (hx : disable = true ∨ (∃ q, u = .mass q) ∨ ∀ k ∈ g, density k = density j) :
    Tells density j s u ls := by
  cases g with
  | nil => simp at hj
  | cons k r =>
    obtain ⟨s', hs', -, e2, e3, e4, -, -⟩ := (C227_groups disable spills).2.2 _ hg j hj k (by simp) s hs
    have hden : (∃ q, u = .mass q) ∨ density k = density j := by
      rcases hx with hx | hx | hx
      · obtain ⟨i, hi⟩ := (groups_spec disable spills).2.2 hx _ hg
        rw [hi, List.mem_singleton] at hj
        rw [List.cons.injEq] at hi
        right; rw [hi.1, hj]
      · exact .inl hx
      · exact .inr (hx k (by simp))
    have hkil : ∀ a, kilograms u (density k) a = kilograms u (density j) a := by
      intro a
      rcases hden with ⟨q, rfl⟩ | hden
      · rfl
      · rw [hden]
    have hlo : ∀ i, upper s' i = upper s i := by intro i; simp [upper, e3, e4]
    have hup : ∀ i, lower s' i = lower s i := by intro i; simp [lower, e3, hlo]
    simp only [labels, hs'] at hl
    split_ifs at hl with hm
    obtain ⟨h1, h2⟩ := mapM_range _ _ _ hl
    intro i hi
    obtain ⟨b, hb, hf⟩ := h2 i (by omega)
    refine ⟨b, hb, ?_⟩
    obtain ⟨p, hp1, hp2⟩ := C369_convert unit h "kilograms" s'.units 1 (density k) (lower s' i) h.kilograms (hd k).ne' u (e2 ▸ hu)
    obtain ⟨q, hq1, hq2⟩ := C369_convert unit h "kilograms" s'.units 1 (density k) (upper s' i) h.kilograms (hd k).ne' u (e2 ▸ hu)
    rw [hp1, hq1] at hf
    simp only [Option.bind_some, Option.map_some, Option.some.injEq] at hf
    subst hf
    rw [mul_one] at hp2 hq2
    exact ⟨by rw [← hkil, hp2, hup], by rw [← hkil, hq2, hlo]⟩

/-- In a unit that is known a group whose style shows the mass has its texts, one for each colour: there is no error. -/
theorem C369_shown (unit : String → Option Units) (h : Table unit) (spills : List (Option Style)) (density : Nat → ℚ) (k : Nat) (r : List Nat)
    (s : Style) (u : Units) (hd : 0 < density k) (hs : (spills[k]?).join = some s) (hm : s.data = "Mass") (hu : unit s.units = some u) :
    ∃ ls, labels unit spills density (k :: r) = some ls ∧ ls.length = s.colours.length := by
  simp only [labels, hs, hm, if_true]
  have hf : ∀ i, ∃ p, ((convert unit "kilograms" s.units (density k) (lower s i)).bind fun lo =>
      (convert unit "kilograms" s.units (density k) (upper s i)).map fun hi => (lo, hi)) = some p := by
    intro i
    obtain ⟨p, hp, -⟩ := C369_convert unit h "kilograms" s.units 1 (density k) (lower s i) h.kilograms hd.ne' u hu
    obtain ⟨q, hq, -⟩ := C369_convert unit h "kilograms" s.units 1 (density k) (upper s i) h.kilograms hd.ne' u hu
    exact ⟨(p, q), by rw [hp, hq]; rfl⟩
  choose f hf using hf
  simp only [hf]
  refine ⟨(List.range s.colours.length).map f, ?_, by simp⟩
  induction List.range s.colours.length with
  | nil => rfl
  | cons a l ih => rw [List.mapM_cons, ih]; rfl

example : labels someUnits [some cubic, none] (fun _ => 2) [0] = some [(0, 5 / 2), (5 / 2, 5)] ∧
    Tells (fun _ => 2) 0 cubic (.volume 1) [(0, 5 / 2), (5 / 2, 5)] := by
  have hl : labels someUnits [some cubic, none] (fun _ => 2) [0] = some [(0, 5 / 2), (5 / 2, 5)] := by decide +kernel
  exact ⟨hl, C369_partial someUnits false _ _ [0] 0 cubic _ _ someUnits_table (fun _ => by norm_num) (by decide +kernel) (by simp) rfl (by decide) hl
    (.inr (.inr fun _ _ => rfl))⟩

example : convert someUnits "kilograms" "m^3" 950 1900 = some 2 ∧ convert someUnits "m^3" "kg" 950 1900 = none ∧
    convert someUnits "kg" "furlong" 950 1900 = none := by decide +kernel

end Verif.OutFiles.Label
