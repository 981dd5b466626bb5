import Verif.OutFiles.LegendModel
import Verif.Hull.Props
import Mathlib.Data.List.Nodup
import Mathlib.Tactic.Linarith

/-!
# C227, C228: the colours of elements and contours in the ERMA data package
-/
namespace Verif.OutFiles.Legend

/-! ## C227: elements -/

/-- A colour map makes sense: its bounds go up, and there is one colour more than there are bounds. -/
def Style.Valid (s : Style) : Prop := s.bounds.Pairwise (· < ·) ∧ s.colours.length = s.bounds.length + 1

/-- The columns of the source files, by what is shown. -/
def columns : List (String × String) := [("Age", "age"), ("Viscosity", "viscosity"), ("Surface Concentration", "surf_conc"), ("Mass", "mass")]

/-- The colour of an element by the style of its own spill: the one after all bounds below its value; `none` = the default one. -/
def expected (spills : List (Option Style)) (e : Elem) : Option String :=
  match (spills[e.spill]?).join with
  | none => none
  | some s => some (s.colours.getD (s.bounds.countP (· < e.value ((columns.lookup s.data).getD ""))) "")

theorem columnOf_columns (d : String) : columnOf d = columns.lookup d := by
  unfold columnOf columns
  by_cases h1 : d = "Mass"
  · subst h1; decide +kernel
  by_cases h2 : d = "Surface Concentration"
  · subst h2; decide +kernel
  by_cases h3 : d = "Age"
  · subst h3; decide +kernel
  by_cases h4 : d = "Viscosity"
  · subst h4; decide +kernel
  have k : ∀ x : String, d ≠ x → (d == x) = false := fun x hx => by simpa using hx
  simp only [h1, h2, h3, h4, if_false, List.lookup, k _ h1, k _ h2, k _ h3, k _ h4]

/-- C227: a floating or beached element is in exactly one class of the legend, and this class has the colour that the style of its spill says. -/
def C227_claim : Prop :=
  ∀ (disable : Bool) (spills : List (Option Style)) (cs : List LClass) (e : Elem),
    (∀ s, some s ∈ spills → s.Valid) → classes disable spills = some cs →
    (e.status = 2 ∨ e.status = 3) → e.spill < spills.length →
    (cs.filter (·.meets e)).map (·.colour) = [expected spills e]

/-- Two styles that differ in their colours only. -/
def red : Style := ⟨"Mass", "kg", [0, 10], [5], ["", ""], 1, ["red", "pink"]⟩
def blue : Style := { red with colours := ["blue", "cyan"] }

/-- Two spills with the same bounds and other colours: the second one is drawn in the colours of the first one. -/
theorem C227_counterexample : ¬ C227_claim := by
  intro h
  have hv : ∀ s, some s ∈ [some red, some blue] → s.Valid := by
    intro s hs
    simp only [List.mem_cons, Option.some.injEq, List.not_mem_nil, or_false] at hs
    rcases hs with rfl | rfl <;> simp [Style.Valid, red, blue]
  obtain ⟨cs, hc⟩ : ∃ cs, classes false [some red, some blue] = some cs := ⟨_, rfl⟩
  have := h false _ cs ⟨2, 1, fun _ => 1⟩ hv hc (.inl rfl) (by decide)
  have hx : classes false [some red, some blue] = some
      [⟨2, [0, 1], "mass", none, some 5, some "red"⟩, ⟨3, [0, 1], "mass", none, some 5, some "red"⟩,
       ⟨2, [0, 1], "mass", some (5, false), none, some "pink"⟩, ⟨3, [0, 1], "mass", some (5, false), none, some "pink"⟩] := by rfl
  rw [hx] at hc
  obtain rfl := Option.some.inj hc
  exact absurd this (by decide +kernel)

/-- A value on the last bound meets two classes, with one spill already. -/
theorem C227_counterexample_bound : ∃ cs, classes true [some red] = some cs ∧
    (cs.filter (·.meets ⟨2, 0, fun _ => 5⟩)).map (·.colour) = [some "red", some "pink"] :=
  ⟨_, rfl, by decide +kernel⟩

/-! ### Groups -/

theorem match_refl (s : Style) : matchStyle s s = true := by simp [matchStyle]

/-- A group of spills that look alike: its first spill has a style, and all others have one that matches it. -/
def Alike (style : Nat → Option Style) (g : List Nat) : Prop :=
  ∃ h s, g.head? = some h ∧ style h = some s ∧ ∀ j ∈ g, ∃ s', style j = some s' ∧ matchStyle s s' = true

theorem add_spec (style : Nat → Option Style) (s : Style) (i : Nat) (hi : style i = some s) (gs : List (List Nat))
    (h : ∀ g ∈ gs, Alike style g) :
    (addToGroups style s i gs).flatten.Perm (i :: gs.flatten) ∧ ∀ g ∈ addToGroups style s i gs, Alike style g := by
  induction gs with
  | nil =>
    refine ⟨by simp [addToGroups], ?_⟩
    intro g hg
    simp only [addToGroups, List.mem_singleton] at hg
    subst hg
    exact ⟨i, s, rfl, hi, fun j hj => by rw [List.mem_singleton] at hj; subst hj; exact ⟨s, hi, match_refl s⟩⟩
  | cons g r ih =>
    obtain ⟨ih1, ih2⟩ := ih (fun g hg => h g (by simp [hg]))
    obtain ⟨x, s', h1, h2, h3⟩ := h g (by simp)
    have hb : g.head?.bind style = some s' := by rw [h1]; exact h2
    simp only [addToGroups, hb]
    by_cases hm : matchStyle s' s = true
    · rw [if_pos hm]
      refine ⟨?_, ?_⟩
      · simp only [List.flatten_cons, List.append_assoc]
        exact (List.perm_middle (l₁ := g) (l₂ := r.flatten) (a := i))
      · intro g' hg'
        rcases List.mem_cons.mp hg' with rfl | hg'
        · refine ⟨x, s', ?_, h2, ?_⟩
          · cases g with
            | nil => simp at h1
            | cons a b => simpa using h1
          · intro j hj
            rcases List.mem_append.mp hj with hj | hj
            · exact h3 j hj
            · rw [List.mem_singleton] at hj; subst hj; exact ⟨s, hi, hm⟩
        · exact h g' (by simp [hg'])
    · rw [if_neg hm]
      refine ⟨?_, ?_⟩
      · simp only [List.flatten_cons]
        exact (ih1.append_left g).trans List.perm_middle
      · intro g' hg'
        rcases List.mem_cons.mp hg' with rfl | hg'
        · exact h g' (by simp)
        · exact ih2 g' hg'

theorem loop_spec (style : Nat → Option Style) (is : List Nat) (acc : List (List Nat) × List Nat) (h : ∀ g ∈ acc.1, Alike style g)
    (h' : ∀ j ∈ acc.2, style j = none) :
    ((groupLoop style is acc).1.flatten ++ (groupLoop style is acc).2).Perm (is ++ (acc.1.flatten ++ acc.2)) ∧
    (∀ g ∈ (groupLoop style is acc).1, Alike style g) ∧ ∀ j ∈ (groupLoop style is acc).2, style j = none := by
  induction is generalizing acc with
  | nil => exact ⟨.refl _, h, h'⟩
  | cons i r ih =>
    simp only [groupLoop]
    cases hi : style i with
    | none =>
      obtain ⟨h1, h2, h3⟩ := ih (acc.1, acc.2 ++ [i]) h (by
        intro j hj
        rcases List.mem_append.mp hj with hj | hj
        · exact h' j hj
        · rw [List.mem_singleton] at hj; subst hj; exact hi)
      refine ⟨h1.trans ?_, h2, h3⟩
      have : (r ++ (acc.1.flatten ++ (acc.2 ++ [i]))).Perm (i :: (r ++ (acc.1.flatten ++ acc.2))) := by
        have e : r ++ (acc.1.flatten ++ (acc.2 ++ [i])) = (r ++ (acc.1.flatten ++ acc.2)) ++ [i] := by simp
        rw [e]; exact List.perm_append_singleton _ _
      exact this
    | some s =>
      obtain ⟨a1, a2⟩ := add_spec style s i hi acc.1 h
      obtain ⟨h1, h2, h3⟩ := ih (addToGroups style s i acc.1, acc.2) a2 h'
      refine ⟨h1.trans ?_, h2, h3⟩
      have e1 : (r ++ ((addToGroups style s i acc.1).flatten ++ acc.2)).Perm (r ++ ((i :: acc.1.flatten) ++ acc.2)) :=
        (a1.append_right acc.2).append_left r
      exact e1.trans List.perm_middle

/-- A group as the legend needs it: all spills without a style, or all alike. -/
def Good (style : Nat → Option Style) (g : List Nat) : Prop := Alike style g ∨ (g ≠ [] ∧ ∀ j ∈ g, style j = none)

theorem groups_spec (disable : Bool) (spills : List (Option Style)) :
    (groups disable spills).flatten.Perm (List.range spills.length) ∧
    (∀ g ∈ groups disable spills, Good (fun i => (spills[i]?).join) g) ∧
    (disable = true → ∀ g ∈ groups disable spills, ∃ i, g = [i]) := by
  cases disable with
  | true =>
    simp only [groups, if_true]
    refine ⟨?_, ?_, ?_⟩
    · have : ∀ l : List Nat, (l.map fun i => [i]).flatten = l := by
        intro l; induction l with
        | nil => rfl
        | cons a r ih => simp [ih]
      rw [this]
    · intro g hg
      obtain ⟨i, -, rfl⟩ := List.mem_map.mp hg
      cases hs : (spills[i]?).join with
      | none => exact .inr ⟨by simp, fun j hj => by rw [List.mem_singleton] at hj; subst hj; exact hs⟩
      | some s => exact .inl ⟨i, s, rfl, hs, fun j hj => by rw [List.mem_singleton] at hj; subst hj; exact ⟨s, hs, match_refl s⟩⟩
    · intro _ g hg
      obtain ⟨i, -, rfl⟩ := List.mem_map.mp hg
      exact ⟨i, rfl⟩
  | false =>
    obtain ⟨h1, h2, h3⟩ := loop_spec (fun i => (spills[i]?).join) (List.range spills.length) ([], []) (by simp) (by simp)
    simp only [List.flatten_nil, List.append_nil] at h1
    simp only [groups, Bool.false_eq_true, if_false]
    by_cases he : (groupLoop (fun i => (spills[i]?).join) (List.range spills.length) ([], [])).2 = []
    · rw [if_pos he]
      rw [he, List.append_nil] at h1
      exact ⟨h1, fun g hg => .inl (h2 g hg), by simp⟩
    · rw [if_neg he]
      refine ⟨?_, ?_, by simp⟩
      · simpa using h1
      · intro g hg
        rcases List.mem_append.mp hg with hg | hg
        · exact .inl (h2 g hg)
        · rw [List.mem_singleton] at hg; subst hg; exact .inr ⟨he, h3⟩

/-- Every spill is in exactly one group, and the spills of a group share everything that is compared (not their colours). -/
theorem C227_groups (disable : Bool) (spills : List (Option Style)) :
    (groups disable spills).flatten.Nodup ∧ (∀ i, i ∈ (groups disable spills).flatten ↔ i < spills.length) ∧
    (∀ g ∈ groups disable spills, ∀ i ∈ g, ∀ j ∈ g, ∀ s, (spills[i]?).join = some s → ∃ s', (spills[j]?).join = some s' ∧
      s.data = s'.data ∧ s.units = s'.units ∧ s.numbers = s'.numbers ∧ s.bounds = s'.bounds ∧ s.labels = s'.labels ∧ s.scale = s'.scale) := by
  obtain ⟨h1, h2, -⟩ := groups_spec disable spills
  refine ⟨h1.nodup_iff.mpr List.nodup_range, fun i => by rw [h1.mem_iff, List.mem_range], ?_⟩
  intro g hg i hi j hj s hs
  rcases h2 g hg with ⟨x, t, -, -, h⟩ | ⟨-, h⟩
  · obtain ⟨s1, e1, m1⟩ := h i hi
    obtain ⟨s2, e2, m2⟩ := h j hj
    refine ⟨s2, e2, ?_⟩
    obtain rfl := Option.some.inj (hs.symm.trans e1)
    simp only [matchStyle, Bool.and_eq_true, decide_eq_true_eq] at m1 m2
    obtain ⟨⟨⟨⟨⟨a1, a2⟩, a3⟩, a4⟩, a5⟩, a6⟩ := m1
    obtain ⟨⟨⟨⟨⟨b1, b2⟩, b3⟩, b4⟩, b5⟩, b6⟩ := m2
    exact ⟨a1.symm.trans b1, a2.symm.trans b2, a3.symm.trans b3, a4.symm.trans b4, a5.symm.trans b5, a6.symm.trans b6⟩
  · exact absurd ((h i hi).symm.trans hs) (by simp)

example : groups false [some red, none, some blue, some { red with scale := 2 }, none] = [[0, 2], [3], [1, 4]] := by decide +kernel

/-! ### Classes of a group -/

theorem spills_of_class (spills : List (Option Style)) (g : List Nat) (cs : List LClass) (h : groupClasses spills g = some cs)
    (c : LClass) (hc : c ∈ cs) : c.spills = g := by
  simp only [groupClasses] at h
  cases hs : g.head?.bind (fun i => (spills[i]?).join) with
  | none =>
    rw [hs] at h
    obtain rfl := Option.some.inj h
    simp only [List.mem_cons, List.not_mem_nil, or_false] at hc
    rcases hc with rfl | rfl <;> rfl
  | some s =>
    rw [hs] at h
    cases hcol : columnOf s.data with
    | none => simp [hcol] at h
    | some col =>
      simp only [hcol] at h
      by_cases hl : s.labels.length < s.colours.length ∨ s.numbers.length < 2
      · simp [hl] at h
      · rw [if_neg hl] at h
        obtain rfl := Option.some.inj h
        obtain ⟨p, -, hp⟩ := List.mem_flatMap.mp hc
        simp only [colourClasses, List.mem_cons, List.not_mem_nil, or_false] at hp
        rcases hp with rfl | rfl <;> rfl

theorem filter_other (cs : List LClass) (g : List Nat) (hg : ∀ c ∈ cs, c.spills = g) (e : Elem) (he : e.spill ∉ g) :
    cs.filter (·.meets e) = [] := by
  rw [List.filter_eq_nil_iff]
  intro c hc
  simp [LClass.meets, hg c hc, he]

theorem filter_groups (spills : List (Option Style)) (e : Elem) (gs : List (List Nat)) (css : List (List LClass))
    (h : gs.mapM (groupClasses spills) = some css) (hn : gs.flatten.Nodup) (g : List Nat) (hg : g ∈ gs) (he : e.spill ∈ g) :
    ∃ cs, groupClasses spills g = some cs ∧ css.flatten.filter (·.meets e) = cs.filter (·.meets e) := by
  induction gs generalizing css with
  | nil => simp at hg
  | cons a r ih =>
    rw [List.mapM_cons] at h
    cases ha : groupClasses spills a with
    | none => simp [ha] at h
    | some ca =>
      cases hr : r.mapM (groupClasses spills) with
      | none => simp [ha, hr] at h
      | some cr =>
        simp only [ha, hr, Option.bind_eq_bind, Option.bind_some, Option.pure_def, Option.some.injEq] at h
        subst h
        rw [List.flatten_cons, List.nodup_append] at hn
        obtain ⟨-, n2, n3⟩ := hn
        rw [List.flatten_cons, List.filter_append]
        by_cases hea : e.spill ∈ a
        · have hga : g = a := by
            rcases List.mem_cons.mp hg with rfl | hg
            · rfl
            · exact absurd rfl (n3 e.spill hea e.spill (List.mem_flatten.mpr ⟨g, hg, he⟩))
          subst hga
          refine ⟨ca, ha, ?_⟩
          have hrest : ∀ (l : List (List Nat)) (cl : List (List LClass)), l.mapM (groupClasses spills) = some cl → e.spill ∉ l.flatten →
              cl.flatten.filter (·.meets e) = [] := by
            intro l
            induction l with
            | nil => intro cl h _; simp at h; subst h; rfl
            | cons b t ih2 =>
              intro cl h hne
              rw [List.mapM_cons] at h
              cases hb : groupClasses spills b with
              | none => simp [hb] at h
              | some cb =>
                cases ht : t.mapM (groupClasses spills) with
                | none => simp [hb, ht] at h
                | some ct =>
                  simp only [hb, ht, Option.bind_eq_bind, Option.bind_some, Option.pure_def, Option.some.injEq] at h
                  subst h
                  rw [List.flatten_cons, List.mem_append, not_or] at hne
                  rw [List.flatten_cons, List.filter_append, ih2 ct ht hne.2,
                    filter_other cb b (fun c hc => spills_of_class spills b cb hb c hc) e hne.1, List.append_nil]
          rw [hrest r cr hr (fun hm => n3 e.spill hea e.spill hm rfl), List.append_nil]
        · rw [filter_other ca a (fun c hc => spills_of_class spills a ca ha c hc) e hea, List.nil_append]
          rcases List.mem_cons.mp hg with rfl | hg
          · exact absurd he hea
          · exact ih cr hr n2 hg

/-! ### One class for each value -/

theorem pick_index (l : List String) (k n : Nat) :
    ((l.zipIdx n).flatMap fun p => if p.2 = k then [some p.1] else []) = if n ≤ k ∧ k < n + l.length then [some (l.getD (k - n) "")] else [] := by
  induction l generalizing n with
  | nil => simp
  | cons a r ih =>
    rw [List.zipIdx_cons, List.flatMap_cons, ih]
    by_cases h : n = k
    · subst h
      rw [if_pos rfl, if_neg (by omega), if_pos (by simp)]; simp
    · simp only [h, if_false, List.nil_append, List.length_cons]
      by_cases h2 : n + 1 ≤ k ∧ k < n + 1 + r.length
      · rw [if_pos h2, if_pos (by omega)]
        obtain ⟨m, hm⟩ : ∃ m, k - n = m + 1 := ⟨k - n - 1, by omega⟩
        have : k - (n + 1) = m := by omega
        rw [this, hm]; simp
      · rw [if_neg h2, if_neg (by omega)]

/-- The classes of the colour with number `i` that an element meets: one if `i` is the number of bounds below its value. -/
theorem colour_meets (s : Style) (hv : s.Valid) (col : String) (g : List Nat) (e : Elem) (he : e.spill ∈ g)
    (hst : e.status = 2 ∨ e.status = 3) (hx : ∀ b, s.bounds.getLast? = some b → e.value col ≠ b) (i : Nat)
    (hi : i < s.colours.length) (colour : String) :
    ((colourClasses s col g i colour).filter (·.meets e)).map (·.colour) =
      if i = s.bounds.countP (· < e.value col) then [some colour] else [] := by
  obtain ⟨hp, hl⟩ := hv
  generalize hval : e.value col = x at hx ⊢
  have hk := fun k hk => Verif.Hull.countP_sorted s.bounds x hp k hk
  have hle : s.bounds.countP (· < x) ≤ s.bounds.length := List.countP_le_length
  -- the condition of the class
  have key : ∀ (lo : Option (ℚ × Bool)) (hi' : Option ℚ),
      (([⟨2, g, col, lo, hi', some colour⟩, ⟨3, g, col, lo, hi', some colour⟩] : List LClass).filter (·.meets e)).map (·.colour) =
        if ((match lo with
            | none => true
            | some (a, true) => decide (a < x)
            | some (a, false) => decide (a ≤ x)) &&
          (match hi' with
            | none => true
            | some b => decide (x ≤ b))) = true then [some colour] else [] := by
    intro lo hi'
    generalize hb : ((match lo with
            | none => true
            | some (a, true) => decide (a < x)
            | some (a, false) => decide (a ≤ x)) &&
          (match hi' with
            | none => true
            | some b => decide (x ≤ b))) = B
    have m2 : (⟨2, g, col, lo, hi', some colour⟩ : LClass).meets e = (decide (e.status = 2) && B) := by
      simp only [LClass.meets, hval, ← hb, List.contains_iff_mem.mpr he, Bool.and_true, Bool.and_assoc]
      rfl
    have m3 : (⟨3, g, col, lo, hi', some colour⟩ : LClass).meets e = (decide (e.status = 3) && B) := by
      simp only [LClass.meets, hval, ← hb, List.contains_iff_mem.mpr he, Bool.and_true, Bool.and_assoc]
      rfl
    rw [List.filter_cons, List.filter_cons, m2, m3]
    rcases hst with h | h <;> cases B <;> simp [h]
  simp only [colourClasses]
  by_cases h1 : i = 0 ∧ s.colours.length = 1
  · simp only [h1, and_self, if_true]
    rw [key]
    have : s.bounds.countP (· < x) = 0 := by omega
    simp [this]
  · by_cases h0 : i = 0
    · subst h0
      have hn : ¬ s.colours.length = 1 := fun h => h1 ⟨rfl, h⟩
      simp only [hn, and_false, if_false, if_true]
      rw [key]
      have hb : 0 < s.bounds.length := by omega
      have hu : upper s 0 = s.bounds[0] := by
        rw [upper, if_neg (by omega), List.getD_eq_getElem?_getD, List.getElem?_eq_getElem hb, Option.getD_some]
      simp only [hu, Bool.true_and, decide_eq_true_eq]
      have := hk 0 hb
      by_cases hc : x ≤ s.bounds[0]
      · rw [if_pos hc, if_pos]
        have : ¬ s.bounds[0] < x := not_lt.mpr hc
        have := mt (hk 0 hb).mpr this
        omega
      · rw [if_neg hc, if_neg]
        have := (hk 0 hb).mp (not_le.mp hc)
        omega
    · simp only [h0, false_and, if_false]
      have hb : i - 1 < s.bounds.length := by omega
      have hlo : lower s i = s.bounds[i - 1] := by
        rw [lower, if_neg h0, upper, if_neg (by omega), List.getD_eq_getElem?_getD, List.getElem?_eq_getElem hb, Option.getD_some]
      by_cases h2 : i = s.colours.length - 1
      · simp only [h2, if_true]
        rw [← h2]
        rw [key]
        simp only [hlo, Bool.and_true, decide_eq_true_eq]
        have hne : x ≠ s.bounds[i - 1] := by
          apply hx
          rw [List.getLast?_eq_getElem?]
          have : s.bounds.length - 1 = i - 1 := by omega
          rw [this, List.getElem?_eq_getElem hb]
        by_cases hc : s.bounds[i - 1] ≤ x
        · rw [if_pos hc, if_pos]
          have := (hk (i - 1) hb).mp (lt_of_le_of_ne hc (Ne.symm hne))
          omega
        · rw [if_neg hc, if_neg]
          have := mt (hk (i - 1) hb).mpr (fun h => hc h.le)
          omega
      · simp only [h2, if_false]
        rw [key]
        have hb2 : i < s.bounds.length := by omega
        have hu : upper s i = s.bounds[i] := by
          rw [upper, if_neg (by omega), List.getD_eq_getElem?_getD, List.getElem?_eq_getElem hb2, Option.getD_some]
        simp only [hu, hlo, Bool.and_eq_true, decide_eq_true_eq]
        by_cases hc : s.bounds[i - 1] < x ∧ x ≤ s.bounds[i]
        · rw [if_pos hc, if_pos]
          have a1 := (hk (i - 1) hb).mp hc.1
          have a2 := mt (hk i hb2).mpr (not_lt.mpr hc.2)
          omega
        · rw [if_neg hc, if_neg]
          intro e
          apply hc
          refine ⟨(hk (i - 1) hb).mpr (by omega), not_lt.mp (fun h => ?_)⟩
          have := (hk i hb2).mp h
          omega

/-- C227: values off the last bound, and spills whose styles match have the same colours (or groups are off). Missing: see the two
counterexamples. -/
theorem C227_partial (disable : Bool) (spills : List (Option Style)) (cs : List LClass) (e : Elem)
    (hv : ∀ s, some s ∈ spills → s.Valid) (hc : classes disable spills = some cs) (hst : e.status = 2 ∨ e.status = 3)
    (hs : e.spill < spills.length)
    (hx : ∀ s col b, spills[e.spill]? = some (some s) → columnOf s.data = some col → s.bounds.getLast? = some b → e.value col ≠ b)
    (hcol : disable = true ∨ ∀ s s', some s ∈ spills → some s' ∈ spills → matchStyle s s' = true → s.colours = s'.colours) :
    (cs.filter (·.meets e)).map (·.colour) = [expected spills e] := by
  obtain ⟨h1, h2, h3⟩ := groups_spec disable spills
  obtain ⟨css, hm, rfl⟩ := Option.map_eq_some_iff.mp hc
  have hmem : e.spill ∈ (groups disable spills).flatten := by rw [h1.mem_iff, List.mem_range]; exact hs
  obtain ⟨g, hg, heg⟩ := List.mem_flatten.mp hmem
  obtain ⟨cg, hcg, hf⟩ := filter_groups spills e _ css hm (h1.nodup_iff.mpr List.nodup_range) g hg heg
  rw [hf]
  have hsp : ∀ (i : Nat) (s : Style), (spills[i]?).join = some s → some s ∈ spills := by
    intro i s h
    cases hh : spills[i]? with
    | none => simp [hh] at h
    | some o => rw [hh] at h; simp only [Option.join_some] at h; subst h; exact List.mem_of_getElem? hh
  rcases h2 g hg with ⟨x, s0, e1, e2, e3⟩ | ⟨hne, hnone⟩
  · obtain ⟨s, es, ms⟩ := e3 e.spill heg
    have e2' : g.head?.bind (fun i => (spills[i]?).join) = some s0 := by rw [e1]; exact e2
    simp only [groupClasses, e2'] at hcg
    have hcs : s0.colours = s.colours := by
      rcases hcol with hd | hcol
      · obtain ⟨i, rfl⟩ := h3 hd g hg
        simp only [List.head?_cons, Option.some.injEq] at e1
        rw [List.mem_singleton] at heg
        have : some s0 = some s := by rw [← e2, ← es, ← e1, heg]
        rw [Option.some.inj this]
      · exact hcol s0 s (hsp _ _ e2) (hsp _ _ es) ms
    simp only [matchStyle, Bool.and_eq_true, decide_eq_true_eq] at ms
    obtain ⟨⟨⟨⟨⟨a1, -⟩, -⟩, a4⟩, -⟩, -⟩ := ms
    cases hco : columnOf s0.data with
    | none => simp [hco] at hcg
    | some col =>
      simp only [hco] at hcg
      by_cases hl : s0.labels.length < s0.colours.length ∨ s0.numbers.length < 2
      · simp [hl] at hcg
      · rw [if_neg hl] at hcg
        obtain rfl := Option.some.inj hcg
        have hvs0 := hv s0 (hsp _ _ e2)
        have hjoin : spills[e.spill]? = some (some s) := by
          cases hh : spills[e.spill]? with
          | none => simp only [hh, Option.join_none] at es; cases es
          | some o => simp only [hh, Option.join_some] at es; subst es; rfl
        have hx' : ∀ b, s0.bounds.getLast? = some b → e.value col ≠ b := by
          intro b hb
          exact hx s col b hjoin (by rw [← a1]; exact hco) (by rw [← a4]; exact hb)
        have hpt : ∀ p ∈ s0.colours.zipIdx, ((colourClasses s0 col g p.2 p.1).filter (·.meets e)).map (·.colour) =
            if p.2 = s0.bounds.countP (· < e.value col) then [some p.1] else [] := by
          intro p hp
          have := List.snd_lt_of_mem_zipIdx hp
          exact colour_meets s0 hvs0 col g e heg hst hx' p.2 (by simpa using this) p.1
        have hflat : ∀ L : List (String × Nat), (∀ p ∈ L, ((colourClasses s0 col g p.2 p.1).filter (·.meets e)).map (·.colour) =
            if p.2 = s0.bounds.countP (· < e.value col) then [some p.1] else []) →
            ((L.flatMap fun p => colourClasses s0 col g p.2 p.1).filter (·.meets e)).map (·.colour) =
              L.flatMap fun p => if p.2 = s0.bounds.countP (· < e.value col) then [some p.1] else [] := by
          intro L hL
          induction L with
          | nil => rfl
          | cons a r ih =>
            rw [List.flatMap_cons, List.flatMap_cons, List.filter_append, List.map_append, hL a (by simp), ih (fun p hp => hL p (by simp [hp]))]
        rw [hflat _ hpt, pick_index]
        have hle : s0.bounds.countP (· < e.value col) ≤ s0.bounds.length := List.countP_le_length
        rw [if_pos ⟨Nat.zero_le _, by have := hvs0.2; omega⟩]
        simp only [expected, hjoin, Option.join_some, ← a1, ← columnOf_columns, hco, Option.getD_some, ← a4, ← hcs, Nat.sub_zero]
  · have hhead : g.head?.bind (fun i => (spills[i]?).join) = none := by
      cases g with
      | nil => exact absurd rfl hne
      | cons a r => exact hnone a (by simp)
    simp only [groupClasses, hhead] at hcg
    obtain rfl := Option.some.inj hcg
    have hex : expected spills e = none := by
      have := hnone e.spill heg
      simp only at this
      simp [expected, this]
    rw [hex]
    rcases hst with h | h <;> simp [LClass.meets, h, heg]

example : ∃ cs, classes false [some red, none] = some cs ∧
    (cs.filter (·.meets ⟨3, 0, fun _ => 7⟩)).map (·.colour) = [some "pink"] ∧
    (cs.filter (·.meets ⟨2, 1, fun _ => 7⟩)).map (·.colour) = [none] := ⟨_, rfl, by decide +kernel, by decide +kernel⟩

/-! ## C228: contours -/

/-- The colours of the classes that a contour meets: those with the number of its cutoff. -/
def drawn (st : List (Nat × List Cutoff)) (r : Row) : List String :=
  ((contourClasses st).filter fun c => c.1 = r.id).map Prod.snd

/-- C228: a contour meets one class, which has its colour. -/
def C228_claim : Prop :=
  ∀ (spills : List (Option Style)) (st : List (Nat × List Cutoff)), cutoffStruct spills 0 = some st →
    ∀ p ∈ st, ∀ c ∈ p.2, drawn st (rowOf (p.1, c)) = [c.colour]

theorem C228_counterexample : ¬ C228_claim := by
  intro h
  have := h [some red, some blue] _ rfl (0, [⟨5, 0, "red"⟩, ⟨10, 1, "pink"⟩]) (List.mem_cons_self ..) ⟨5, 0, "red"⟩ (List.mem_cons_self ..)
  exact absurd this (by decide +kernel)

theorem cutoffs_ids (s : Style) (cs : List Cutoff) (h : cutoffs s = some cs) : ∀ (i : Nat) (c : Cutoff), cs[i]? = some c → c.id = i := by
  intro i c hc
  simp only [cutoffs] at h
  cases hd : columnOf s.data with
  | none => simp [hd] at h
  | some col =>
    simp only [hd] at h
    split at h
    · cases h
    · obtain rfl := Option.some.inj h
      rw [List.getElem?_map, List.getElem?_zipIdx] at hc
      simp only [Option.map_eq_some_iff] at hc
      obtain ⟨q, ⟨r, -, rfl⟩, rfl⟩ := hc
      simp

theorem struct_ids (spills : List (Option Style)) (n : Nat) (st : List (Nat × List Cutoff)) (h : cutoffStruct spills n = some st) :
    ∀ p ∈ st, ∀ (i : Nat) (c : Cutoff), p.2[i]? = some c → c.id = i := by
  induction spills generalizing n st with
  | nil => simp [cutoffStruct] at h; subst h; simp
  | cons o r ih =>
    cases o with
    | none => exact ih _ _ h
    | some s =>
      simp only [cutoffStruct] at h
      obtain ⟨cs, h1, h⟩ := Option.bind_eq_some_iff.mp h
      obtain ⟨l, h2, rfl⟩ := Option.map_eq_some_iff.mp h
      intro p hp
      rcases List.mem_cons.mp hp with rfl | hp
      · exact cutoffs_ids s cs h1
      · exact ih _ _ h2 p hp

theorem cutoffs_values (s : Style) (cs : List Cutoff) (h : cutoffs s = some cs) :
    cs.length = s.bounds.length + 1 ∧
    ∀ (i : Nat) (c : Cutoff), cs[i]? = some c → (s.bounds ++ [s.numbers.getLastD 0])[i]? = some c.cutoff ∧ s.colours[i]? = some c.colour := by
  simp only [cutoffs] at h
  cases hd : columnOf s.data with
  | none => simp [hd] at h
  | some col =>
    simp only [hd] at h
    split at h
    · cases h
    · rename_i hn
      obtain rfl := Option.some.inj h
      refine ⟨?_, fun i c hc => ?_⟩
      · simp only [List.length_map, List.length_zipIdx, List.length_zip, List.length_append, List.length_singleton]
        omega
      · rw [List.getElem?_map, List.getElem?_zipIdx] at hc
        simp only [Option.map_eq_some_iff] at hc
        obtain ⟨q, ⟨r, hr, rfl⟩, rfl⟩ := hc
        rw [List.getElem?_zip_eq_some] at hr
        exact hr

theorem struct_spills (spills : List (Option Style)) (n : Nat) (st : List (Nat × List Cutoff)) (h : cutoffStruct spills n = some st) :
    (∀ p ∈ st, n ≤ p.1 ∧ ∃ s, spills[p.1 - n]? = some (some s) ∧ cutoffs s = some p.2) ∧
    ∀ (i : Nat) (s : Style), spills[i]? = some (some s) → ∃ cs, (n + i, cs) ∈ st := by
  induction spills generalizing n st with
  | nil => simp [cutoffStruct] at h; subst h; simp
  | cons o r ih =>
    cases o with
    | none =>
      obtain ⟨i1, i2⟩ := ih _ _ h
      refine ⟨fun p hp => ?_, fun i s hi => ?_⟩
      · obtain ⟨a, s, b, c⟩ := i1 p hp
        have e : p.1 - n = p.1 - (n + 1) + 1 := by omega
        exact ⟨by omega, s, by rw [e, List.getElem?_cons_succ]; exact b, c⟩
      · cases i with
        | zero => simp at hi
        | succ i =>
          obtain ⟨cs, hc⟩ := i2 i s (by simpa using hi)
          exact ⟨cs, by rw [show n + (i + 1) = n + 1 + i by omega]; exact hc⟩
    | some s0 =>
      simp only [cutoffStruct] at h
      obtain ⟨cs, h1, h⟩ := Option.bind_eq_some_iff.mp h
      obtain ⟨l, h2, rfl⟩ := Option.map_eq_some_iff.mp h
      obtain ⟨i1, i2⟩ := ih _ _ h2
      refine ⟨fun p hp => ?_, fun i s hi => ?_⟩
      · rcases List.mem_cons.mp hp with rfl | hp
        · exact ⟨Nat.le_refl _, s0, by simp, h1⟩
        · obtain ⟨a, s, b, c⟩ := i1 p hp
          have e : p.1 - n = p.1 - (n + 1) + 1 := by omega
          exact ⟨by omega, s, by rw [e, List.getElem?_cons_succ]; exact b, c⟩
      · cases i with
        | zero => exact ⟨cs, by simp⟩
        | succ i =>
          obtain ⟨cs', hc⟩ := i2 i s (by simpa using hi)
          exact ⟨cs', by rw [show n + (i + 1) = n + 1 + i by omega]; exact List.mem_cons_of_mem _ hc⟩

/-- **C228, the cutoffs**: exactly the spills with a style have cutoffs, under their own numbers: the bounds of the style and the end of its scale, with the
colours of the style in their order. -/
theorem C228_cutoffs (spills : List (Option Style)) (st : List (Nat × List Cutoff)) (h : cutoffStruct spills 0 = some st) :
    (∀ p ∈ st, ∃ s, spills[p.1]? = some (some s) ∧ p.2.length = s.bounds.length + 1 ∧
      ∀ (i : Nat) (c : Cutoff), p.2[i]? = some c →
        c.id = i ∧ (s.bounds ++ [s.numbers.getLastD 0])[i]? = some c.cutoff ∧ s.colours[i]? = some c.colour) ∧
    ∀ (i : Nat) (s : Style), spills[i]? = some (some s) → ∃ cs, (i, cs) ∈ st := by
  obtain ⟨h1, h2⟩ := struct_spills spills 0 st h
  refine ⟨fun p hp => ?_, fun i s hi => ?_⟩
  · obtain ⟨-, s, a, b⟩ := h1 p hp
    obtain ⟨c1, c2⟩ := cutoffs_values s _ b
    exact ⟨s, a, c1, fun i c hc => ⟨cutoffs_ids s _ b i c hc, c2 i c hc⟩⟩
  · obtain ⟨cs, hc⟩ := h2 i s hi
    exact ⟨cs, by simpa using hc⟩

example : ∃ st, cutoffStruct [none, some red, some blue] 0 = some st ∧ st.map Prod.fst = [1, 2] := ⟨_, rfl, by decide +kernel⟩

theorem filter_ids (cs : List Cutoff) (n k : Nat) (h : ∀ i c, cs[i]? = some c → c.id = n + i) :
    ((cs.map fun c => (c.id, c.colour)).filter fun c => c.1 = k).map Prod.snd =
      if k < n then [] else ((cs[k - n]?).map (·.colour)).toList := by
  induction cs generalizing n with
  | nil => simp
  | cons a r ih =>
    have ha : a.id = n := h 0 a rfl
    have hr := ih (n + 1) (fun i c hc => by have := h (i + 1) c (by simpa using hc); omega)
    rw [List.map_cons, List.filter_cons]
    by_cases e : n = k
    · subst e
      simp [ha] at hr ⊢
      exact hr
    · simp only [ha, e, decide_false, Bool.false_eq_true, if_false, hr]
      by_cases hk : k < n
      · simp [hk, Nat.lt_succ_of_lt hk]
      · have h3 : ¬ k < n + 1 := by omega
        have h4 : k - n = k - (n + 1) + 1 := by omega
        simp [hk, h3, h4]

/-- The classes that a contour meets are those of all spills that have a cutoff with its number, from the last spill to the first. -/
theorem C228_drawn (spills : List (Option Style)) (st : List (Nat × List Cutoff)) (h : cutoffStruct spills 0 = some st) (r : Row) :
    drawn st r = st.reverse.filterMap fun p => (p.2[r.id]?).map (·.colour) := by
  have hid := struct_ids spills 0 st h
  have hrev : ∀ p ∈ st.reverse, ((p.2.reverse.map fun c => (c.id, c.colour)).filter fun c => c.1 = r.id).map Prod.snd =
      ((p.2[r.id]?).map (·.colour)).toList := by
    intro p hp
    have := filter_ids p.2 0 r.id (fun i c hc => by rw [hid p (List.mem_reverse.mp hp) i c hc, Nat.zero_add])
    rw [List.map_reverse, List.filter_reverse, List.map_reverse, this]
    cases p.2[r.id]? <;> simp
  rw [drawn, contourClasses]
  generalize st.reverse = l at hrev
  induction l with
  | nil => rfl
  | cons a t ih =>
    rw [List.flatMap_cons, List.filter_append, List.map_append, hrev a (by simp), ih (fun p hp => hrev p (by simp [hp])), List.filterMap_cons]
    cases a.2[r.id]? <;> simp

/-- C228: one spill with a style. Missing: more of them, see `C228_drawn`. -/
theorem C228_partial (spills : List (Option Style)) (p : Nat × List Cutoff) (h : cutoffStruct spills 0 = some [p]) (c : Cutoff)
    (hc : c ∈ p.2) : drawn [p] (rowOf (p.1, c)) = [c.colour] := by
  obtain ⟨i, hi⟩ := List.mem_iff_getElem?.mp hc
  have := struct_ids spills 0 _ h p (by simp) i c hi
  rw [C228_drawn spills _ h]
  simp [rowOf, this, hi]

example : ∃ p, cutoffStruct [none, some red] 0 = some [p] ∧ p.2.length = 2 := ⟨_, rfl, by decide +kernel⟩

/-- With two spills with styles and bounds, each contour meets classes of both, and is drawn in the colour of the other one or both. -/
theorem C228_both (spills : List (Option Style)) (p q : Nat × List Cutoff) (h : cutoffStruct spills 0 = some [p, q]) (i : Nat) (c d : Cutoff)
    (hp : p.2[i]? = some c) (hq : q.2[i]? = some d) :
    drawn [p, q] (rowOf (p.1, c)) = [d.colour, c.colour] ∧ drawn [p, q] (rowOf (q.1, d)) = [d.colour, c.colour] := by
  have h1 := struct_ids spills 0 _ h p (by simp) i c hp
  have h2 := struct_ids spills 0 _ h q (by simp) i d hq
  constructor <;> rw [C228_drawn spills _ h] <;> simp [rowOf, h1, h2, hp, hq]

end Verif.OutFiles.Legend
