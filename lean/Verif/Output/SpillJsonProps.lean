import Verif.Output.SpillJsonModel
import Mathlib.Data.List.GetD
import Mathlib.Tactic.Linarith

/-!
# Elements of a step as sent to the web client: C213
-/
namespace Verif.Output.SpillJson

/-! ## What is expected -/

/-- The entry of an element in an additional list. -/
def entry (around : Nat → ℚ → ℚ) (d : String) (e : El) : ℚ :=
  if d = "depth" then around 4 e.z else around (if d = "viscosity" ∨ d = "surface_concentration" then 8 else 4) (e.data d)

/-- A table has a row for each element, and row `i` is element `i` in all its columns. -/
structure Rows (around : Nat → ℚ → ℚ) (add : List String) (els : List El) (t : Table) : Prop where
  length : t.length = els.length ∧ t.lon.length = els.length ∧ t.lat.length = els.length ∧ t.status.length = els.length ∧
    t.mass.length = els.length ∧ t.spill.length = els.length ∧ ∀ p ∈ t.extra, p.2.length = els.length
  names : t.extra.map Prod.fst = add
  row : ∀ (i : Nat) (e : El), els[i]? = some e → t.lon[i]? = some (around 5 e.lon) ∧ t.lat[i]? = some (around 5 e.lat) ∧
    t.status[i]? = some e.status ∧ t.mass[i]? = some (around 4 e.mass) ∧ t.spill[i]? = some e.spill ∧
    ∀ p ∈ t.extra, p.2[i]? = some (entry around p.1 e)

/-- The parameter of contours. -/
def value (p : String) (e : El) : ℚ :=
  if p = "Mass" then e.mass else if p = "Age" then e.age
  else if p = "Surface Concentration" then e.data "surface_concentration"
  else if p = "Viscosity" then e.data "viscosity" else if p = "Depth" then e.z else e.data "windages"

/-- Band `i` of ascending limits: below the first, between two, or above the last. -/
def band (lim : List ℚ) (i : Nat) (x : ℚ) : Prop :=
  (∀ u, lim[i]? = some u → x ≤ u) ∧ (∀ l, 0 < i → lim[i - 1]? = some l → l ≤ x)

instance (lim : List ℚ) (i : Nat) (x : ℚ) : Decidable (band lim i x) := by
  unfold band
  have h1 : Decidable (∀ u, lim[i]? = some u → x ≤ u) :=
    match h : lim[i]? with
    | none => .isTrue (by simp)
    | some u => if hx : x ≤ u then .isTrue (by simp [hx]) else .isFalse (by simp [hx])
  have h2 : Decidable (∀ l, 0 < i → lim[i - 1]? = some l → l ≤ x) :=
    match h : lim[i - 1]? with
    | none => .isTrue (by simp)
    | some u => if hx : 0 < i → u ≤ x then .isTrue (by rintro l hi ⟨⟩; exact hx hi) else .isFalse (fun g => hx fun hi => g u hi rfl)
  exact inferInstance

/-- A colormap as the client makes it: a scale, at least one limit, a colour and a label for each band. -/
structure Colormap.Good (cm : Colormap) : Prop where
  scale : cm.numDomain ≠ []
  limits : cm.colDomain ≠ []
  labels : cm.colDomain.length < cm.labels.length
  colors : cm.colDomain.length < cm.colors.length

/-- The parameters that the client offers. -/
def offered : List String := ["Mass", "Surface Concentration", "Age", "Viscosity", "Depth", "Windage"]

/-- The features that are expected for the elements of a container. -/
def Drawn (apps : List Appear) (els : List El) (f : Feature) : Prop :=
  ∃ a cm i, apps[f.spill]? = some a ∧ a.contours = true ∧ a.cmap = some cm ∧ i ≤ cm.colDomain.length ∧
    cm.labels[i]? = some f.label ∧ cm.colors[i]? = some f.color ∧
    f.els = els.filter (fun e => decide (e.spill = f.spill) && decide (band cm.colDomain i (value a.param e))) ∧ f.els ≠ []

/-- The containers have the arrays that are asked for, and of spills with contours the colormap is complete. -/
structure Ready (c : Cfg) (apps : List Appear) (all : List Sc) : Prop where
  add : ∀ sc ∈ all, ∀ d ∈ c.add, d = "depth" ∨ d ∈ sc.names
  cmap : ∀ a ∈ apps, ∀ cm, a.cmap = some cm → cm.Good
  par : ∀ a ∈ apps, a.param ∈ offered
  arrays : ∀ sc ∈ all, ∀ a ∈ apps, a.contours = true → (a.param = "Surface Concentration" → "surface_concentration" ∈ sc.names) ∧
    (a.param = "Viscosity" → "viscosity" ∈ sc.names)

/-- What is sent for a step: a table for each container, of certain and of uncertain elements, the contours of certain elements in a list
for each spill, and bounds of all the elements. -/
structure Sent (around : Nat → ℚ → ℚ) (c : Cfg) (apps : List Appear) (all : List Sc) (o : Out) : Prop where
  certain : List.Forall₂ (fun sc t => Rows around c.add sc.els t) (all.filter (!·.unc)) o.certain
  uncertain : List.Forall₂ (fun sc t => Rows around c.add sc.els t) (all.filter (·.unc)) o.uncertain
  contours : List.Forall₂ (fun sc ls => (∀ f, f ∈ ls.flatten ↔ Drawn apps sc.els f) ∧ (∀ l ∈ ls, l ≠ [] ∧ ∀ f ∈ l, ∀ g ∈ l, f.spill = g.spill) ∧
    ls.Pairwise (fun l l' => ∀ f ∈ l, ∀ g ∈ l', f.spill < g.spill)) (all.filter (!·.unc)) o.contours
  bounds : o.bounds = if c.bounds then List.replicate (all.filter (·.unc)).length
      (if (all.flatMap Sc.els).isEmpty then [] else [all.flatMap Sc.els]) else []

def C213_claim : Prop := ∀ (around : Nat → ℚ → ℚ) (c : Cfg) (apps : List Appear) (all : List Sc), Ready c apps all →
  ∃ o, write around c apps all = .ok o ∧ Sent around c apps all o

/-! ## Tables -/

theorem extraCol_ok (around : Nat → ℚ → ℚ) (sc : Sc) (d : String) (h : d = "depth" ∨ d ∈ sc.names) :
    extraCol around sc d = .ok (sc.els.map (entry around d)) := by
  unfold extraCol entry column
  by_cases h1 : d = "viscosity" ∨ d = "surface_concentration"
  · have h2 : d ≠ "depth" := by rintro rfl; simp at h1
    have h3 : d ∈ sc.names := h.resolve_left h2
    simp [h1, h2, h3, Except.map, Function.comp_def]
  · by_cases h2 : d = "depth"
    · simp [h2]
    · have h3 : d ∈ sc.names := h.resolve_left h2
      simp [h1, h2, h3, Except.map, Function.comp_def]

theorem extras_ok (around : Nat → ℚ → ℚ) (sc : Sc) (ds : List String) (h : ∀ d ∈ ds, d = "depth" ∨ d ∈ sc.names) :
    extras around sc ds = .ok (ds.map fun d => (d, sc.els.map (entry around d))) := by
  induction ds with
  | nil => rfl
  | cons d ds ih =>
    simp only [extras, extraCol_ok around sc d (h d (by simp)), ih fun x hx => h x (by simp [hx]), List.map_cons]
    rfl

theorem table_ok (around : Nat → ℚ → ℚ) (add : List String) (sc : Sc) (h : ∀ d ∈ add, d = "depth" ∨ d ∈ sc.names) :
    ∃ t, table around add sc = .ok t ∧ Rows around add sc.els t := by
  refine ⟨_, by unfold table; rw [extras_ok around sc add h]; rfl, ?_, ?_, ?_⟩
  · simp
  · simp [Function.comp_def]
  · intro i e he
    simp [he]

/-! ## Cutoffs -/

theorem mkCuts_ok (cm : Colormap) : ∀ (vs : List ℚ) (i : Nat), i + vs.length ≤ cm.labels.length → i + vs.length ≤ cm.colors.length →
    ∃ cs, mkCuts cm i vs = .ok cs ∧ cs.length = vs.length ∧ cs.map Cut.value = vs ∧
      ∀ (k : Nat) (c : Cut), cs[k]? = some c → cm.labels[i + k]? = some c.label ∧ cm.colors[i + k]? = some c.color := by
  intro vs
  induction vs with
  | nil => intro i _ _; exact ⟨[], rfl, rfl, rfl, by simp⟩
  | cons v vs ih =>
    intro i h1 h2
    simp only [List.length_cons] at h1 h2
    obtain ⟨cs, e, hl, hv, hk⟩ := ih (i + 1) (by omega) (by omega)
    have l1 : cm.labels[i]? = some (cm.labels[i]'(by omega)) := List.getElem?_eq_getElem _
    have l2 : cm.colors[i]? = some (cm.colors[i]'(by omega)) := List.getElem?_eq_getElem _
    refine ⟨⟨v, cm.colors[i]'(by omega), cm.labels[i]'(by omega)⟩ :: cs, ?_, by simp [hl], by simp [hv], ?_⟩
    · simp only [mkCuts, l1, l2, e]; rfl
    · intro k c hc
      cases k with
      | zero => simp only [List.getElem?_cons_zero, Option.some.injEq] at hc; subst hc; exact ⟨l1, l2⟩
      | succ k =>
        rw [List.getElem?_cons_succ] at hc
        have := hk k c hc
        rwa [show i + 1 + k = i + (k + 1) by omega] at this

/-- An entry of the structure of cutoffs fits an appearance. -/
def Fits (a : Appear) (col : String) (cs : List Cut) : Prop :=
  ∃ cm m, a.contours = true ∧ a.cmap = some cm ∧ unitMap a.param = some col ∧ cs.map Cut.value = cm.colDomain ++ [m] ∧
    ∀ (k : Nat) (c : Cut), cs[k]? = some c → cm.labels[k]? = some c.label ∧ cm.colors[k]? = some c.color

theorem unitMap_offered (p : String) (h : p ∈ offered) : ∃ col, unitMap p = some col := by
  simp only [offered, List.mem_cons, List.not_mem_nil, or_false] at h
  rcases h with rfl | rfl | rfl | rfl | rfl | rfl <;> exact ⟨_, rfl⟩

theorem cutsOf_ok (a : Appear) (hc : ∀ cm, a.cmap = some cm → cm.Good) (hp : a.param ∈ offered) :
    (∃ col cs, cutsOf a = .ok (some (col, cs)) ∧ Fits a col cs) ∨ (cutsOf a = .ok none ∧ ¬ (a.contours = true ∧ a.cmap.isSome = true)) := by
  obtain ⟨col, hcol⟩ := unitMap_offered a.param hp
  cases h1 : a.contours with
  | false => right; simp [cutsOf, h1]
  | true =>
    cases h2 : a.cmap with
    | none => right; simp [cutsOf, h1, h2]
    | some cm =>
      left
      have g := hc cm h2
      obtain ⟨m, hm⟩ : ∃ m, cm.numDomain.getLast? = some m := by
        cases hh : cm.numDomain.getLast? with
        | none => exact absurd (List.getLast?_eq_none_iff.mp hh) g.scale
        | some m => exact ⟨m, rfl⟩
      obtain ⟨cs, e, _, hv, hk⟩ := mkCuts_ok cm (cm.colDomain ++ [m]) 0 (by simp; have := g.labels; omega) (by simp; have := g.colors; omega)
      refine ⟨col, cs, ?_, cm, m, h1, h2, hcol, hv, fun k c hc => by simpa using hk k c hc⟩
      simp only [cutsOf, h1, h2, hcol, hm, e]
      rfl

theorem cutStruct_ok : ∀ (l : List Appear) (i : Nat), (∀ a ∈ l, ∀ cm, a.cmap = some cm → cm.Good) → (∀ a ∈ l, a.param ∈ offered) →
    ∃ cuts, cutStruct i l = .ok cuts ∧ (∀ p ∈ cuts, i ≤ p.1 ∧ ∃ a, l[p.1 - i]? = some a ∧ Fits a p.2.1 p.2.2) ∧
      (∀ (k : Nat) (a : Appear), l[k]? = some a → a.contours = true → a.cmap.isSome = true → ∃ q, (i + k, q) ∈ cuts) ∧
      cuts.Pairwise (fun p q => p.1 < q.1) := by
  intro l
  induction l with
  | nil => intro i _ _; exact ⟨[], rfl, by simp, by simp, List.Pairwise.nil⟩
  | cons a l ih =>
    intro i hc hp
    obtain ⟨cuts, e, h1, h2, h3⟩ := ih (i + 1) (fun x hx => hc x (by simp [hx])) (fun x hx => hp x (by simp [hx]))
    have h1' : ∀ p ∈ cuts, i ≤ p.1 ∧ ∃ b, (a :: l)[p.1 - i]? = some b ∧ Fits b p.2.1 p.2.2 := by
      intro p hpm
      obtain ⟨g1, b, g2, g3⟩ := h1 p hpm
      refine ⟨by omega, b, ?_, g3⟩
      rw [show p.1 - i = (p.1 - (i + 1)) + 1 by omega, List.getElem?_cons_succ]; exact g2
    rcases cutsOf_ok a (hc a (by simp)) (hp a (by simp)) with ⟨col, cs, ea, hf⟩ | ⟨ea, hn⟩
    · refine ⟨(i, col, cs) :: cuts, by simp only [cutStruct, ea, e]; rfl, ?_, ?_, ?_⟩
      · intro p hpm
        rcases List.mem_cons.mp hpm with rfl | hpm
        · exact ⟨le_refl _, a, by simp, hf⟩
        · exact h1' p hpm
      · intro k b hb hbc hbm
        cases k with
        | zero => exact ⟨(col, cs), by simp⟩
        | succ k =>
          obtain ⟨q, hq⟩ := h2 k b (by simpa using hb) hbc hbm
          exact ⟨q, by rw [show i + (k + 1) = i + 1 + k by omega]; simp [hq]⟩
      · exact List.pairwise_cons.mpr ⟨fun p hpm => by have := (h1 p hpm).1; show i < p.1; omega, h3⟩
    · refine ⟨cuts, by simp only [cutStruct, ea, e]; rfl, h1', ?_, h3⟩
      intro k b hb hbc hbm
      cases k with
      | zero => simp only [List.getElem?_cons_zero, Option.some.injEq] at hb; subst hb; exact absurd ⟨hbc, hbm⟩ hn
      | succ k =>
        obtain ⟨q, hq⟩ := h2 k b (by simpa using hb) hbc hbm
        exact ⟨q, by rw [show i + (k + 1) = i + 1 + k by omega]; exact hq⟩

/-! ## Contours -/

theorem inClass_band (lim : List ℚ) (m : ℚ) (hl : lim ≠ []) (i : Nat) (hi : i ≤ lim.length) (x : ℚ) :
    Verif.Hull.inClass (lim ++ [m]) i x = decide (band lim i x) := by
  have hpos : 0 < lim.length := List.length_pos_iff.mpr hl
  unfold Verif.Hull.inClass
  simp only [List.length_append, List.length_singleton, Nat.add_sub_cancel]
  rw [← Bool.coe_iff_coe]
  have g : ∀ k (hk : k < lim.length), (lim ++ [m]).getD k 0 = lim[k] := by
    intro k hk
    rw [List.getD_eq_getElem _ _ (by simp; omega), List.getElem_append_left hk]
  by_cases h0 : i = 0
  · subst h0
    rw [if_pos rfl, g 0 hpos]
    simp [band, List.getElem?_eq_getElem hpos]
  · rw [if_neg h0]
    have hp : i - 1 < lim.length := by omega
    by_cases h1 : i = lim.length
    · rw [if_pos h1, g (i - 1) hp]
      simp [band, List.getElem?_eq_getElem hp, show lim[i]? = none from List.getElem?_eq_none (by omega), Nat.pos_of_ne_zero h0]
    · have hi' : i < lim.length := by omega
      rw [if_neg h1, g (i - 1) hp, g i hi']
      simp [band, List.getElem?_eq_getElem hp, List.getElem?_eq_getElem hi', Nat.pos_of_ne_zero h0]

theorem mem_spillFeatures (els : List El) (s : Nat) (val : El → ℚ) (cs : List Cut) (f : Feature) :
    f ∈ spillFeatures els s val cs ↔ f.spill = s ∧ f.els ≠ [] ∧ ∃ (i : Nat) (c : Cut), cs[i]? = some c ∧ f.color = c.color ∧ f.label = c.label ∧
      f.els = (els.filter fun e => e.spill = s).filter fun e => Verif.Hull.inClass (cs.map Cut.value) i (val e) := by
  unfold spillFeatures
  rw [List.mem_filterMap]
  constructor
  · rintro ⟨i, hi, h⟩
    simp only at h
    rw [List.mem_range] at hi
    rw [List.getElem?_eq_getElem hi] at h
    simp only at h
    split at h
    · simp at h
    · rename_i hne
      simp only [Option.some.injEq] at h
      subst h
      exact ⟨rfl, by simpa using hne, i, cs[i], List.getElem?_eq_getElem hi, rfl, rfl, rfl⟩
  · rintro ⟨h1, h2, i, c, hc, h3, h4, h5⟩
    refine ⟨i, List.mem_range.mpr (List.getElem?_eq_some_iff.mp hc).1, ?_⟩
    simp only [hc]
    rw [h5] at h2
    rw [if_neg (by simpa using h2)]
    cases f
    simp_all

/-- The frame has the columns of the parameters, but for depth and windage. -/
theorem frame_ok (sc : Sc) (p col : String) (hu : unitMap p = some col) (hd : p ≠ "Depth") (hw : p ≠ "Windage")
    (h1 : p = "Surface Concentration" → "surface_concentration" ∈ sc.names) (h2 : p = "Viscosity" → "viscosity" ∈ sc.names) :
    frame sc col = .ok (value p) := by
  have hx : ∀ q, value q = fun e => value q e := fun _ => rfl
  by_cases c1 : p = "Mass"
  · subst c1; simp only [unitMap] at hu; cases hu; rfl
  by_cases c2 : p = "Surface Concentration"
  · subst c2; simp [unitMap] at hu; subst hu; simp [frame, h1 rfl]; rfl
  by_cases c3 : p = "Age"
  · subst c3; simp [unitMap] at hu; subst hu; rfl
  by_cases c4 : p = "Viscosity"
  · subst c4; simp [unitMap] at hu; subst hu; simp [frame, h2 rfl]; rfl
  · simp [unitMap, c1, c2, c3, c4, hd, hw] at hu

theorem featuresLoop_ok (sc : Sc) : ∀ (cuts : List (Nat × String × List Cut)) (val : Nat → El → ℚ),
    (∀ p ∈ cuts, frame sc p.2.1 = .ok (val p.1)) →
    featuresLoop sc cuts = .ok (cuts.map fun p => spillFeatures sc.els p.1 (val p.1) p.2.2) := by
  intro cuts val
  induction cuts with
  | nil => intro _; rfl
  | cons p l ih =>
    intro h
    obtain ⟨s, col, cs⟩ := p
    have hp := h (s, col, cs) (by simp)
    simp only at hp
    simp only [featuresLoop, hp, ih fun q hq => h q (by simp [hq]), List.map_cons]
    rfl

/-- The parameter of spill `s`. -/
def paramOf (apps : List Appear) (s : Nat) : String := ((apps[s]?).map Appear.param).getD ""

theorem contourList_ok (c : Cfg) (apps : List Appear) (all : List Sc) (sc : Sc) (hsc : sc ∈ all) (h : Ready c apps all)
    (hd : ∀ a ∈ apps, a.contours = true → a.param ≠ "Depth" ∧ a.param ≠ "Windage") :
    ∃ cuts, cutStruct 0 apps = .ok cuts ∧ ∃ ls, contourList sc cuts = .ok ls ∧ (∀ f, f ∈ ls.flatten ↔ Drawn apps sc.els f) ∧
      (∀ l ∈ ls, l ≠ [] ∧ ∀ f ∈ l, ∀ g ∈ l, f.spill = g.spill) ∧ ls.Pairwise (fun l l' => ∀ f ∈ l, ∀ g ∈ l', f.spill < g.spill) := by
  obtain ⟨cuts, e, h1, h2, h3⟩ := cutStruct_ok apps 0 h.cmap h.par
  refine ⟨cuts, e, ?_⟩
  have h1' : ∀ p ∈ cuts, ∃ a, apps[p.1]? = some a ∧ Fits a p.2.1 p.2.2 := by
    intro p hp; obtain ⟨_, a, g⟩ := h1 p hp; exact ⟨a, by simpa using g⟩
  have hfr : ∀ p ∈ cuts, frame sc p.2.1 = .ok (value (paramOf apps p.1)) := by
    intro p hp
    obtain ⟨a, ha, hf⟩ := h1' p hp
    have ham : a ∈ apps := List.mem_of_getElem? ha
    obtain ⟨cm, m, hc, _, hu, _⟩ := hf
    have hpo : paramOf apps p.1 = a.param := by simp [paramOf, ha]
    rw [hpo]
    exact frame_ok sc a.param _ hu (hd a ham hc).1 (hd a ham hc).2 (h.arrays sc hsc a ham hc).1 (h.arrays sc hsc a ham hc).2
  have hdraw : ∀ f, (∃ p ∈ cuts, f ∈ spillFeatures sc.els p.1 (value (paramOf apps p.1)) p.2.2) ↔ Drawn apps sc.els f := by
    intro f
    constructor
    · rintro ⟨p, hp, hfm⟩
      obtain ⟨a, ha, cm, m, hc, hcm, hu, hv, hk⟩ := h1' p hp
      have ham : a ∈ apps := List.mem_of_getElem? ha
      obtain ⟨g1, g2, i, ct, g3, g4, g5, g6⟩ := (mem_spillFeatures _ _ _ _ _).mp hfm
      have hi : i ≤ cm.colDomain.length := by
        have h5 : i < p.2.2.length := (List.getElem?_eq_some_iff.mp g3).1
        have h6 : p.2.2.length = cm.colDomain.length + 1 := by
          have := congrArg List.length hv; simpa using this
        omega
      refine ⟨a, cm, i, by rw [g1]; exact ha, hc, hcm, hi, by rw [g5]; exact (hk i ct g3).1, by rw [g4]; exact (hk i ct g3).2, ?_, g2⟩
      rw [g6, List.filter_filter, hv]
      apply List.filter_congr
      intro x _
      rw [inClass_band cm.colDomain m (h.cmap a ham cm hcm).limits i hi, g1, Bool.and_comm]
      simp [paramOf, ha]
    · rintro ⟨a, cm, i, ha, hc, hcm, hi, hl, hco, he, hne⟩
      have ham : a ∈ apps := List.mem_of_getElem? ha
      obtain ⟨q, hq⟩ := h2 f.spill a ha hc (by simp [hcm])
      rw [Nat.zero_add] at hq
      refine ⟨_, hq, ?_⟩
      obtain ⟨a', ha', cm', m, hc', hcm', hu, hv, hk⟩ := h1' _ hq
      simp only at ha' hv hk hu
      rw [ha] at ha'; cases ha'
      rw [hcm] at hcm'; cases hcm'
      have hlen : q.2.length = cm.colDomain.length + 1 := by
        have := congrArg List.length hv; simpa using this
      have hct : q.2[i]? = some (q.2[i]'(by omega)) := List.getElem?_eq_getElem _
      have hkk := hk i _ hct
      rw [mem_spillFeatures]
      refine ⟨rfl, hne, i, _, hct, ?_, ?_, ?_⟩
      · rw [hco] at hkk; exact Option.some.inj hkk.2
      · rw [hl] at hkk; exact Option.some.inj hkk.1
      · rw [he, List.filter_filter]
        simp only [hv]
        apply List.filter_congr
        intro x _
        rw [inClass_band cm.colDomain m (h.cmap a ham cm hcm).limits i hi, Bool.and_comm]
        simp [paramOf, ha]
  unfold contourList
  by_cases hE : cuts = [] ∨ sc.els.isEmpty = true
  · rw [if_pos hE]
    refine ⟨[], rfl, ?_, by simp, List.Pairwise.nil⟩
    intro f
    constructor
    · simp
    · intro hf
      rcases hE with hE | hE
      · obtain ⟨p, hp, _⟩ := (hdraw f).mpr hf
        rw [hE] at hp; cases hp
      · obtain ⟨a, cm, i, _, _, _, _, _, _, he, hne⟩ := hf
        rw [List.isEmpty_iff] at hE
        rw [hE] at he
        exact absurd he hne
  · rw [if_neg hE, featuresLoop_ok sc cuts (fun s => value (paramOf apps s)) hfr]
    refine ⟨_, rfl, ?_, ?_, ?_⟩
    · intro f
      rw [← hdraw f]
      simp only [List.mem_flatten, List.mem_filter, List.mem_map]
      constructor
      · rintro ⟨l, ⟨⟨p, hp, rfl⟩, _⟩, hf⟩; exact ⟨p, hp, hf⟩
      · rintro ⟨p, hp, hf⟩
        exact ⟨_, ⟨⟨p, hp, rfl⟩, by cases hh : spillFeatures sc.els p.1 (value (paramOf apps p.1)) p.2.2 <;> simp_all⟩, hf⟩
    · intro l hl
      simp only [List.mem_filter, List.mem_map] at hl
      obtain ⟨⟨p, hp, rfl⟩, hne⟩ := hl
      refine ⟨by intro h0; rw [h0] at hne; simp at hne, ?_⟩
      intro f hf g hg
      rw [((mem_spillFeatures _ _ _ _ _).mp hf).1, ((mem_spillFeatures _ _ _ _ _).mp hg).1]
    · apply List.Pairwise.filter
      rw [List.pairwise_map]
      refine h3.imp ?_
      intro p q hpq f hf g hg
      rw [((mem_spillFeatures _ _ _ _ _).mp hf).1, ((mem_spillFeatures _ _ _ _ _).mp hg).1]
      exact hpq

/-! ## The step -/

/-- What a container adds. -/
theorem turns_ok (around : Nat → ℚ → ℚ) (c : Cfg) (apps : List Appear) (all : List Sc) (h : Ready c apps all)
    (hd : ∀ a ∈ apps, a.contours = true → a.param ≠ "Depth" ∧ a.param ≠ "Windage")
    (cuts : List (Nat × String × List Cut)) (hcut : cutStruct 0 apps = .ok cuts) :
    ∀ (l : List Sc) (o : Out), (∀ sc ∈ l, sc ∈ all) → ∃ o', turns around c cuts all o l = .ok o' ∧
      ∃ ce un co, o'.certain = o.certain ++ ce ∧ o'.uncertain = o.uncertain ++ un ∧ o'.contours = o.contours ++ co ∧
      o'.bounds = o.bounds ++ (if c.bounds then List.replicate (l.filter (·.unc)).length
        (if (all.flatMap Sc.els).isEmpty then [] else [all.flatMap Sc.els]) else []) ∧
      List.Forall₂ (fun sc t => Rows around c.add sc.els t) (l.filter (!·.unc)) ce ∧
      List.Forall₂ (fun sc t => Rows around c.add sc.els t) (l.filter (·.unc)) un ∧
      List.Forall₂ (fun sc ls => (∀ f, f ∈ ls.flatten ↔ Drawn apps sc.els f) ∧ (∀ l ∈ ls, l ≠ [] ∧ ∀ f ∈ l, ∀ g ∈ l, f.spill = g.spill) ∧
        ls.Pairwise (fun l l' => ∀ f ∈ l, ∀ g ∈ l', f.spill < g.spill)) (l.filter (!·.unc)) co := by
  intro l
  induction l with
  | nil => intro o _; exact ⟨o, rfl, [], [], [], by simp, by simp, by simp, by simp, by simp, by simp, by simp⟩
  | cons sc l ih =>
    intro o hl
    have hsc := hl sc (by simp)
    obtain ⟨t, et, ht⟩ := table_ok around c.add sc (h.add sc hsc)
    obtain ⟨cuts', ec, ls, el, hls⟩ := contourList_ok c apps all sc hsc h hd
    rw [hcut] at ec; cases ec
    cases hu : sc.unc with
    | true =>
      obtain ⟨o', e', ce, un, co, q1, q2, q3, q4, q5, q6, q7⟩ := ih
        { o with uncertain := o.uncertain ++ [t]
                 bounds := if c.bounds then o.bounds ++ [if (all.flatMap Sc.els).isEmpty then [] else [all.flatMap Sc.els]] else o.bounds }
        (fun x hx => hl x (by simp [hx]))
      refine ⟨o', ?_, ce, t :: un, co, q1, by simp [q2], q3, ?_, by simpa [hu] using q5, ?_, by simpa [hu] using q7⟩
      · have : turn around c cuts all o sc = .ok { o with uncertain := o.uncertain ++ [t]
                                                          bounds := if c.bounds then o.bounds ++ [if (all.flatMap Sc.els).isEmpty then [] else [all.flatMap Sc.els]] else o.bounds } := by
          unfold turn; rw [et]; simp only [hu]; rfl
        simp only [turns, this]; exact e'
      · rw [q4]
        simp only [hu, List.filter_cons_of_pos, List.length_cons]
        cases c.bounds
        · simp
        · simp [List.replicate_succ]
      · simp only [hu, List.filter_cons_of_pos]; exact List.Forall₂.cons ht q6
    | false =>
      obtain ⟨o', e', ce, un, co, q1, q2, q3, q4, q5, q6, q7⟩ := ih
        { o with certain := o.certain ++ [t], contours := o.contours ++ [ls] } (fun x hx => hl x (by simp [hx]))
      refine ⟨o', ?_, t :: ce, un, ls :: co, by simp [q1], q2, by simp [q3], by simpa [hu] using q4, ?_, by simpa [hu] using q6, ?_⟩
      · have : turn around c cuts all o sc = .ok { o with certain := o.certain ++ [t], contours := o.contours ++ [ls] } := by
          unfold turn; rw [et]; simp only [hu, el]; rfl
        simp only [turns, this]; exact e'
      · simp only [hu, Bool.not_false, List.filter_cons_of_pos]; exact List.Forall₂.cons ht q5
      · simp only [hu, Bool.not_false, List.filter_cons_of_pos]; exact List.Forall₂.cons hls q7

/-- **C213** without an output directory and without contours of depth or windage. -/
theorem C213_partial (around : Nat → ℚ → ℚ) (c : Cfg) (apps : List Appear) (all : List Sc) (h : Ready c apps all) (ho : c.outputDir = false)
    (hd : ∀ a ∈ apps, a.contours = true → a.param ≠ "Depth" ∧ a.param ≠ "Windage") :
    ∃ o, write around c apps all = .ok o ∧ Sent around c apps all o := by
  obtain ⟨cuts, hcut, _⟩ := cutStruct_ok apps 0 h.cmap h.par
  obtain ⟨o, e, ce, un, co, q1, q2, q3, q4, q5, q6, q7⟩ := turns_ok around c apps all h hd cuts hcut all ⟨[], [], [], []⟩ (fun _ h => h)
  simp only [List.nil_append] at q1 q2 q3 q4
  refine ⟨o, ?_, ⟨by rw [q1]; exact q5, by rw [q2]; exact q6, by rw [q3]; exact q7, q4⟩⟩
  unfold write
  rw [hcut]
  simp only [bind, Except.bind, e, ho]
  rfl

/-- A container with one element, and a colormap with two bands. -/
def demoEl : El := ⟨1, 2, 3, 2, 100, 60, 0, fun _ => 7⟩
def demoSc : Sc := ⟨[demoEl], ["viscosity"], false⟩
def demoMap : Colormap := ⟨[0, 10], [5], ["low", "high"], ["blue", "red"]⟩

theorem demoMap_good : demoMap.Good := ⟨by simp [demoMap], by simp [demoMap], by simp [demoMap], by simp [demoMap]⟩

theorem demo_ready (add : List String) (dir : Bool) (p : String) (ha : ∀ d ∈ add, d = "depth" ∨ d = "viscosity") (hp : p ∈ offered)
    (hs : p ≠ "Surface Concentration") : Ready ⟨add, false, dir⟩ [⟨true, some demoMap, p⟩] [demoSc] := by
  refine ⟨?_, ?_, ?_, ?_⟩
  · intro sc h d hd
    rw [List.mem_singleton] at h; subst h
    simpa [demoSc] using ha d hd
  · intro a h cm hc
    rw [List.mem_singleton] at h; subst h
    cases hc; exact demoMap_good
  · intro a h
    rw [List.mem_singleton] at h; subst h; exact hp
  · intro sc h a h' _
    rw [List.mem_singleton] at h h'; subst h; subst h'
    exact ⟨fun q => absurd q hs, fun _ => by simp [demoSc]⟩

/-- Not so in general: with an output directory nothing is sent. -/
theorem C213_counterexample : (∀ (around : Nat → ℚ → ℚ) (c : Cfg) (apps : List Appear) (all : List Sc) (o : Out), c.outputDir = true →
    write around c apps all ≠ .ok o) ∧ ¬ C213_claim := by
  have key : ∀ (around : Nat → ℚ → ℚ) (c : Cfg) (apps : List Appear) (all : List Sc) (o : Out), c.outputDir = true →
      write around c apps all ≠ .ok o := by
    intro around c apps all o hc h
    unfold write at h
    cases h1 : cutStruct 0 apps with
    | error e => rw [h1] at h; simp [bind, Except.bind] at h
    | ok cuts =>
      rw [h1] at h
      cases h2 : turns around c cuts all ⟨[], [], [], []⟩ all with
      | error e => simp [bind, Except.bind, h2] at h
      | ok o' => simp [bind, Except.bind, h2, hc] at h
  refine ⟨key, fun hcl => ?_⟩
  obtain ⟨o, e, _⟩ := hcl (fun _ x => x) ⟨[], false, true⟩ _ _ (demo_ready [] true "Mass" (by simp) (by simp [offered]) (by simp))
  exact key _ _ _ _ _ rfl e

/-- Contours of the depth, which the list of parameters offers, fail as soon as there is an element: the frame has no such column. -/
theorem C213_counterexample_depth : write (fun _ x => x) ⟨[], false, false⟩ [⟨true, some demoMap, "Depth"⟩] [demoSc] = .error .key ∧ ¬ C213_claim := by
  have key : write (fun _ x => x) ⟨[], false, false⟩ [⟨true, some demoMap, "Depth"⟩] [demoSc] = .error .key := by rfl
  refine ⟨key, fun hcl => ?_⟩
  obtain ⟨o, e, _⟩ := hcl (fun _ x => x) ⟨[], false, false⟩ _ _ (demo_ready [] false "Depth" (by simp) (by simp [offered]) (by simp))
  rw [key] at e; cases e

/-- An array that is not there, or a parameter that is not offered, stops the run. -/
theorem C213_missing (around : Nat → ℚ → ℚ) (add : List String) (sc : Sc) (d : String) (hd : d ∈ add) (h : d ≠ "depth") (hn : d ∉ sc.names) :
    table around add sc = .error .key := by
  have : extras around sc add = .error .key := by
    induction add with
    | nil => cases hd
    | cons a l ih =>
      have hcol : ∀ a : String, (∃ l, extraCol around sc a = .ok l) ∨ extraCol around sc a = .error .key := by
        intro a
        unfold extraCol column
        by_cases h1 : a = "viscosity" ∨ a = "surface_concentration" <;> by_cases h2 : a = "depth" <;> by_cases h3 : a ∈ sc.names <;>
          simp [h1, h2, h3, Except.map]
      have hbad : extraCol around sc d = .error .key := by
        unfold extraCol column
        by_cases h1 : d = "viscosity" ∨ d = "surface_concentration" <;> simp [h1, h, hn, Except.map]
      rcases List.mem_cons.mp hd with rfl | hd
      · simp only [extras, hbad]; rfl
      · rcases hcol a with ⟨x, hx⟩ | hx
        · simp only [extras, hx, ih hd]; rfl
        · simp only [extras, hx]; rfl
  unfold table; rw [this]; rfl

/-- The bands of ascending limits hold every value. -/
theorem C213_bands (lim : List ℚ) (hs : lim.Pairwise (· < ·)) (x : ℚ) : ∃ i ≤ lim.length, band lim i x := by
  induction lim with
  | nil => exact ⟨0, le_refl _, by simp [band]⟩
  | cons a l ih =>
    rw [List.pairwise_cons] at hs
    by_cases hx : x ≤ a
    · exact ⟨0, by simp, by simp [band, hx]⟩
    · obtain ⟨i, hi, h1, h2⟩ := ih hs.2
      refine ⟨i + 1, by simp [hi], ?_, ?_⟩
      · intro u hu; rw [List.getElem?_cons_succ] at hu; exact h1 u hu
      · intro u _ hu
        rw [Nat.add_sub_cancel] at hu
        cases i with
        | zero => simp at hu; subst hu; exact le_of_lt (not_le.mp hx)
        | succ i => rw [List.getElem?_cons_succ] at hu; exact h2 u (by omega) hu

example : Ready ⟨["viscosity", "depth"], true, false⟩ [⟨true, some demoMap, "Viscosity"⟩] [demoSc] :=
  ⟨(demo_ready ["viscosity", "depth"] false "Viscosity" (by simp) (by simp [offered]) (by simp)).add,
   (demo_ready [] false "Viscosity" (by simp) (by simp [offered]) (by simp)).cmap,
   (demo_ready [] false "Viscosity" (by simp) (by simp [offered]) (by simp)).par,
   (demo_ready [] false "Viscosity" (by simp) (by simp [offered]) (by simp)).arrays⟩

end Verif.Output.SpillJson
