import Verif.Release.PolySetModel
import Mathlib.Algebra.Order.BigOperators.Group.List
import Mathlib.Data.List.Forall2
import Mathlib.Tactic.FieldSimp
import Mathlib.Tactic.Linarith
import Mathlib.Tactic.Positivity

/-!
# C334–C336: weights and thicknesses of a polygon release
-/
namespace Verif.Release.PolySet

variable {P : Type}

/-- Some feature has a number for the property. -/
def Has (k : Key) (fs : List (Feat P)) : Prop := ∃ f ∈ fs, ∃ q, f.prop k = some (some q)

theorem reading_none (k : Key) (fs : List (Feat P)) : reading k fs = none ↔ ¬ Has k fs := by
  unfold reading Has
  have hv : ∀ f : Feat P, value k f = none ↔ ¬ ∃ q, f.prop k = some (some q) := by
    intro f
    unfold value
    rcases f.prop k with _ | _ | q <;> simp
  constructor
  · intro h
    split at h
    · rename_i h'
      rintro ⟨f, hf, hq⟩
      rw [List.all_eq_true] at h'
      have := h' (value k f) (List.mem_map.2 ⟨f, hf, rfl⟩)
      simp only [decide_eq_true_eq] at this
      exact (hv f).1 this hq
    · cases h
  · intro h
    rw [if_pos]
    rw [List.all_eq_true]
    intro x hx
    obtain ⟨f, hf, rfl⟩ := List.mem_map.1 hx
    simp only [decide_eq_true_eq]
    rw [hv]
    exact fun hq => h ⟨f, hf, hq⟩

theorem put_other (f : Feat P) (k : Key) (v : Option (Option ℚ)) : (f.put k v).prop k.other = f.prop k.other := by
  cases k <;> rfl

theorem put_same (f : Feat P) (k : Key) (v : Option (Option ℚ)) : (f.put k v).prop k = v := by
  cases k <;> rfl

theorem put_shape (f : Feat P) (k : Key) (v : Option (Option ℚ)) : (f.put k v).shape = f.shape := by
  cases k <;> rfl

theorem assign_map {β : Type} (k : Key) (g : Feat P → β) (hg : ∀ f v, g (f.put k v) = g f) (fs : List (Feat P)) (l : List (Option ℚ)) :
    (assign k fs l).map g = fs.map g := by
  induction fs generalizing l with
  | nil => cases l <;> rfl
  | cons f fs ih =>
    cases l with
    | nil => rfl
    | cons v vs => simp [assign, hg, ih]

theorem delete_map {β : Type} (k : Key) (g : Feat P → β) (hg : ∀ f v, g (f.put k v) = g f) (fs : List (Feat P)) :
    (delete k fs).1.map g = fs.map g := by
  induction fs with
  | nil => rfl
  | cons f fs ih =>
    unfold delete
    split
    · rfl
    · simp [hg, ih]

theorem delete_has (k : Key) (fs : List (Feat P)) (h : Has k (delete k fs).1) : Has k fs := by
  induction fs with
  | nil => exact h
  | cons f fs ih =>
    unfold delete at h
    split at h
    · exact h
    · obtain ⟨g, hg, q, hq⟩ := h
      simp only [List.mem_cons] at hg
      rcases hg with rfl | hg
      · rw [put_same] at hq
        cases hq
      · obtain ⟨g', hg', hq'⟩ := ih ⟨g, hg, q, hq⟩
        exact ⟨g', List.mem_cons_of_mem _ hg', hq'⟩

theorem has_map (k : Key) (fs gs : List (Feat P)) (h : fs.map (·.prop k) = gs.map (·.prop k)) : Has k fs ↔ Has k gs := by
  have : ∀ hs : List (Feat P), Has k hs ↔ ∃ q : ℚ, some (some q) ∈ hs.map (·.prop k) := by
    intro hs
    unfold Has
    simp only [List.mem_map]
    constructor
    · rintro ⟨f, hf, q, hq⟩
      exact ⟨q, f, hf, hq⟩
    · rintro ⟨q, f, hf, hq⟩
      exact ⟨f, hf, q, hq⟩
  rw [this, this, h]

theorem other_other (k : Key) : k.other.other = k := by cases k <;> rfl

theorem setting_other (k : Key) (v : Option (List (Option ℚ))) (fs : List (Feat P)) :
    (setting k v fs).1.map (·.prop k.other) = fs.map (·.prop k.other) := by
  cases v with
  | none => exact delete_map k _ (fun f v => put_other f k v) fs
  | some l =>
    simp only [setting]
    split
    · rfl
    · exact assign_map k _ (fun f v => put_other f k v) fs l

/-- C334: whatever is set, accepted or refused, a release never has both. -/
theorem setting_one (k : Key) (v : Option (List (Option ℚ))) (fs : List (Feat P)) (h : ¬ (Has k fs ∧ Has k.other fs)) :
    ¬ (Has k (setting k v fs).1 ∧ Has k.other (setting k v fs).1) := by
  rintro ⟨h1, h2⟩
  rw [has_map k.other _ _ (setting_other k v fs)] at h2
  cases v with
  | none => exact h ⟨delete_has k fs h1, h2⟩
  | some l =>
    simp only [setting] at h1
    split at h1
    · exact h ⟨h1, h2⟩
    · rename_i hn
      simp only [ne_eq, not_not] at hn
      exact (reading_none k.other fs).1 hn h2

theorem features_has (k : Key) (ps : List (List P)) (ws ts : Option (List (Option ℚ)))
    (h : Has k (features ps ws ts)) : (if k = .weight then ws else ts) ≠ none := by
  have hn : ∀ k, ¬ Has k (ps.map fun s => (⟨s, none, none⟩ : Feat P)) := by
    rintro k ⟨f, hf, q, hq⟩
    obtain ⟨s, _, rfl⟩ := List.mem_map.1 hf
    cases k <;> cases hq
  intro hk
  cases k with
  | weight =>
    simp only [if_true] at hk
    subst hk
    have hm := assign_map (P := P) Key.thickness (·.prop .weight) (fun f v => put_other f .thickness v)
      (ps.map fun s => ⟨s, none, none⟩) (ts.getD [])
    have h0 : ∀ fs : List (Feat P), assign .weight fs [] = fs := fun fs => by cases fs <;> rfl
    simp only [features, Option.getD_none, h0] at h
    rw [has_map _ _ _ hm] at h
    exact hn _ h
  | thickness =>
    rw [if_neg (by simp)] at hk
    subst hk
    have h0 : ∀ fs : List (Feat P), assign .thickness fs [] = fs := fun fs => by cases fs <;> rfl
    simp only [features, Option.getD_none, h0] at h
    have hm := assign_map (P := P) Key.weight (·.prop .thickness) (fun f v => put_other f .weight v)
      (ps.map fun s => ⟨s, none, none⟩) (ws.getD [])
    rw [has_map _ _ _ hm] at h
    exact hn _ h

/-- C334 -/
theorem C334_one (ps : Option (List (List P))) (ws ts : Option (List (Option ℚ))) (fs : List (Feat P)) (hm : make ps ws ts = some fs)
    (ops : List Op) :
    reading .weight (ops.foldl apply fs) = none ∨ reading .thickness (ops.foldl apply fs) = none := by
  have hi : ∀ (ops : List Op) (fs : List (Feat P)), ¬ (Has .weight fs ∧ Has .thickness fs) →
      ¬ (Has .weight (ops.foldl apply fs) ∧ Has .thickness (ops.foldl apply fs)) := by
    intro ops
    induction ops with
    | nil => exact fun fs h => h
    | cons o r ih =>
      intro fs h
      apply ih
      cases o with
      | set k v =>
        cases k with
        | weight => exact setting_one .weight v fs h
        | thickness => exact fun h' => setting_one .thickness v fs (fun h' => h h'.symm) h'.symm
  have h0 : ¬ (Has .weight fs ∧ Has .thickness fs) := by
    rintro ⟨h1, h2⟩
    unfold make at hm
    repeat' split at hm
    all_goals first
      | (cases hm; done)
      | (cases hm
         first
           | exact (features_has _ _ _ _ h1) rfl
           | exact (features_has _ _ _ _ h2) rfl)
  have := hi ops fs h0
  rw [reading_none, reading_none]
  by_cases hw : Has .weight (ops.foldl apply fs)
  · exact Or.inr fun ht => this ⟨hw, ht⟩
  · exact Or.inl hw

/-- C334: settings do not change the polygons. -/
theorem C334_shapes (fs : List (Feat P)) (ops : List Op) : (ops.foldl apply fs).map (·.shape) = fs.map (·.shape) := by
  induction ops generalizing fs with
  | nil => rfl
  | cons o r ih =>
    rw [List.foldl_cons, ih]
    cases o with
    | set k v =>
      simp only [apply]
      cases v with
      | none => exact delete_map k _ (fun f v => put_shape f k v) fs
      | some l =>
        simp only [setting]
        split
        · rfl
        · exact assign_map k _ (fun f v => put_shape f k v) fs l

/-- C334: what is shown: every polygon with the weight and the thickness of its feature. -/
theorem C334_shown (fs : List (Feat P)) :
    (polygonsShown fs).zip ((metadata .weight fs).zip (metadata .thickness fs)) =
      fs.flatMap (fun f => f.shape.map fun p => (p, shownValue .weight f, shownValue .thickness f)) ∧
    (metadata .weight fs).length = (polygonsShown fs).length ∧ (metadata .thickness fs).length = (polygonsShown fs).length := by
  have hl : ∀ k, (metadata k fs).length = (polygonsShown fs).length := by
    intro k
    unfold polygonsShown
    induction fs with
    | nil => rfl
    | cons f fs ih => simp [metadata, ih]
  refine ⟨?_, hl _, hl _⟩
  clear hl
  unfold polygonsShown
  induction fs with
  | nil => rfl
  | cons f fs ih =>
    simp only [List.flatMap_cons, metadata]
    rw [List.zip_append (by simp), List.zip_append (by simp), ih]
    congr 1
    induction f.shape with
    | nil => rfl
    | cons p r ih => rw [List.map_cons, List.map_cons, List.map_cons, List.zip_cons_cons, List.zip_cons_cons, ih]

/-- C335: what is set can be read, and what is refused changes nothing. -/
def C335_claim : Prop :=
  ∀ (k : Key) (fs : List (Feat Nat)) (v : Option (List (Option ℚ))),
    (((setting k v fs).2 = false ∧ (∀ l, v = some l → (setting k v fs).1.map (value k) = l) ∧
        (v = none → reading k (setting k v fs).1 = none)) ∨ ((setting k v fs).2 = true ∧ (setting k v fs).1 = fs))

theorem assign_value (k : Key) (fs : List (Feat P)) (l : List (Option ℚ)) (h : l.length = fs.length) :
    (assign k fs l).map (value k) = l := by
  induction fs generalizing l with
  | nil =>
    cases l with
    | nil => rfl
    | cons v vs => simp at h
  | cons f fs ih =>
    cases l with
    | nil => simp at h
    | cons v vs =>
      simp only [assign, List.map_cons]
      rw [ih vs (by simpa using h)]
      simp [value, put_same]

theorem delete_all (k : Key) (fs : List (Feat P)) (h : ∀ f ∈ fs, f.prop k ≠ none) :
    (delete k fs).2 = false ∧ ∀ f ∈ (delete k fs).1, f.prop k = none := by
  induction fs with
  | nil => exact ⟨rfl, by simp [delete]⟩
  | cons f fs ih =>
    obtain ⟨h1, h2⟩ := ih fun g hg => h g (List.mem_cons_of_mem _ hg)
    have hf := h f (List.mem_cons_self ..)
    unfold delete
    rw [if_neg hf]
    refine ⟨h1, ?_⟩
    intro g hg
    simp only [List.mem_cons] at hg
    rcases hg with rfl | hg
    · exact put_same f k none
    · exact h2 g hg

/-- C335 -/
theorem C335_partial (k : Key) (fs : List (Feat P)) (v : Option (List (Option ℚ)))
    (hv : ∀ l, v = some l → l.length = fs.length) (hd : v = none → ∀ f ∈ fs, f.prop k ≠ none) :
    (((setting k v fs).2 = false ∧ (∀ l, v = some l → (setting k v fs).1.map (value k) = l) ∧
        (v = none → reading k (setting k v fs).1 = none)) ∨
      ((setting k v fs).2 = true ∧ Has k.other fs ∧ (setting k v fs).1 = fs)) := by
  cases v with
  | none =>
    obtain ⟨h1, h2⟩ := delete_all k fs (hd rfl)
    refine Or.inl ⟨h1, by simp, fun _ => ?_⟩
    rw [reading_none]
    rintro ⟨f, hf, q, hq⟩
    have := h2 f hf
    rw [hq] at this
    cases this
  | some l =>
    by_cases ho : Has k.other fs
    · have hr : reading k.other fs ≠ none := fun h => (reading_none k.other fs).1 h ho
      refine Or.inr ?_
      simp only [setting, if_pos hr]
      exact ⟨trivial, ho, trivial⟩
    · have hr : ¬ reading k.other fs ≠ none := fun h => h ((reading_none k.other fs).2 ho)
      refine Or.inl ?_
      simp only [setting, if_neg hr]
      refine ⟨trivial, ?_, by simp⟩
      intro l' hl'
      cases hl'
      exact assign_value k fs l (hv l rfl)

/-- Two polygons with thicknesses 1 and 2 of which only the first is set to 5. -/
theorem C335_counterexample : ¬ C335_claim := by
  intro h
  rcases h .thickness [⟨[0], none, some (some 1)⟩, ⟨[1], none, some (some 2)⟩] (some [some 5]) with ⟨_, h2, _⟩ | ⟨h1, _⟩
  · have := h2 [some 5] rfl
    revert this
    decide
  · revert h1
    decide

/-- C335: removing weights that are not all there deletes some of them and raises a KeyError. -/
theorem C335_counterexample_none :
    setting .weight none [(⟨[0], some (some 1), none⟩ : Feat Nat), ⟨[1], none, none⟩] =
      ([⟨[0], none, none⟩, ⟨[1], none, none⟩], true) := by decide

/-- C335: a release that has no weights cannot be told that it has none. -/
theorem C335_unset (k : Key) (f : Feat P) (fs : List (Feat P)) (h : f.prop k = none) :
    setting k none (f :: fs) = (f :: fs, true) := by
  simp [setting, delete, h]

/-- C336: a release that is accepted can be run. -/
def C336_claim : Prop :=
  ∀ (area : List Nat → ℚ) (ps : List (List Nat)) (ts : List (Option ℚ)) (fs : List (Feat Nat)),
    (∀ s, 0 < area s) → ps ≠ [] → (∀ t ∈ ts, ∃ q, t = some q ∧ 0 < q) → make (some ps) none (some ts) = some fs →
    ∃ l, prepare area fs = some l

theorem numbers_some (l : List ℚ) : numbers (l.map some) = some l := by
  induction l with
  | nil => rfl
  | cons q r ih => simp [numbers, ih]

theorem sum_div (l : List ℚ) (c : ℚ) : (l.map (· / c)).sum = l.sum / c := by
  induction l with
  | nil => simp
  | cons q r ih =>
    simp only [List.map_cons, List.sum_cons, ih, add_div]

theorem sum_pos' (l : List ℚ) (h : ∀ q ∈ l, 0 < q) (hn : l ≠ []) : 0 < l.sum := by
  induction l with
  | nil => exact absurd rfl hn
  | cons q r ih =>
    rw [List.sum_cons]
    have hq := h q (List.mem_cons_self ..)
    rcases r with _ | ⟨a, r⟩
    · simpa using hq
    · have := ih (fun x hx => h x (List.mem_cons_of_mem _ hx)) (by simp)
      linarith

theorem isOne_div (l : List ℚ) (h : 0 < l.sum) : isOne ((l.map (· / l.sum)).sum) = true := by
  rw [sum_div, div_self h.ne']
  simp [isOne]
  norm_num

theorem assign_props (k : Key) (ps : List (List P)) (l : List (Option ℚ)) (h : l.length = ps.length) :
    (assign k (ps.map fun s => (⟨s, none, none⟩ : Feat P)) l).map (·.shape) = ps ∧
    (assign k (ps.map fun s => (⟨s, none, none⟩ : Feat P)) l).map (value k) = l := by
  refine ⟨?_, assign_value k _ l (by simpa using h)⟩
  rw [assign_map k _ (fun f v => put_shape f k v)]
  simp [Function.comp_def]

/-- Specification: the share of a polygon is its part of the total volume. -/
def volumeShare (area : List P → ℚ) (ps : List (List P)) (ts : List ℚ) : List ℚ :=
  List.zipWith (fun s t => area s * t / (List.zipWith (fun s t => area s * t) ps ts).sum) ps ts

/-- C336 -/
theorem C336_partial (area : List P → ℚ) (ps : List (List P)) (ts : List ℚ) (ha : ∀ s, 0 < area s) (hp : ps ≠ [])
    (hl : ts.length = ps.length) (ht : ∀ q ∈ ts, 0 < q) :
    ∃ fs, make (some ps) none (some (ts.map some)) = some fs ∧ prepare area fs = some (volumeShare area ps ts) := by
  refine ⟨features ps none (some (ts.map some)), rfl, ?_⟩
  have h0 : ∀ fs : List (Feat P), assign .weight fs [] = fs := fun fs => by cases fs <;> rfl
  have hf : features ps none (some (ts.map some)) =
      assign .thickness (ps.map fun s => (⟨s, none, none⟩ : Feat P)) (ts.map some) := by
    simp only [features, Option.getD_none, h0, Option.getD_some]
  rw [hf]
  obtain ⟨h1, h2⟩ := assign_props (P := P) .thickness ps (ts.map some) (by simpa using hl)
  generalize assign .thickness (ps.map fun s => (⟨s, none, none⟩ : Feat P)) (ts.map some) = fs at *
  have hn : ts ≠ [] := by
    rintro rfl
    apply hp
    cases ps with
    | nil => rfl
    | cons a r => simp at hl
  have hr : reading .thickness fs = some (ts.map some) := by
    unfold reading
    rw [h2, if_neg]
    cases ts with
    | nil => exact absurd rfl hn
    | cons a r => simp
  have hz : List.zipWith (fun (f : Feat P) t => area f.shape * t) fs ts = List.zipWith (fun s t => area s * t) ps ts := by
    rw [← h1, List.zipWith_map_left]
  have hs : 0 < (List.zipWith (fun s t => area s * t) ps ts).sum := by
    apply sum_pos'
    · intro q hq
      rw [List.mem_iff_getElem] at hq
      obtain ⟨i, hi, rfl⟩ := hq
      rw [List.getElem_zipWith]
      have hi' : i < ts.length := by simp only [List.length_zipWith] at hi; omega
      have := ht _ (List.getElem_mem hi')
      exact mul_pos (ha _) this
    · intro h
      have := congrArg List.length h
      simp only [List.length_zipWith, List.length_nil] at this
      cases ps with
      | nil => exact hp rfl
      | cons a r =>
        rw [hl] at this
        simp at this
  unfold prepare
  rw [hr]
  simp only [byVolume, numbers_some, Option.map_some, Option.bind_some, hz]
  rw [if_pos (isOne_div _ hs)]
  congr 1
  unfold volumeShare
  rw [List.map_zipWith]

/-- C336: one thickness for two polygons is accepted, and the run fails. -/
theorem C336_counterexample : ¬ C336_claim := by
  intro h
  obtain ⟨l, hl⟩ := h (fun _ => 1) [[0], [1]] [some 1] _ (fun _ => by norm_num) (by decide)
    (by intro t ht; simp only [List.mem_singleton] at ht; exact ⟨1, ht, by norm_num⟩) rfl
  revert hl
  have : prepare (fun _ => 1) (features [[0], [1]] none (some [some 1])) = none := by decide
  rw [this]
  simp

/-- C336: weights, one for each polygon, that sum to one are the shares. -/
theorem C336_weights (area : List P → ℚ) (ps : List (List P)) (ws : List ℚ) (hp : ps ≠ [])
    (hl : ws.length = ps.length) (hs : ws.sum = 1) :
    ∃ fs, make (some ps) (some (ws.map some)) none = some fs ∧ prepare area fs = some ws := by
  refine ⟨features ps (some (ws.map some)) none, by simp [make, hl], ?_⟩
  have h0 : ∀ fs : List (Feat P), assign .thickness fs [] = fs := fun fs => by cases fs <;> rfl
  have hf : features ps (some (ws.map some)) none =
      assign .weight (ps.map fun s => (⟨s, none, none⟩ : Feat P)) (ws.map some) := by
    simp only [features, Option.getD_none, h0, Option.getD_some]
  obtain ⟨_, h2⟩ := assign_props (P := P) .weight ps (ws.map some) (by simpa using hl)
  have ht : reading .thickness (features ps (some (ws.map some)) none) = none := by
    rw [reading_none]
    intro h
    exact features_has _ _ _ _ h rfl
  have hw : reading .weight (features ps (some (ws.map some)) none) = some (ws.map some) := by
    rw [hf]
    unfold reading
    rw [h2, if_neg]
    cases ws with
    | nil =>
      cases ps with
      | nil => exact absurd rfl hp
      | cons a r => simp at hl
    | cons a r => simp
  unfold prepare
  rw [ht]
  simp only [hw, numbers_some, Option.bind_some, hs]
  rw [if_pos (by simp [isOne]; norm_num)]

/-- C336: otherwise every polygon gets its part of the area. -/
theorem C336_areas (area : List P → ℚ) (ps : List (List P)) (ha : ∀ s, 0 < area s) (hp : ps ≠ []) :
    ∃ fs, make (some ps) none none = some fs ∧ prepare area fs = some (ps.map fun s => area s / (ps.map area).sum) := by
  have h0 : ∀ k, ∀ fs : List (Feat P), assign k fs [] = fs := fun k fs => by cases fs <;> rfl
  have hf : features ps none none = ps.map fun s => (⟨s, none, none⟩ : Feat P) := by
    simp only [features, Option.getD_none, h0]
  have ht : ∀ k, reading k (features ps none none) = none := by
    intro k
    rw [reading_none]
    intro h
    have := features_has _ _ _ _ h
    cases k <;> exact this rfl
  refine ⟨features ps none none, rfl, ?_⟩
  unfold prepare
  simp only [ht]
  rw [hf]
  have h1 : ((ps.map fun s => (⟨s, none, none⟩ : Feat P)).map fun f => area f.shape) = ps.map area := by
    simp [Function.comp_def]
  rw [h1]
  have h2 : ((ps.map fun s => (⟨s, none, none⟩ : Feat P)).map fun f => area f.shape / (ps.map area).sum) =
      (ps.map area).map (· / (ps.map area).sum) := by
    simp [Function.comp_def]
  rw [h2, if_pos]
  · simp [Function.comp_def]
  · apply isOne_div
    apply sum_pos'
    · intro q hq
      obtain ⟨s, _, rfl⟩ := List.mem_map.1 hq
      exact ha s
    · simpa using hp

/-- A release is made exactly if there are polygons, at most one of weights and thicknesses is given, and there is a weight for each polygon if weights are given; its polygons are then those given, and its weights those given. -/
theorem C334_made (ps : Option (List (List P))) (ws ts : Option (List (Option ℚ))) :
    (make ps ws ts ≠ none ↔ ∃ l, ps = some l ∧ (ws = none ∨ (ts = none ∧ ∃ w, ws = some w ∧ w.length = l.length))) ∧
    ∀ fs, make ps ws ts = some fs → ps = some (fs.map (·.shape)) ∧ ∀ w, ws = some w → fs.map (value .weight) = w := by
  have hshape : ∀ (l : List (List P)) ws ts, (features l ws ts).map (·.shape) = l := by
    intro l ws ts
    unfold features
    rw [assign_map .weight _ (fun f v => put_shape f .weight v), assign_map .thickness _ (fun f v => put_shape f .thickness v), List.map_map]
    exact List.map_id' l
  constructor
  · cases ps with
    | none => simp [make]
    | some l =>
      cases ws with
      | none => simp [make]
      | some w =>
        cases ts with
        | some t => simp [make]
        | none =>
          by_cases h : w.length = l.length
          · simp [make, h]
          · simp [make, h]
  · intro fs hm
    cases ps with
    | none => simp [make] at hm
    | some l =>
      cases ws with
      | none =>
        simp only [make, Option.some.injEq] at hm
        subst hm
        exact ⟨by rw [hshape], fun w hw => by cases hw⟩
      | some w =>
        cases ts with
        | some t => simp [make] at hm
        | none =>
          simp only [make] at hm
          split at hm
          · cases hm
          · next h =>
            cases hm
            refine ⟨by rw [hshape], ?_⟩
            intro w' hw'
            cases hw'
            refine assign_value _ _ _ ?_
            have := congrArg List.length (assign_map Key.thickness (fun f : Feat P => f.shape) (fun f v => put_shape f .thickness v) (l.map fun s => ⟨s, none, none⟩) [])
            simp only [List.length_map] at this
            change _ = (assign Key.thickness (l.map fun s => (⟨s, none, none⟩ : Feat P)) []).length
            rw [this]
            exact not_not.mp h

/-- What is shown for a polygon without a value is 0. -/
theorem C334_absent (k : Key) (f : Feat P) : (f.prop k = none → shownValue k f = some 0) ∧ ∀ v, f.prop k = some v → shownValue k f = v := by
  unfold shownValue
  constructor
  · intro h; rw [h]; rfl
  · intro v h; rw [h]; rfl

/-! ## Cases that meet the hypotheses -/

example : make (some [[0], [1, 2]]) none (some [some 1, some 3]) = some [(⟨[0], none, some (some 1)⟩ : Feat Nat), ⟨[1, 2], none, some (some 3)⟩] := by
  decide

example : make (some [[0], [1, 2]]) (some [some 1]) none = (none : Option (List (Feat Nat))) := by decide

example : metadata .thickness [(⟨[0], none, some (some 1)⟩ : Feat Nat), ⟨[1, 2], none, some (some 3)⟩] = [some 1, some 3, some 3] := by decide

example : volumeShare (fun _ : List Nat => 2) [[0], [1, 2]] [1, 3] = [1 / 4, 3 / 4] := by decide +kernel

end Verif.Release.PolySet
