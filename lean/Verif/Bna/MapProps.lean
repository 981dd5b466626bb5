import Mathlib.Tactic.Linarith
import Mathlib.Data.List.Basic
import Verif.Bna.Model

/-!
# C189, C190, C191: maps made from BNA files
-/
namespace Verif.Bna

/-! ## C189: shifting longitudes -/

/-- The point with its longitude from 0 to 360. -/
def east (p : Pt) : Pt := if p.1 < 0 then (p.1 + 360, p.2) else p

/-- The point with its longitude from −180 to 180. -/
def around (p : Pt) : Pt := if p.1 > 180 then (p.1 - 360, p.2) else p

/-- **C189**, as one would expect. -/
def C189_claim : Prop := ∀ pts : List Pt, shift360 pts = pts.map east ∧ shift180 pts = pts.map around

/-- Two points on both sides of the date line are not shifted. -/
theorem C189_counterexample : ¬ C189_claim := by
  intro h
  have := (h [(-179, 0), (179, 0)]).1
  revert this; decide +kernel

theorem countP_eq (f : Pt → Bool) (pts : List Pt) : pts.countP f = pts.length ↔ ∀ p ∈ pts, f p = true :=
  List.countP_eq_length

/-- **C189** if all longitudes are on one side. -/
theorem C189_partial (pts : List Pt) :
    ((∀ p ∈ pts, p.1 < 0) ∨ (∀ p ∈ pts, ¬ p.1 < 0) → shift360 pts = pts.map east) ∧
    ((∀ p ∈ pts, p.1 > 180) ∨ (∀ p ∈ pts, ¬ p.1 > 180) → shift180 pts = pts.map around) := by
  constructor
  · intro h
    unfold shift360
    split
    · rename_i hc
      rw [countP_eq] at hc
      apply List.map_congr_left
      intro p hp
      unfold east
      rw [if_pos (by simpa using hc p hp)]
    · rename_i hc
      rw [countP_eq] at hc
      rcases h with h | h
      · exact absurd (fun p hp => by simpa using h p hp) hc
      · symm
        rw [List.map_congr_left (g := id) (fun p hp => by unfold east; rw [if_neg (h p hp)]; rfl), List.map_id]
  · intro h
    unfold shift180
    split
    · rename_i hc
      rw [countP_eq] at hc
      apply List.map_congr_left
      intro p hp
      unfold around
      rw [if_pos (by simpa using hc p hp)]
    · rename_i hc
      rw [countP_eq] at hc
      rcases h with h | h
      · exact absurd (fun p hp => by simpa using h p hp) hc
      · symm
        rw [List.map_congr_left (g := id) (fun p hp => by unfold around; rw [if_neg (h p hp)]; rfl), List.map_id]

/-- With longitudes on both sides nothing is shifted. -/
theorem C189_mixed (pts : List Pt) : ((∃ p ∈ pts, ¬ p.1 < 0) → shift360 pts = pts) ∧
    ((∃ p ∈ pts, ¬ p.1 > 180) → shift180 pts = pts) := by
  constructor
  · rintro ⟨p, hp, hn⟩
    unfold shift360
    rw [if_neg]
    rw [countP_eq]
    intro h
    exact hn (by simpa using h p hp)
  · rintro ⟨p, hp, hn⟩
    unfold shift180
    rw [if_neg]
    rw [countP_eq]
    intro h
    exact hn (by simpa using h p hp)

example : shift360 [(-170, 1), (-160, 2)] = [(190, 1), (200, 2)] := by decide +kernel

/-! ## C190: the parts of a map -/

/-- A polygon of the spillable area. -/
def IsSpill (p : Poly) : Prop := norm p.name = "spillablearea".toList
/-- A polygon of the bounds. -/
def IsBounds (p : Poly) : Prop := norm p.name = "mapbounds".toList

instance (p : Poly) : Decidable (IsSpill p) := inferInstanceAs (Decidable (_ = _))
instance (p : Poly) : Decidable (IsBounds p) := inferInstanceAs (Decidable (_ = _))

theorem spill_not_bounds (p : Poly) (h : IsBounds p) : ¬ IsSpill p := by
  unfold IsBounds at h
  unfold IsSpill
  rw [h]; decide

/-- The smallest box around points. -/
def IsBox (b : Box) (pts : List Pt) : Prop :=
  (∀ p ∈ pts, b.lo.1 ≤ p.1 ∧ p.1 ≤ b.hi.1 ∧ b.lo.2 ≤ p.2 ∧ p.2 ≤ b.hi.2) ∧
  (∃ p ∈ pts, p.1 = b.lo.1) ∧ (∃ p ∈ pts, p.1 = b.hi.1) ∧ (∃ p ∈ pts, p.2 = b.lo.2) ∧ (∃ p ∈ pts, p.2 = b.hi.2)

/-- What a map made from a file should be: the bounds are those given, else the first in the file, else the smallest box around
all land and spillable areas; spillable areas are those given, else those of the file; land is the polygons of more than two
points that are neither. -/
def Expected (given : Option (List Pt)) (spill : List (List Pt)) (ps : List Poly) (m : Map) : Prop :=
  m.land = ps.filter (fun p => ¬ IsSpill p ∧ ¬ IsBounds p ∧ p.kind = .polygon ∧ 2 < p.pts.length) ∧
  m.spill = (if spill = [] then (ps.filter fun p => IsSpill p).map Poly.pts else spill) ∧
  (∀ b, given = some b → m.bounds = b) ∧
  (given = none → ∀ p, (ps.filter fun p => IsBounds p).head? = some p → m.bounds = p.pts) ∧
  (given = none → (ps.filter fun p => IsBounds p) = [] → ∃ b, m.bounds = asPoly b ∧
    IsBox b (m.spill.flatten ++ m.land.flatMap Poly.pts))

/-- **C190**, as one would expect. -/
def C190_claim : Prop := ∀ (given : Option (List Pt)) (spill : List (List Pt)) (ps : List Poly),
  ∃ m, fromBNA given spill ps = some m ∧ Expected given spill ps m

/-- A file without land cannot be used. -/
theorem C190_counterexample : ¬ C190_claim := by
  intro h
  obtain ⟨m, hm, _⟩ := h none [] [⟨[(0, 0), (1, 0), (1, 1)], .polygon, "Map Bounds".toList, ['1']⟩]
  have : fromBNA none [] [⟨[(0, 0), (1, 0), (1, 1)], .polygon, "Map Bounds".toList, ['1']⟩] = none := by decide +kernel
  rw [this] at hm; simp at hm

/-- A line of three points is taken as land. -/
theorem C190_counterexample_line : (fromBNA none [] [⟨[(0, 0), (1, 0), (1, 1)], .polyline, "river".toList, ['1']⟩]).map Map.land =
    some [⟨[(0, 0), (1, 0), (1, 1)], .polyline, "river".toList, ['1']⟩] := by decide +kernel

/-- What the loop finds. -/
theorem classify_eq (f : Found) (ps : List Poly) : classify f ps =
    ⟨f.spill ++ ps.filter (fun p => IsSpill p), f.bounds <|> ((ps.filter fun p => IsBounds p).head?.map Poly.pts),
     f.land ++ ps.filter (fun p => ¬ IsSpill p ∧ ¬ IsBounds p ∧ 2 < p.pts.length)⟩ := by
  induction ps generalizing f with
  | nil => cases f with | mk a b c => cases b <;> simp [classify]
  | cons p ps ih =>
    rw [classify, ih]
    by_cases h1 : IsSpill p
    · have h2 : ¬ IsBounds p := fun h => spill_not_bounds p h h1
      rw [if_pos (show norm p.name = "spillablearea".toList from h1)]
      simp [h1, h2]
    · rw [if_neg (show ¬ norm p.name = "spillablearea".toList from h1)]
      by_cases h2 : IsBounds p
      · rw [if_pos (show norm p.name = "mapbounds".toList from h2)]
        obtain ⟨a, b, c⟩ := f
        cases b <;> simp [h1, h2]
      · rw [if_neg (show ¬ norm p.name = "mapbounds".toList from h2)]
        by_cases h3 : 2 < p.pts.length
        · rw [if_pos h3]
          simp [h1, h2, h3]
        · rw [if_neg h3]
          simp [h1, h2, h3]

def step (b : Box) (q : Pt) : Box := ⟨(min b.lo.1 q.1, min b.lo.2 q.2), (max b.hi.1 q.1, max b.hi.2 q.2)⟩

theorem isBox_step (b : Box) (pts : List Pt) (q : Pt) (h : IsBox b pts) : IsBox (step b q) (pts ++ [q]) := by
  obtain ⟨h1, ⟨p2, hp2, h2⟩, ⟨p3, hp3, h3⟩, ⟨p4, hp4, h4⟩, ⟨p5, hp5, h5⟩⟩ := h
  have hmem : ∀ p ∈ pts, p ∈ pts ++ [q] := fun p hp => List.mem_append_left _ hp
  have hq : q ∈ pts ++ [q] := by simp
  refine ⟨?_, ?_, ?_, ?_, ?_⟩
  · intro p hp
    simp only [step]
    rcases List.mem_append.mp hp with hp | hp
    · obtain ⟨a, b, c, d⟩ := h1 p hp
      exact ⟨le_trans (min_le_left _ _) a, le_trans b (le_max_left _ _), le_trans (min_le_left _ _) c, le_trans d (le_max_left _ _)⟩
    · rw [List.mem_singleton] at hp; subst hp
      exact ⟨min_le_right _ _, le_max_right _ _, min_le_right _ _, le_max_right _ _⟩
  · simp only [step]
    rcases min_choice b.lo.1 q.1 with h | h <;> rw [h]
    · exact ⟨p2, hmem _ hp2, h2⟩
    · exact ⟨q, hq, rfl⟩
  · simp only [step]
    rcases max_choice b.hi.1 q.1 with h | h <;> rw [h]
    · exact ⟨p3, hmem _ hp3, h3⟩
    · exact ⟨q, hq, rfl⟩
  · simp only [step]
    rcases min_choice b.lo.2 q.2 with h | h <;> rw [h]
    · exact ⟨p4, hmem _ hp4, h4⟩
    · exact ⟨q, hq, rfl⟩
  · simp only [step]
    rcases max_choice b.hi.2 q.2 with h | h <;> rw [h]
    · exact ⟨p5, hmem _ hp5, h5⟩
    · exact ⟨q, hq, rfl⟩

theorem isBox_foldl (ps pts : List Pt) (b : Box) (h : IsBox b pts) : IsBox (ps.foldl step b) (pts ++ ps) := by
  induction ps generalizing pts b with
  | nil => simpa using h
  | cons q ps ih =>
    have := ih (pts ++ [q]) (step b q) (isBox_step b pts q h)
    simpa using this

theorem boxOf_box (pts : List Pt) (h : pts ≠ []) : ∃ b, boxOf pts = some b ∧ IsBox b pts := by
  cases pts with
  | nil => exact absurd rfl h
  | cons p ps =>
    refine ⟨ps.foldl step ⟨p, p⟩, rfl, ?_⟩
    have := isBox_foldl ps [p] ⟨p, p⟩ ⟨by simp, by simp, by simp, by simp, by simp⟩
    simpa using this

theorem isBox_merge (a b : Box) (p q : List Pt) (ha : IsBox a p) (hb : IsBox b q) : IsBox (merge a b) (p ++ q) := by
  obtain ⟨a1, ⟨a2, a2', a2e⟩, ⟨a3, a3', a3e⟩, ⟨a4, a4', a4e⟩, ⟨a5, a5', a5e⟩⟩ := ha
  obtain ⟨b1, ⟨b2, b2', b2e⟩, ⟨b3, b3', b3e⟩, ⟨b4, b4', b4e⟩, ⟨b5, b5', b5e⟩⟩ := hb
  have hl : ∀ x ∈ p, x ∈ p ++ q := fun x hx => List.mem_append_left _ hx
  have hr : ∀ x ∈ q, x ∈ p ++ q := fun x hx => List.mem_append_right _ hx
  refine ⟨?_, ?_, ?_, ?_, ?_⟩
  · intro x hx
    simp only [merge]
    rcases List.mem_append.mp hx with hx | hx
    · obtain ⟨h1, h2, h3, h4⟩ := a1 x hx
      exact ⟨le_trans (min_le_left _ _) h1, le_trans h2 (le_max_left _ _), le_trans (min_le_left _ _) h3, le_trans h4 (le_max_left _ _)⟩
    · obtain ⟨h1, h2, h3, h4⟩ := b1 x hx
      exact ⟨le_trans (min_le_right _ _) h1, le_trans h2 (le_max_right _ _), le_trans (min_le_right _ _) h3, le_trans h4 (le_max_right _ _)⟩
  · simp only [merge]
    rcases min_choice a.lo.1 b.lo.1 with h | h <;> rw [h]
    · exact ⟨a2, hl _ a2', a2e⟩
    · exact ⟨b2, hr _ b2', b2e⟩
  · simp only [merge]
    rcases max_choice a.hi.1 b.hi.1 with h | h <;> rw [h]
    · exact ⟨a3, hl _ a3', a3e⟩
    · exact ⟨b3, hr _ b3', b3e⟩
  · simp only [merge]
    rcases min_choice a.lo.2 b.lo.2 with h | h <;> rw [h]
    · exact ⟨a4, hl _ a4', a4e⟩
    · exact ⟨b4, hr _ b4', b4e⟩
  · simp only [merge]
    rcases max_choice a.hi.2 b.hi.2 with h | h <;> rw [h]
    · exact ⟨a5, hl _ a5', a5e⟩
    · exact ⟨b5, hr _ b5', b5e⟩

/-- **C190** for files with land, without lines of three or more points under other names, whose spillable areas have points. -/
theorem C190_partial (given : Option (List Pt)) (spill : List (List Pt)) (ps : List Poly)
    (hland : ∃ p ∈ ps, ¬ IsSpill p ∧ ¬ IsBounds p ∧ 2 < p.pts.length)
    (hline : ∀ p ∈ ps, ¬ IsSpill p → ¬ IsBounds p → 2 < p.pts.length → p.kind = .polygon)
    (hpts : ∀ p ∈ ps, p.pts ≠ []) (hsp : ∀ s ∈ spill, s ≠ []) :
    ∃ m, fromBNA given spill ps = some m ∧ Expected given spill ps m := by
  have hl : ps.filter (fun p => ¬ IsSpill p ∧ ¬ IsBounds p ∧ 2 < p.pts.length) =
      ps.filter (fun p => ¬ IsSpill p ∧ ¬ IsBounds p ∧ p.kind = .polygon ∧ 2 < p.pts.length) := by
    apply List.filter_congr
    intro p hp
    have := hline p hp
    simp only [decide_eq_decide]
    constructor
    · rintro ⟨h1, h2, h3⟩; exact ⟨h1, h2, this h1 h2 h3, h3⟩
    · rintro ⟨h1, h2, _, h3⟩; exact ⟨h1, h2, h3⟩
  set land := ps.filter (fun p => ¬ IsSpill p ∧ ¬ IsBounds p ∧ 2 < p.pts.length) with hlanddef
  have hne : land.flatMap Poly.pts ≠ [] := by
    obtain ⟨p, hp, h⟩ := hland
    have hm : p ∈ land := by rw [hlanddef, List.mem_filter]; exact ⟨hp, by simpa using h⟩
    intro he
    rw [List.flatMap_eq_nil_iff] at he
    have := he p hm
    exact hpts p hp this
  obtain ⟨bb, hbb, hbox⟩ := boxOf_box _ hne
  set sp := (if spill = [] then (ps.filter fun p => IsSpill p).map Poly.pts else spill) with hspdef
  have hspne : ∀ s ∈ sp, s ≠ [] := by
    intro s hs
    rw [hspdef] at hs
    split at hs
    · obtain ⟨p, hp, rfl⟩ := List.mem_map.mp hs
      exact hpts p (List.mem_filter.mp hp).1
    · exact hsp s hs
  unfold fromBNA
  rw [classify_eq]
  simp only [List.nil_append]
  rw [← hlanddef, hbb]
  simp only [Option.bind_eq_bind, Option.bind_some]
  rw [← hspdef]
  cases given with
  | some b =>
    refine ⟨⟨b, sp, land⟩, by simp, hl, rfl, ?_, ?_, ?_⟩
    · intro b' hb'; simpa using hb'
    · simp
    · simp
  | none =>
    cases hb : (ps.filter fun p => IsBounds p) with
    | cons q qs =>
      refine ⟨⟨q.pts, sp, land⟩, by simp, hl, rfl, ?_, ?_, ?_⟩
      · simp
      · intro _ p hp; rw [hb] at hp; simp only [List.head?_cons, Option.some.injEq] at hp; rw [hp]
      · intro _ he; rw [hb] at he; simp at he
    | nil =>
      by_cases hs : sp = []
      · refine ⟨⟨asPoly bb, sp, land⟩, by simp [hs], hl, rfl, ?_, ?_, ?_⟩
        · simp
        · intro _ p hp; rw [hb] at hp; simp at hp
        · intro _ _; exact ⟨bb, rfl, by simpa [hs] using hbox⟩
      · have hfl : sp.flatten ≠ [] := by
          cases hc : sp with
          | nil => exact absurd hc hs
          | cons s ss =>
            intro he
            rw [List.flatten_cons, List.append_eq_nil_iff] at he
            exact hspne s (by rw [hc]; exact List.mem_cons_self) he.1
        obtain ⟨sb, hsb, hsbox⟩ := boxOf_box _ hfl
        refine ⟨⟨asPoly (merge sb bb), sp, land⟩, by simp [hs, hsb], hl, rfl, ?_, ?_, ?_⟩
        · simp
        · intro _ p hp; rw [hb] at hp; simp at hp
        · intro _ _; exact ⟨merge sb bb, rfl, isBox_merge _ _ _ _ hsbox hbox⟩

example : fromBNA none [] [⟨[(0, 0), (1, 0), (1, 1)], .polygon, "island".toList, ['1']⟩,
    ⟨[(0, 0), (9, 0), (9, 7)], .polygon, "Spillable Area".toList, ['1']⟩] =
    some ⟨[(0, 0), (0, 7), (9, 7), (9, 0)], [[(0, 0), (9, 0), (9, 7)]],
      [⟨[(0, 0), (1, 0), (1, 1)], .polygon, "island".toList, ['1']⟩]⟩ := by decide +kernel

/-! ## C191: the map as GeoJSON -/

/-- Every land polygon is a closed ring of the first feature, every lake one of the second. -/
def Exported (land : List Poly) (fs : List Feature) : Prop :=
  ∀ p ∈ land, ∀ a ps, p.pts = a :: ps →
    (p.sname = ['1'] → ∃ f ∈ fs, f.id = 1 ∧ a :: ps ++ [a] ∈ f.rings) ∧
    (p.sname = ['2'] → ∃ f ∈ fs, f.id = 2 ∧ a :: ps ++ [a] ∈ f.rings)

/-- **C191**, as one would expect. -/
def C191_claim : Prop := ∀ land : List Poly, Exported land (toGeojson land)

/-- Lakes without any land are left out. -/
theorem C191_counterexample : ¬ C191_claim := by
  intro h
  have := (h [⟨[(0, 0), (1, 0), (1, 1)], .polygon, [], ['2']⟩] _ List.mem_cons_self _ _ rfl).2 rfl
  have he : toGeojson [⟨[(0, 0), (1, 0), (1, 1)], .polygon, [], ['2']⟩] = [] := by decide +kernel
  rw [he] at this
  simp at this

/-- **C191** if there is land; each ring that is written is a closed polygon of the map, and the numbers agree. -/
theorem C191_partial (land : List Poly) (h : ∃ p ∈ land, p.sname = ['1']) :
    Exported land (toGeojson land) ∧
    (toGeojson land).map (fun f => (f.id, f.rings.length)) =
      [(1, land.countP (·.sname = ['1'])), (2, land.countP (·.sname = ['2']))] ∧
    ∀ f ∈ toGeojson land, ∀ r ∈ f.rings, ∃ p ∈ land, r = p.pts ++ p.pts.head?.toList := by
  obtain ⟨p, hp, hs⟩ := h
  have hne : (land.filter (·.sname = ['1'])).map (fun p => close p.pts) ≠ [] := by
    intro he
    rw [List.map_eq_nil_iff] at he
    have : p ∈ land.filter (·.sname = ['1']) := List.mem_filter.mpr ⟨hp, by simpa using hs⟩
    rw [he] at this; simp at this
  have hg : toGeojson land = [⟨1, (land.filter (·.sname = ['1'])).map fun p => close p.pts⟩,
      ⟨2, (land.filter (·.sname = ['2'])).map fun p => close p.pts⟩] := by
    unfold toGeojson
    rw [if_neg hne]
  rw [hg]
  refine ⟨?_, ?_, ?_⟩
  · intro q hq a ps hqp
    have hc : close q.pts = a :: ps ++ [a] := by unfold close; rw [hqp]; rfl
    constructor
    · intro h1
      refine ⟨_, List.mem_cons_self, rfl, ?_⟩
      exact List.mem_map.mpr ⟨q, List.mem_filter.mpr ⟨hq, by simpa using h1⟩, hc⟩
    · intro h1
      refine ⟨_, List.mem_cons_of_mem _ List.mem_cons_self, rfl, ?_⟩
      exact List.mem_map.mpr ⟨q, List.mem_filter.mpr ⟨hq, by simpa using h1⟩, hc⟩
  · simp [List.countP_eq_length_filter]
  · intro f hf r hr
    simp only [List.mem_cons, List.not_mem_nil, or_false] at hf
    rcases hf with rfl | rfl
    · obtain ⟨q, hq, rfl⟩ := List.mem_map.mp hr
      exact ⟨q, (List.mem_filter.mp hq).1, rfl⟩
    · obtain ⟨q, hq, rfl⟩ := List.mem_map.mp hr
      exact ⟨q, (List.mem_filter.mp hq).1, rfl⟩

example : toGeojson [⟨[(0, 0), (1, 0), (1, 1)], .polygon, [], ['1']⟩] =
    [⟨1, [[(0, 0), (1, 0), (1, 1), (0, 0)]]⟩, ⟨2, []⟩] := by decide +kernel

end Verif.Bna
