import Verif.OutFiles.IceJsonModel
import Mathlib.Tactic.Linarith
import Mathlib.Tactic.FieldSimp
import Mathlib.Tactic.Positivity
import Mathlib.Data.List.Nodup
import Mathlib.Data.List.Perm.Basic
/-!
# C301, C302: ice in GeoJSON output
-/
namespace Verif.OutFiles.IceJson

theorem pyRound_near (x : ℚ) : |(Verif.Canvas.pyRound x : ℚ) - x| ≤ 1 / 2 := by
  have h1 := Int.floor_le x
  have h2 := Int.lt_floor_add_one x
  unfold Verif.Canvas.pyRound
  simp only
  rw [abs_le]
  split
  · constructor <;> linarith
  · split
    · push_cast; constructor <;> linarith
    · split
      · constructor <;> linarith
      · push_cast; constructor <;> linarith

/-- C301. The value of a feature is the value of the ice to half of the last digit. -/
theorem C301_round (dec : Nat) (v : ℚ) : |round dec v - v| ≤ 1 / 2 / 10 ^ dec := by
  have h := pyRound_near (v * 10 ^ dec)
  have hp : (0 : ℚ) < 10 ^ dec := by positivity
  have : round dec v - v = ((Verif.Canvas.pyRound (v * 10 ^ dec) : ℚ) - v * 10 ^ dec) / 10 ^ dec := by
    unfold round; field_simp
  rw [this, abs_div, abs_of_pos hp]
  exact div_le_div_of_nonneg_right h hp.le

theorem mem_unique (l : List ℚ) (x : ℚ) : x ∈ unique l ↔ x ∈ l := by
  unfold unique
  rw [List.mem_insertionSort, List.mem_dedup]

theorem unique_nodup (l : List ℚ) : (unique l).Nodup := by
  unfold unique
  exact (List.perm_insertionSort (· ≤ ·) l.dedup).nodup_iff.2 (List.nodup_dedup l)

theorem unique_sorted (l : List ℚ) : (unique l).Pairwise (· < ·) := by
  have h1 : (unique l).Pairwise (· ≤ ·) := List.pairwise_insertionSort (· ≤ ·) l.dedup
  have h2 := unique_nodup l
  exact (h1.and h2).imp fun h => lt_of_le_of_ne h.1 h.2

/-- the cells that have a value -/
def sel (u : ℚ) (z : List (ℚ × List Pt)) : List (List Pt) := (z.filter fun p => p.1 = u).map Prod.snd

theorem matching_eq (u : ℚ) (cells : List (List Pt)) : ∀ (vs : List ℚ) (k : Nat), k + vs.length ≤ cells.length →
    matching u cells k vs = some (sel u (vs.zip (cells.drop k)))
  | [], _, _ => rfl
  | v :: t, k, h => by
    rw [List.length_cons] at h
    have hk : k < cells.length := by omega
    have ih := matching_eq u cells t (k + 1) (by omega)
    rw [List.drop_eq_getElem_cons hk, List.zip_cons_cons]
    unfold matching
    by_cases hv : v = u
    · rw [if_pos hv, List.getElem?_eq_getElem hk, ih]
      simp [sel, hv]
    · rw [if_neg hv, ih]
      simp [sel, hv]

theorem mapM_some {α β : Type} (f : α → Option β) (g : α → β) : ∀ l : List α, (∀ x ∈ l, f x = some (g x)) → l.mapM f = some (l.map g)
  | [], _ => rfl
  | x :: t, h => by
    rw [List.mapM_cons, h x (by simp), mapM_some f g t fun y hy => h y (List.mem_cons_of_mem _ hy)]
    rfl

theorem features_eq (dec : Nat) (values : List ℚ) (cells : List (List Pt)) (h : values.length ≤ cells.length) :
    features dec values cells = some ((unique (values.map (round dec))).map fun u => ⟨u, sel u ((values.map (round dec)).zip cells)⟩) := by
  unfold features
  refine mapM_some _ _ _ fun u _ => ?_
  rw [matching_eq u cells _ 0 (by simpa using h), List.drop_zero]
  rfl

/-- sorting pairs into groups by their first entry keeps each pair once -/
theorem groups_perm : ∀ (us : List ℚ), us.Nodup → ∀ z : List (ℚ × List Pt), (∀ p ∈ z, p.1 ∈ us) →
    (us.flatMap fun u => (sel u z).map fun c => (u, c)).Perm z
  | [], _, z, h => by
    cases z with
    | nil => exact List.Perm.nil
    | cons p t => exact absurd (h p (by simp)) (by simp)
  | u :: us, hn, z, h => by
    rw [List.flatMap_cons]
    have h1 : (sel u z).map (fun c => (u, c)) = z.filter fun p => p.1 = u := by
      unfold sel
      rw [List.map_map]
      conv_rhs => rw [← List.map_id (z.filter fun p => p.1 = u)]
      refine List.map_congr_left fun p hp => ?_
      have : p.1 = u := by simpa using (List.mem_filter.1 hp).2
      subst this; rfl
    have hnot : u ∉ us := (List.nodup_cons.1 hn).1
    have h2 : (us.flatMap fun w => (sel w z).map fun c => (w, c)) = us.flatMap fun w => (sel w (z.filter fun p => ¬ p.1 = u)).map fun c => (w, c) := by
      refine List.flatMap_congr fun w hw => ?_
      have hne : w ≠ u := fun e => hnot (e ▸ hw)
      congr 1
      unfold sel
      rw [List.filter_filter]
      congr 1
      refine List.filter_congr fun p _ => ?_
      by_cases hp : p.1 = w
      · have : p.1 ≠ u := hp ▸ hne
        simp [hp, hne]
      · simp [hp]
    rw [h1, h2]
    refine List.Perm.trans (List.Perm.append_left _ (groups_perm us (List.nodup_cons.1 hn).2 _ ?_)) ?_
    · intro p hp
      have hm := List.mem_filter.1 hp
      rcases List.mem_cons.1 (h p hm.1) with e | e
      · exact absurd e (by simpa using hm.2)
      · exact e
    · have := List.filter_append_perm (fun p : ℚ × List Pt => decide (p.1 = u)) z
      refine List.Perm.trans ?_ this
      refine List.Perm.append_left _ (List.Perm.of_eq (List.filter_congr fun p _ => ?_))
      simp

/-- C301. With a value for each cell there is one feature for each rounded value that occurs, in ascending order; taken together the features have every cell exactly once, in the feature of
its value. -/
theorem C301_partition (dec : Nat) (values : List ℚ) (cells : List (List Pt)) (h : values.length = cells.length) :
    ∃ fs, features dec values cells = some fs ∧ (fs.map Feature.value).Pairwise (· < ·) ∧ (∀ x, x ∈ fs.map Feature.value ↔ ∃ v ∈ values, round dec v = x) ∧
      (fs.flatMap fun f => f.cells.map fun c => (f.value, c)).Perm ((values.map (round dec)).zip cells) := by
  refine ⟨_, features_eq dec values cells h.le, ?_, ?_, ?_⟩
  · rw [List.map_map]
    have : (Feature.value ∘ fun u : ℚ => (⟨u, sel u ((values.map (round dec)).zip cells)⟩ : Feature)) = id := rfl
    rw [this, List.map_id]
    exact unique_sorted _
  · intro x
    rw [List.map_map]
    have : (Feature.value ∘ fun u : ℚ => (⟨u, sel u ((values.map (round dec)).zip cells)⟩ : Feature)) = id := rfl
    rw [this, List.map_id, mem_unique, List.mem_map]
  · rw [List.flatMap_map]
    refine groups_perm _ (unique_nodup _) _ fun p hp => ?_
    rw [mem_unique]
    exact (List.of_mem_zip hp).1

/-- C301. More values than cells are refused if a value is asked for that has no cell. -/
theorem C301_short (u : ℚ) (cells : List (List Pt)) : ∀ (vs : List ℚ) (k i : Nat), vs[i]? = some u → cells.length ≤ k + i → matching u cells k vs = none
  | [], _, i, h, _ => by simp at h
  | v :: t, k, i, h, hc => by
    unfold matching
    cases i with
    | zero =>
      have : v = u := by simpa using h
      rw [if_pos this, List.getElem?_eq_none (by omega)]
    | succ i =>
      rw [C301_short u cells t (k + 1) i (by simpa using h) (by omega)]
      split
      · split
        · next h2 => exact absurd h2 nofun
        · rfl
      · rfl

/-- three cells in two features -/
example : features 2 [1 / 2, 1 / 4, 501 / 1000] [[(0, 0), (1, 0), (1, 1), (0, 1)], [(1, 0), (2, 0), (2, 1), (1, 1)], [(2, 0), (3, 0), (3, 1), (2, 1)]] =
    some [⟨1 / 4, [[(1, 0), (2, 0), (2, 1), (1, 1)]]⟩, ⟨1 / 2, [[(0, 0), (1, 0), (1, 1), (0, 1)], [(2, 0), (3, 0), (3, 1), (2, 1)]]⟩] := by
  decide +kernel

/-! ## the form of GeoJSON (RFC 7946, 3.1.1, 3.1.6, 3.1.7) -/

/-- a position: two or more numbers -/
def Position (j : Json) : Prop := ∃ l : List ℚ, 2 ≤ l.length ∧ j = .arr (l.map .num)

/-- a linear ring: four or more positions, the first and the last are the same -/
def Ring (j : Json) : Prop := ∃ l : List Json, j = .arr l ∧ 4 ≤ l.length ∧ (∀ p ∈ l, Position p) ∧ l.head? = l.getLast?

/-- coordinates of a polygon: rings -/
def PolygonCoords (j : Json) : Prop := ∃ l : List Json, j = .arr l ∧ ∀ r ∈ l, Ring r

/-- coordinates of a multipolygon: polygons -/
def MultiPolygonCoords (j : Json) : Prop := ∃ l : List Json, j = .arr l ∧ ∀ p ∈ l, PolygonCoords p

/-- C302 in full: the geometries of the features are multipolygons of GeoJSON. -/
def C302_claim : Prop := ∀ dec values cells fs, values.length = cells.length → (∀ c ∈ cells, c.length = 3 ∨ c.length = 4) → features dec values cells = some fs →
  ∀ f ∈ fs, MultiPolygonCoords f.coordinates

/-- C302. A geometry with a cell that has a corner is never a multipolygon of GeoJSON: corners are where rings should be. -/
theorem C302_never (f : Feature) (c : List Pt) (hc : c ∈ f.cells) (p : Pt) (hp : p ∈ c) : ¬ MultiPolygonCoords f.coordinates := by
  rintro ⟨l, e, h⟩
  unfold Feature.coordinates at e
  injection e with e
  subst e
  obtain ⟨l2, e2, h2⟩ := h _ (List.mem_map.2 ⟨c, hc, rfl⟩)
  injection e2 with e2
  subst e2
  obtain ⟨l3, e3, h3, -⟩ := h2 _ (List.mem_map.2 ⟨p, hp, rfl⟩)
  injection e3 with e3
  subst e3
  simp at h3

/-- C302 fails for a single cell. -/
theorem C302_counterexample : ¬ C302_claim := by
  intro h
  have := h 2 [1 / 2] [[(0, 0), (1, 0), (1, 1), (0, 1)]] [⟨1 / 2, [[(0, 0), (1, 0), (1, 1), (0, 1)]]⟩] rfl (by simp) (by decide +kernel) _ (List.mem_singleton_self _)
  exact C302_never _ [(0, 0), (1, 0), (1, 1), (0, 1)] (by simp) (0, 0) (by simp) this

/-- the coordinates with one more level and closed rings -/
def wrapped (f : Feature) : Json := .arr (f.cells.map fun c => .arr [.arr ((c ++ c.head?.toList).map fun p => .arr [.num p.1, .num p.2])])

/-- C302. What is missing is the level of rings and the repetition of the first corner: with these the geometry is a multipolygon. -/
theorem C302_partial (f : Feature) (hc : ∀ c ∈ f.cells, 3 ≤ c.length) : MultiPolygonCoords (wrapped f) := by
  refine ⟨_, rfl, fun p hp => ?_⟩
  obtain ⟨c, hm, rfl⟩ := List.mem_map.1 hp
  refine ⟨_, rfl, fun r hr => ?_⟩
  rw [List.mem_singleton] at hr
  subst hr
  have h3 := hc c hm
  cases c with
  | nil => simp at h3
  | cons a t =>
    refine ⟨_, rfl, ?_, ?_, ?_⟩
    · simp at h3 ⊢; omega
    · intro q hq
      obtain ⟨x, -, rfl⟩ := List.mem_map.1 hq
      exact ⟨[x.1, x.2], by simp, rfl⟩
    · simp only [List.head?_cons, Option.toList_some, List.map_append, List.map_cons, List.map_nil, List.cons_append]
      rw [← List.cons_append, List.getLast?_concat]

/-- C302. The positions that are written are those of the corners of the cells, in their order and with the longitude first. -/
theorem C302_order (f : Feature) : ∃ cs : List Json, f.coordinates = .arr cs ∧ cs.length = f.cells.length ∧
    ∀ (i : Nat) (c : List Pt), f.cells[i]? = some c → ∃ ps : List Json, cs[i]? = some (.arr ps) ∧ ps.length = c.length ∧
      ∀ (k : Nat) (lon lat : ℚ), c[k]? = some (lon, lat) → ps[k]? = some (.arr [.num lon, .num lat]) := by
  refine ⟨_, rfl, by simp, fun i c hc => ⟨c.map fun p => .arr [.num p.1, .num p.2], by simp [hc], by simp, fun k lon lat hk => by simp [hk]⟩⟩

/-- two cells of three corners with a value in common -/
example : ∃ cs : List Json, (⟨1 / 2, [[(0, 5), (1, 5), (1, 6)], [(2, 5), (3, 5), (3, 6)]]⟩ : Feature).coordinates = .arr cs ∧ cs.length = 2 := by
  obtain ⟨cs, h, hl, -⟩ := C302_order ⟨1 / 2, [[(0, 5), (1, 5), (1, 6)], [(2, 5), (3, 5), (3, 6)]]⟩
  exact ⟨cs, h, hl⟩

end Verif.OutFiles.IceJson
