import Verif.RectGrid.NcModel
import Verif.RectGrid.Props
/-!
# C298: land maps from the mask of a netCDF grid
-/
namespace Verif.RectGrid.Nc

/-- the longitudes and latitudes of a regular grid and its mask -/
structure Grid where
  lon : List ℚ
  lat : List ℚ
  mask : Nat → Nat → ℚ

/-- the file of a grid; `mask j i` is at latitude `j` and longitude `i` -/
def Grid.file (g : Grid) : File where
  lon := g.lat.map fun _ => g.lon
  lat := g.lat.map fun y => g.lon.map fun _ => y
  mask := (List.range g.lat.length).map fun j => (List.range g.lon.length).map fun i => g.mask j i

/-- where the cell after a point ends: at the next point, the last one is as wide as the one before -/
def edge (l : List ℚ) (i : Nat) : ℚ := if i < l.length then l.getD i 0 else 2 * l.getD (l.length - 1) 0 - l.getD (l.length - 2) 0

theorem getLastD_getD (l : List ℚ) : l.getLastD 0 = l.getD (l.length - 1) 0 := by
  rw [List.getLastD_eq_getLast?, List.getLast?_eq_getElem?, List.getD_eq_getElem?_getD]

theorem extend_ok {l : List ℚ} (h : Axis l) : ∃ e, extend l = some e ∧ Axis e ∧ e.length = l.length + 1 ∧ ∀ i (hi : i < e.length), e[i] = edge l i := by
  refine ⟨l ++ [2 * l.getLastD 0 - l.getD (l.length - 2) 0], ?_, ?_, by simp, ?_⟩
  · unfold extend
    rw [if_neg (by have := h.two; omega)]
  · refine ⟨?_, by have := h.two; simp; omega⟩
    rw [List.pairwise_append]
    refine ⟨h.inc, by simp, ?_⟩
    intro a ha b hb
    rw [List.mem_singleton] at hb
    subst hb
    have h2 := h.two
    obtain ⟨k, hk, rfl⟩ := List.getElem_of_mem ha
    have e1 : l.getLastD 0 = l[l.length - 1] := by
      rw [getLastD_getD, List.getD_eq_getElem?_getD, List.getElem?_eq_getElem (by omega)]; rfl
    have e2 : l.getD (l.length - 2) 0 = l[l.length - 2] := by
      rw [List.getD_eq_getElem?_getD, List.getElem?_eq_getElem (by omega)]; rfl
    have hlt : l[l.length - 2] < l[l.length - 1] := List.pairwise_iff_getElem.1 h.inc _ _ (by omega) (by omega) (by omega)
    have hle : l[k] ≤ l[l.length - 1] := by
      rcases Nat.lt_or_ge k (l.length - 1) with hc | hc
      · exact (List.pairwise_iff_getElem.1 h.inc _ _ (by omega) (by omega) hc).le
      · have : k = l.length - 1 := by omega
        subst this; exact le_refl _
    rw [e1, e2]
    linarith
  · intro i hi
    unfold edge
    by_cases hc : i < l.length
    · rw [if_pos hc, List.getElem_append_left hc, List.getD_eq_getElem?_getD, List.getElem?_eq_getElem hc]; rfl
    · rw [if_neg hc, List.getElem_append_right (by omega), List.getElem_singleton, getLastD_getD]

theorem regular_file (g : Grid) : regular g.file = true := by
  unfold regular Grid.file
  simp only [Bool.and_eq_true, List.all_eq_true, List.mem_map, decide_eq_true_eq]
  constructor
  · rintro r ⟨y, hy, rfl⟩
    cases hl : g.lat with
    | nil => rw [hl] at hy; simp at hy
    | cons a t => rfl
  · rintro r ⟨y, hy, rfl⟩ x hx
    obtain ⟨z, hz, rfl⟩ := List.mem_map.1 hx
    cases hl : g.lon with
    | nil => rw [hl] at hz; simp at hz
    | cons a t => rfl

theorem grid_file (g : Grid) (h1 : Axis g.lon) (h2 : Axis g.lat) :
    ∃ a b, grid g.file = some (raster g.file, a, b) ∧ extend g.lon = some a ∧ extend g.lat = some b := by
  obtain ⟨a, ha, _⟩ := extend_ok h1
  obtain ⟨b, hb, _⟩ := extend_ok h2
  refine ⟨a, b, ?_, ha, hb⟩
  have e1 : g.file.lon.headD [] = g.lon := by
    unfold Grid.file
    have := h2.two
    cases hl : g.lat with
    | nil => rw [hl] at this; simp at this
    | cons x t => rfl
  have e2 : (g.file.lat.map fun row => row.headD 0) = g.lat := by
    unfold Grid.file
    simp only [List.map_map]
    have := h1.two
    cases hl : g.lon with
    | nil => rw [hl] at this; simp at this
    | cons x t =>
      have : ((fun row : List ℚ => row.headD 0) ∘ fun y : ℚ => List.map (fun _ => y) (x :: t)) = id := by
        funext y; rfl
      rw [this, List.map_id]
  unfold grid
  rw [regular_file, if_pos rfl, e1, e2, ha, hb]

/-- C298. On the map of a regular grid a place in the cell of a point of the grid is land exactly when the mask of the point is 0, whatever the refinement. -/
theorem C298_land (g : Grid) (h1 : Axis g.lon) (h2 : Axis g.lat) (refine : Nat) (hr : 1 ≤ refine) (i j : Nat) (hi : i < g.lon.length) (hj : j < g.lat.length) (x y : ℚ)
    (a : edge g.lon i ≤ x) (b : x < edge g.lon (i + 1)) (c : edge g.lat j < y) (d : y ≤ edge g.lat (j + 1)) :
    ∃ w, land refine g.file (x, y) = some w ∧ (w = true ↔ g.mask j i = 0) := by
  obtain ⟨la, lb, hg, ha, hb⟩ := grid_file g h1 h2
  obtain ⟨la', ha', aa, al, ae⟩ := extend_ok h1
  obtain ⟨lb', hb', ba, bl, be⟩ := extend_ok h2
  rw [ha] at ha'
  rw [hb] at hb'
  injection ha' with ha'
  injection hb' with hb'
  subst ha' hb'
  refine ⟨_, by unfold land; rw [hg]; rfl, ?_⟩
  have hcell := C69_cell_partial refine hr (raster g.file) la lb aa ba i j (by omega) (by omega) x y (by rw [ae]; exact a) (by rw [ae]; exact b) (by rw [be]; exact c)
    (by rw [be]; exact d)
  refine hcell.trans ?_
  have hlen : (g.file.lat.headD []).length = g.lon.length := by
    unfold Grid.file
    cases hl : g.lat with
    | nil => rw [hl] at hj; simp at hj
    | cons x t => simp
  have hrow : (raster g.file)[i]? = some ((g.file.mask.map fun row => if row.getD i 0 = 0 then 1 else 0).reverse) := by
    unfold raster
    rw [List.getElem?_map, List.getElem?_range (by rw [hlen]; exact hi)]
    rfl
  have hm : g.file.mask.length = g.lat.length := by simp [Grid.file]
  rw [hrow, Option.bind_some, bl, List.getElem?_reverse (by rw [List.length_map, hm]; omega), List.length_map, hm]
  have hidx : g.lat.length - 1 - (g.lat.length + 1 - 2 - j) = j := by omega
  rw [hidx, List.getElem?_map]
  have hmask : g.file.mask[j]? = some ((List.range g.lon.length).map fun i => g.mask j i) := by
    unfold Grid.file
    rw [List.getElem?_map, List.getElem?_range hj]
    rfl
  rw [hmask]
  have hv : ((List.range g.lon.length).map fun i => g.mask j i).getD i 0 = g.mask j i := by
    rw [List.getD_eq_getElem?_getD, List.getElem?_map, List.getElem?_range hi]
    rfl
  simp only [Option.map_some, hv, Option.some.injEq]
  by_cases hz : g.mask j i = 0
  · simp [hz]
  · simp [hz]

/-- C298. A grid whose rows of longitudes or columns of latitudes differ is refused. -/
theorem C298_refused (f : File) (h : (∃ r ∈ f.lon, ∃ s ∈ f.lon, r ≠ s) ∨ (∃ r ∈ f.lat, ∃ x ∈ r, ∃ y ∈ r, x ≠ y)) : grid f = none := by
  unfold grid
  refine if_neg fun hc => ?_
  unfold regular at hc
  simp only [Bool.and_eq_true, List.all_eq_true, decide_eq_true_eq] at hc
  rcases h with ⟨r, hr, s, hs, hne⟩ | ⟨r, hr, x, hx, y, hy, hne⟩
  · exact hne ((hc.1 r hr).trans (hc.1 s hs).symm)
  · exact hne ((hc.2 r hr x hx).trans (hc.2 r hr y hy).symm)

/-- three by two cells, land in the south-west and the north-east -/
example : land 2 (Grid.file ⟨[10, 11, 13], [40, 41], fun j i => if (j, i) = (0, 0) ∨ (j, i) = (1, 2) then 0 else 1⟩) (10 + 1 / 2, 40 + 1 / 2) = some true ∧
    land 2 (Grid.file ⟨[10, 11, 13], [40, 41], fun j i => if (j, i) = (0, 0) ∨ (j, i) = (1, 2) then 0 else 1⟩) (14, 42) = some true ∧
    land 2 (Grid.file ⟨[10, 11, 13], [40, 41], fun j i => if (j, i) = (0, 0) ∨ (j, i) = (1, 2) then 0 else 1⟩) (12, 42) = some false := by
  decide +kernel

end Verif.RectGrid.Nc
