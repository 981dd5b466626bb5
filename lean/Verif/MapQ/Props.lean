import Verif.MapQ.Model
import Verif.MapStep.Props
/-
C66 (the questions agree), C67 (longitudes are brought to the convention asked
for).
-/
namespace Verif.MapQ
open Verif.Land (Grid land inside)
open Verif.Geom (Pt Proj inPoly)
open Verif.MapStep (RMap P3 onMap landPoint_iff)

/-! ### C66 -/

theorem npIdx_in (n : Nat) (i : Int) (h0 : 0 ≤ i) (h1 : i < n) : npIdx n i = some i.toNat := by
  unfold npIdx; rw [if_pos ⟨h0, h1⟩]

theorem offRaster_iff (g : Grid) (c : Int × Int) :
    offRaster g c = false ↔ (0 ≤ c.1 ∧ c.1 < g.m ∧ 0 ≤ c.2 ∧ c.2 < g.n) := by
  unfold offRaster
  simp only [Bool.or_eq_false_iff, decide_eq_false_iff_not]
  omega

theorem npGet_in (g : Grid) (c : Int × Int) (h : offRaster g c = false) :
    npGet g c = some (g.data.getD (c.1.toNat * g.n + c.2.toNat) 0) := by
  obtain ⟨a, b, c', d⟩ := (offRaster_iff g c).1 h
  unfold npGet
  rw [npIdx_in _ _ a b, npIdx_in _ _ c' d]

theorem value_le (g : Grid) (hg : ∀ v ∈ g.data, v ≤ 1) (i : Nat) : g.data.getD i 0 ≤ 1 := by
  rw [List.getD_eq_getElem?_getD]
  cases h : g.data[i]? with
  | none => simp
  | some v => exact hg v (List.mem_of_getElem? h)

theorem and_one (v : Nat) (h : v ≤ 1) : v &&& 1 ≠ 0 ↔ v = 1 := by
  have : v = 0 ∨ v = 1 := by omega
  rcases this with h | h <;> subst h <;> decide

/-- On a raster of zeros and ones `on_land` never fails and says whether the
pixel of the point is on the raster and land, and `on_land_points` says the
same. -/
theorem C66_on_land_partial (M : RMap) (hg : ∀ v ∈ M.grid.data, v ≤ 1) (p : P3) :
    (onLand M p = some true ↔ land M.grid (M.proj.toPixelInt ⟨p.x, p.y⟩)) ∧
    (onLand M p = some false ↔ ¬ land M.grid (M.proj.toPixelInt ⟨p.x, p.y⟩)) ∧
    onLand M p = some (onLandPoint M p) := by
  have hl := landPoint_iff M.grid hg (M.pixel p)
  have key : onLand M p = some (onLandPoint M p) := by
    unfold onLand onLandPixel onLandPoint
    cases ho : offRaster M.grid (M.pixel p) with
    | true =>
      simp only [if_true]
      have hn : ¬ (0 ≤ (M.pixel p).1 ∧ (M.pixel p).1 < M.grid.m ∧ 0 ≤ (M.pixel p).2 ∧ (M.pixel p).2 < M.grid.n) := by
        intro h
        have := (offRaster_iff M.grid (M.pixel p)).2 h
        rw [ho] at this; simp at this
      unfold MapStep.landPoint
      unfold offRaster at ho
      rw [ho]; rfl
    | false =>
      simp only [Bool.false_eq_true, if_false]
      rw [npGet_in _ _ ho]
      simp only [Option.map_some, Option.some.injEq]
      unfold MapStep.landPoint
      unfold offRaster at ho
      rw [ho]
      simp only [Bool.not_false, Bool.true_and]
      have := and_one _ (value_le M.grid hg ((M.pixel p).1.toNat * M.grid.n + (M.pixel p).2.toNat))
      exact decide_eq_decide.2 this
  rw [key]
  have hl' : onLandPoint M p = true ↔ land M.grid (M.proj.toPixelInt ⟨p.x, p.y⟩) := hl
  refine ⟨by rw [Option.some.injEq]; exact hl', ?_, rfl⟩
  rw [Option.some.injEq, ← hl']
  cases onLandPoint M p <;> simp

/-- On the map and on the raster, `in_water` is the opposite of `on_land`; off
the map it is false. -/
theorem C66_in_water_partial (M : RMap) (p : P3) :
    (inPoly M.bounds ⟨p.x, p.y⟩ = false → inWater M p = some false) ∧
    (inPoly M.bounds ⟨p.x, p.y⟩ = true → inside M.grid (M.proj.toPixelInt ⟨p.x, p.y⟩) →
      inWater M p = (onLand M p).map (!·) ∧ (onLand M p).isSome = true) := by
  refine ⟨fun h => ?_, fun h hi => ?_⟩
  · unfold inWater onMap; rw [show inPoly M.bounds p.xy = false from h]; rfl
  · have ho : offRaster M.grid (M.pixel p) = false := by
      rw [offRaster_iff]
      unfold inside at hi
      exact hi
    unfold inWater onMap onLand onLandPixel inWaterPixel
    rw [show inPoly M.bounds p.xy = true from h, if_pos rfl, ho, npGet_in _ _ ho]
    simp

/-- A map whose bounds are larger than its raster: east of the raster
`in_water` raises, west of it it answers for the other side. -/
theorem C66_counterexample : ∃ (M : RMap) (p q : P3), M.proj.Ok ∧ (∀ v ∈ M.grid.data, v ≤ 1) ∧
    inPoly M.bounds ⟨p.x, p.y⟩ = true ∧ onLand M p = some false ∧ inWater M p = none ∧
    inPoly M.bounds ⟨q.x, q.y⟩ = true ∧ onLand M q = some false ∧ inWater M q = some false := by
  refine ⟨MapStep.demoMap 1, ⟨7/2, 1/2, 0⟩, ⟨-1/2, 1/2, 0⟩, ⟨by simp [MapStep.demoMap], by simp [MapStep.demoMap]⟩, by decide,
    by decide +kernel, by decide +kernel, by decide +kernel, by decide +kernel, by decide +kernel, by decide +kernel⟩

/-- A raster value with other bits set: land for the one, not for the other. -/
theorem C66_counterexample_flags : ∃ (M : RMap) (p q : P3), M.proj.Ok ∧
    onLand M p = some true ∧ onLandPoint M p = false ∧
    onLand M q = some false ∧ land M.grid (M.proj.toPixelInt ⟨q.x, q.y⟩) := by
  refine ⟨{ MapStep.demoMap 1 with grid := ⟨3, 2, [3, 2, 0, 0, 1, 0], rfl⟩ }, ⟨1/2, 1/2, 0⟩, ⟨1/2, -1/2, 0⟩,
    ⟨by simp [MapStep.demoMap], by simp [MapStep.demoMap]⟩, by decide +kernel, by decide +kernel, by decide +kernel,
    by decide +kernel⟩

/-- Spills are allowed exactly on the map, off the land, and within one of the
polygons of the spillable area if there is such an area. -/
theorem C66_allowable (M : RMap) (hg : ∀ v ∈ M.grid.data, v ≤ 1) (sa : Option (List (List Pt))) (p : P3) :
    ∃ b, allowable M sa p = some b ∧
      (b = true ↔ inPoly M.bounds ⟨p.x, p.y⟩ = true ∧ ¬ land M.grid (M.proj.toPixelInt ⟨p.x, p.y⟩) ∧
        ∀ polys, sa = some polys → ∃ q ∈ polys, inPoly q ⟨p.x, p.y⟩ = true) := by
  obtain ⟨h1, h2, h3⟩ := C66_on_land_partial M hg p
  have hx : p.xy = ⟨p.x, p.y⟩ := rfl
  unfold allowable onMap
  cases hb : inPoly M.bounds p.xy with
  | false => exact ⟨false, by simp, by rw [← hx, hb]; simp⟩
  | true =>
    rw [if_pos rfl, h3]
    refine ⟨_, rfl, ?_⟩
    cases hl : onLandPoint M p with
    | true =>
      rw [hl] at h3
      simp only [if_true, Bool.false_eq_true, false_iff, not_and]
      exact fun _ hn => absurd (h1.1 h3) hn
    | false =>
      rw [hl] at h3
      have := h2.1 h3
      simp only [Bool.false_eq_true, if_false]
      unfold allowableGnome
      cases sa with
      | none => simp only [reduceCtorEq, false_implies, implies_true, and_true]; rw [← hx, hb]; simp [this, hx]
      | some polys =>
        simp only [List.any_eq_true, Option.some.injEq, forall_eq']
        rw [← hx, hb]
        simp [this, hx]

example : allowable (MapStep.demoMap 1) none ⟨1/4, 3/4, 0⟩ = some true ∧
    allowable (MapStep.demoMap 1) none ⟨5/2, 1/2, 0⟩ = some false ∧
    allowable (MapStep.demoMap 1) (some []) ⟨1/4, 3/4, 0⟩ = some false := by
  refine ⟨by decide +kernel, by decide +kernel, by decide +kernel⟩

/-! ### C67 -/

theorem pmod_range (x m : ℚ) (hm : 0 < m) : 0 ≤ pmod x m ∧ pmod x m < m ∧ ∃ k : Int, pmod x m = x - m * k := by
  have h1 : (((x / m).floor : Int) : ℚ) ≤ x / m := Int.floor_le (x / m)
  have h2 : x / m < (((x / m).floor : Int) : ℚ) + 1 := Int.lt_floor_add_one (x / m)
  have e : x / m * m = x := div_mul_cancel₀ x hm.ne'
  refine ⟨?_, ?_, (x / m).floor, rfl⟩
  · unfold pmod; nlinarith
  · unfold pmod; nlinarith

/-- `convert_longitude` to 0..360: in that range, the same meridian, and
unchanged if it was already in the range. -/
theorem C67_convert360 (x : ℚ) : 0 ≤ convert360 x ∧ convert360 x < 360 ∧ (∃ k : Int, convert360 x = x + 360 * k) ∧
    (0 ≤ x → x < 360 → convert360 x = x) := by
  obtain ⟨h1, h2, k, hk⟩ := pmod_range (x + 360) 360 (by norm_num)
  refine ⟨h1, h2, ⟨1 - k, ?_⟩, fun a b => ?_⟩
  · unfold convert360; rw [hk]; push_cast; ring
  · unfold convert360 at *
    rw [hk] at h1 h2 ⊢
    have hk1 : ((k : Int) : ℚ) < 2 := by linarith
    have hk2 : ((k : Int) : ℚ) > 0 := by linarith
    have : k < 2 := by exact_mod_cast hk1
    have : 0 < k := by exact_mod_cast hk2
    have : k = 1 := by omega
    subst this
    push_cast; ring

/-- `convert_longitude` to -180..180 of longitudes that are in one of the two
conventions or not more than one and a half turns away. -/
theorem C67_convert180_partial (x : ℚ) (h1 : -540 < x) (h2 : x ≤ 540) :
    -180 < convert180 x ∧ convert180 x ≤ 180 ∧ (∃ k : Int, convert180 x = x + 360 * k) ∧
    (-180 < x → x ≤ 180 → convert180 x = x) := by
  unfold convert180
  simp only
  by_cases a : x > 180
  · rw [if_pos a, if_neg (by linarith)]
    exact ⟨by linarith, by linarith, ⟨-1, by push_cast; ring⟩, fun _ b => absurd b (by linarith)⟩
  · rw [if_neg a]
    by_cases b : x ≤ -180
    · rw [if_pos b]
      exact ⟨by linarith, by linarith, ⟨1, by push_cast; ring⟩, fun c _ => absurd c (by linarith)⟩
    · rw [if_neg b]
      exact ⟨by linarith, by linarith, ⟨0, by push_cast; ring⟩, fun _ _ => rfl⟩

/-- The two conversions undo each other. -/
theorem C67_inverse (x : ℚ) : (0 ≤ x → x < 360 → convert360 (convert180 x) = x) ∧
    (-180 < x → x ≤ 180 → convert180 (convert360 x) = x) := by
  constructor
  · intro a b
    obtain ⟨h1, h2, ⟨k, hk⟩, _⟩ := C67_convert180_partial x (by linarith) (by linarith)
    obtain ⟨g1, g2, ⟨l, hl⟩, _⟩ := C67_convert360 (convert180 x)
    have hl' : convert360 (convert180 x) = x + 360 * k + 360 * l := by rw [hl, hk]
    rw [hl'] at g1 g2
    have e : ((k + l : Int) : ℚ) = (k : ℚ) + l := by push_cast; ring
    have i1 : ((k + l : Int) : ℚ) < 1 := by rw [e]; linarith
    have i2 : ((k + l : Int) : ℚ) > -1 := by rw [e]; linarith
    have j1 : k + l < 1 := by exact_mod_cast i1
    have j2 : -1 < k + l := by exact_mod_cast i2
    have : k + l = 0 := by omega
    rw [this] at e
    push_cast at e
    rw [hl']; linarith
  · intro a b
    obtain ⟨g1, g2, ⟨l, hl⟩, _⟩ := C67_convert360 x
    obtain ⟨h1, h2, ⟨k, hk⟩, _⟩ := C67_convert180_partial (convert360 x) (by linarith) (by linarith)
    have hk' : convert180 (convert360 x) = x + 360 * l + 360 * k := by rw [hk, hl]
    rw [hk'] at h1 h2
    have e : ((k + l : Int) : ℚ) = (k : ℚ) + l := by push_cast; ring
    have i1 : ((k + l : Int) : ℚ) < 1 := by rw [e]; linarith
    have i2 : ((k + l : Int) : ℚ) > -1 := by rw [e]; linarith
    have j1 : k + l < 1 := by exact_mod_cast i1
    have j2 : -1 < k + l := by exact_mod_cast i2
    have : k + l = 0 := by omega
    rw [this] at e
    push_cast at e
    rw [hk']; linarith

/-- Only one turn is taken off. -/
theorem C67_counterexample_far : convert180 600 = 240 := by norm_num [convert180]

theorem filter_full {p : ℚ → Bool} {l : List ℚ} (h : (l.filter p).length = l.length) : ∀ x ∈ l, p x = true := by
  have := List.filter_sublist (p := p) (l := l)
  have := this.eq_of_length h
  intro x hx
  rw [← this] at hx
  exact (List.mem_filter.1 hx).2

/-- What shifting a map does: all longitudes if all have to be shifted, none if
some do not (or a single one). -/
theorem shift360_cases (xs : List ℚ) :
    ((∀ x ∈ xs, x < 0) → shiftLon360 xs = xs.map (· + 360)) ∧
    ((∃ x ∈ xs, 0 ≤ x) → shiftLon360 xs = xs) := by
  constructor
  · intro h
    unfold shiftLon360 npMaskSet
    simp only
    rw [if_pos]
    · rfl
    · rw [List.filter_eq_self.2]
      intro x hx
      simpa using h x hx
  · rintro ⟨x, hx, h⟩
    unfold shiftLon360 npMaskSet
    simp only
    have hk : ¬ (xs.filter (fun x => decide (x < 0))).length = xs.length := by
      intro hk
      have := filter_full hk x hx
      simp at this
      linarith
    rw [if_neg hk]
    match xs, hx with
    | [y], hx =>
      simp only [List.mem_singleton] at hx
      subst hx
      simp [not_lt.2 h]
    | _ :: _ :: _, _ => rfl

theorem shift180_cases (xs : List ℚ) :
    ((∀ x ∈ xs, x > 180) → shiftLon180 xs = xs.map (· - 360)) ∧
    ((∃ x ∈ xs, x ≤ 180) → shiftLon180 xs = xs) := by
  constructor
  · intro h
    unfold shiftLon180 npMaskSet
    simp only
    rw [if_pos]
    · rfl
    · rw [List.filter_eq_self.2]
      intro x hx
      simpa using h x hx
  · rintro ⟨x, hx, h⟩
    unfold shiftLon180 npMaskSet
    simp only
    have hk : ¬ (xs.filter (fun x => decide (x > 180))).length = xs.length := by
      intro hk
      have := filter_full hk x hx
      simp at this
      linarith
    rw [if_neg hk]
    match xs, hx with
    | [y], hx =>
      simp only [List.mem_singleton] at hx
      subst hx
      simp [not_lt.2 h]
    | _ :: _ :: _, _ => rfl

/-- Shifting a map brings its longitudes into the range asked for if they are
all on one side. -/
theorem C67_shift_partial (xs : List ℚ) :
    ((∀ x ∈ xs, -360 ≤ x ∧ x < 360) → ((∀ x ∈ xs, x < 0) ∨ ∀ x ∈ xs, 0 ≤ x) → xs ≠ [] →
      shiftLon360 xs = xs.map convert360) ∧
    ((∀ x ∈ xs, -180 < x ∧ x ≤ 360) → ((∀ x ∈ xs, 180 < x) ∨ ∀ x ∈ xs, x ≤ 180) → xs ≠ [] →
      shiftLon180 xs = xs.map convert180) := by
  constructor
  · intro hr hs hne
    rcases hs with hs | hs
    · rw [(shift360_cases xs).1 hs]
      apply List.map_congr_left
      intro x hx
      have a := hs x hx
      have b := hr x hx
      have := (C67_convert360 (x + 360)).2.2.2 (by linarith) (by linarith)
      unfold convert360 pmod at this ⊢
      have e : (x + 360 + 360) / 360 = (x + 360) / 360 + ((1 : Int) : ℚ) := by push_cast; ring
      rw [e] at this
      have hf : ((x + 360) / 360 + ((1 : Int) : ℚ)).floor = ((x + 360) / 360).floor + 1 := by
        have := Int.floor_add_intCast ((x + 360) / 360) 1
        exact this
      rw [hf] at this
      push_cast at this
      linarith
    · obtain ⟨y, hy⟩ := List.exists_mem_of_ne_nil xs hne
      rw [(shift360_cases xs).2 ⟨y, hy, hs y hy⟩]
      conv_lhs => rw [← List.map_id xs]
      apply List.map_congr_left
      intro x hx
      exact ((C67_convert360 x).2.2.2 (hs x hx) (hr x hx).2).symm
  · intro hr hs hne
    rcases hs with hs | hs
    · rw [(shift180_cases xs).1 hs]
      apply List.map_congr_left
      intro x hx
      have a := hs x hx
      have b := hr x hx
      unfold convert180
      simp only
      rw [if_pos a, if_neg (by linarith)]
    · obtain ⟨y, hy⟩ := List.exists_mem_of_ne_nil xs hne
      rw [(shift180_cases xs).2 ⟨y, hy, hs y hy⟩]
      conv_lhs => rw [← List.map_id xs]
      apply List.map_congr_left
      intro x hx
      have a := hs x hx
      have b := hr x hx
      unfold convert180
      simp only [id]
      have b1 := b.1
      rw [if_neg (not_lt.2 a), if_neg (not_le.2 b1)]

/-- Land and bounds of a map, each all on one side, both come out in the range asked for; without
a shift nothing changes. -/
theorem C67_map_partial (polys bounds : List ℚ) (hp : polys ≠ []) (hb : bounds ≠ []) :
    ((∀ x ∈ polys ++ bounds, -360 ≤ x ∧ x < 360) →
      ((∀ x ∈ polys, x < 0) ∨ ∀ x ∈ polys, 0 ≤ x) →
      ((∀ x ∈ bounds, x < 0) ∨ ∀ x ∈ bounds, 0 ≤ x) →
      shiftMap 360 polys bounds = (polys.map convert360, bounds.map convert360)) ∧
    ((∀ x ∈ polys ++ bounds, -180 < x ∧ x ≤ 360) →
      ((∀ x ∈ polys, 180 < x) ∨ ∀ x ∈ polys, x ≤ 180) →
      ((∀ x ∈ bounds, 180 < x) ∨ ∀ x ∈ bounds, x ≤ 180) →
      shiftMap 180 polys bounds = (polys.map convert180, bounds.map convert180)) ∧
    shiftMap 0 polys bounds = (polys, bounds) := by
  refine ⟨fun h h1 h2 => ?_, fun h h1 h2 => ?_, rfl⟩
  · show (shiftLon360 polys, shiftLon360 bounds) = _
    rw [(C67_shift_partial polys).1 (fun x hx => h x (List.mem_append_left _ hx)) h1 hp,
      (C67_shift_partial bounds).1 (fun x hx => h x (List.mem_append_right _ hx)) h2 hb]
  · show (shiftLon180 polys, shiftLon180 bounds) = _
    rw [(C67_shift_partial polys).2 (fun x hx => h x (List.mem_append_left _ hx)) h1 hp,
      (C67_shift_partial bounds).2 (fun x hx => h x (List.mem_append_right _ hx)) h2 hb]

/-- A map on both sides of the zero meridian is not shifted at all. -/
theorem C67_counterexample_mixed (xs : List ℚ) (h : ∃ x ∈ xs, x < 0) (h' : ∃ x ∈ xs, 0 ≤ x) :
    shiftLon360 xs = xs ∧ ∃ x ∈ shiftLon360 xs, x < 0 := by
  have := (shift360_cases xs).2 h'
  rw [this]
  exact ⟨rfl, h⟩

/-- The land is shifted and the bounds of the map are not: all land is off the
map. -/
theorem C67_counterexample_bounds :
    shiftMap 360 [-170, -165, -160] [-175, -175, 5, 5] = ([190, 195, 200], [-175, -175, 5, 5]) := by
  have a := (shift360_cases [-170, -165, -160]).1 (by decide +kernel)
  have b := (shift360_cases [-175, -175, 5, 5]).2 ⟨5, by simp, by norm_num⟩
  unfold shiftMap
  rw [if_pos rfl, a, b]
  norm_num

example : convert360 (-90) = 270 ∧ convert180 270 = -90 := by
  constructor
  · norm_num [convert360, pmod]
    rw [show ((3 : ℚ) / 4).floor = 0 by decide +kernel]
  · norm_num [convert180]

end Verif.MapQ
