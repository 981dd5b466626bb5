import Verif.Land.TurnProps
/-!
# C361: the check for land in layers, on a map that is mirrored

It holds when the raster is a whole number of coarse cells and the move is on the raster.
-/
namespace Verif.Land

/-- What the coarser rasters must do for a mirror `τ` of the finest one. -/
structure LayerMirror (τ σ : Int × Int → Int × Int) (g g' : Grid) (r : Nat) : Prop where
  mirror : Mirror σ
  turned : Turned σ (coarser g r) (coarser g' r)
  comm : ∀ c, inside g c → coarse r (τ c) = σ (coarse r c)

/-- A cell of a coarser raster is land exactly if there is a pixel of land in it. -/
theorem coarser_land_iff {g : Grid} {r : Nat} (hr : 0 < r) (C : Int × Int) :
    land (coarser g r) C ↔ ∃ c, land g c ∧ coarse r c = C := by
  refine ⟨fun h => ?_, fun ⟨c, hc, e⟩ => e ▸ coarser_land hr hc⟩
  obtain ⟨⟨h1, h2, h3, h4⟩, hv⟩ := h
  obtain ⟨X, hX⟩ : ∃ x : Nat, C.1 = x := ⟨C.1.toNat, by omega⟩
  obtain ⟨Y, hY⟩ : ∃ y : Nat, C.2 = y := ⟨C.2.toNat, by omega⟩
  have l1 : X < ceilDiv g.m r := by
    have : C.1 < ((ceilDiv g.m r : Nat) : Int) := h2
    omega
  have l2 : Y < ceilDiv g.n r := by
    have : C.2 < ((ceilDiv g.n r : Nat) : Int) := h4
    omega
  rw [hX, hY, Int.toNat_natCast, Int.toNat_natCast] at hv
  change (List.map _ _).getD (X * ceilDiv g.n r + Y) 0 ≠ 0 at hv
  rw [List.getD_eq_getElem?_getD, List.getElem?_map, List.getElem?_range (flat_lt l1 l2)] at hv
  simp only [Option.map_some, Option.getD_some] at hv
  have d1 : (X * ceilDiv g.n r + Y) / ceilDiv g.n r = X := by
    rw [Nat.mul_comm, Nat.mul_add_div (Nat.lt_of_le_of_lt (Nat.zero_le _) l2), Nat.div_eq_of_lt l2]; rfl
  have d2 : (X * ceilDiv g.n r + Y) % ceilDiv g.n r = Y := by
    rw [Nat.mul_comm, Nat.mul_add_mod, Nat.mod_eq_of_lt l2]
  rw [d1, d2] at hv
  unfold coarseCell at hv
  split at hv
  · rename_i ha
    rw [List.any_eq_true] at ha
    obtain ⟨a, ha, hb⟩ := ha
    rw [List.any_eq_true] at hb
    obtain ⟨b, hb, hc⟩ := hb
    rw [Bool.and_eq_true] at hc
    have hc1 := of_decide_eq_true hc.1
    have hc2 := of_decide_eq_true hc.2
    have ha' := List.mem_range.1 ha
    have hb' := List.mem_range.1 hb
    refine ⟨(((X * r + a : Nat) : Int), ((Y * r + b : Nat) : Int)), ⟨⟨Int.natCast_nonneg _, Int.ofNat_lt.2 hc1.1, Int.natCast_nonneg _, Int.ofNat_lt.2 hc1.2⟩, ?_⟩, ?_⟩
    · show g.data.getD _ 0 ≠ 0
      rw [Int.toNat_natCast, Int.toNat_natCast]
      exact hc2
    · unfold coarse
      ext
      · show ((X * r + a : Nat) : Int).tdiv r = C.1
        rw [hX, ← Int.ofNat_tdiv, Nat.mul_comm, Nat.mul_add_div hr, Nat.div_eq_of_lt ha', Nat.add_zero]
      · show ((Y * r + b : Nat) : Int).tdiv r = C.2
        rw [hY, ← Int.ofNat_tdiv, Nat.mul_comm, Nat.mul_add_div hr, Nat.div_eq_of_lt hb', Nat.add_zero]
  · exact absurd rfl hv

theorem tdiv_mirror {m r : Nat} (hr : 0 < r) (hm : r ∣ m) {c : Int} (h0 : 0 ≤ c) (h1 : c < m) :
    ((m : Int) - 1 - c).tdiv r = ((m / r : Nat) : Int) - 1 - c.tdiv r := by
  obtain ⟨M, rfl⟩ := hm
  rw [Nat.mul_div_cancel_left _ hr, Int.tdiv_eq_ediv_of_nonneg (by omega), Int.tdiv_eq_ediv_of_nonneg h0]
  have hr' : (0 : Int) < r := by omega
  have e := Int.mul_ediv_add_emod c r
  have s0 := Int.emod_nonneg c (show (r : Int) ≠ 0 by omega)
  have s1 := Int.emod_lt_of_pos c hr'
  refine ((Int.ediv_emod_unique hr' (r := (r : Int) - 1 - c % r)).2 ⟨?_, by omega, by omega⟩).1
  push_cast
  linear_combination -e

theorem ceilDiv_dvd {m r : Nat} (hr : 0 < r) (hm : r ∣ m) : ceilDiv m r = m / r := by
  obtain ⟨M, rfl⟩ := hm
  unfold ceilDiv
  rw [Nat.mul_div_cancel_left _ hr, show r * M + r - 1 = r * M + (r - 1) by omega, Nat.mul_add_div hr, Nat.div_eq_of_lt (by omega), Nat.add_zero]

theorem layerMirror_mx {g g' : Grid} (hm : g'.m = g.m) (hn : g'.n = g.n) (h : Turned (mx (g.m - 1)) g g') {r : Nat} (hr : 0 < r) (hd : r ∣ g.m) :
    LayerMirror (mx (g.m - 1)) (mx (((g.m / r : Nat) : Int) - 1)) g g' r := by
  have hcm : ∀ c, inside g c → coarse r (mx (g.m - 1) c) = mx (((g.m / r : Nat) : Int) - 1) (coarse r c) := by
    rintro c ⟨h1, h2, _, _⟩
    unfold coarse mx
    simp only [Prod.mk.injEq, and_true]
    exact tdiv_mirror hr hd h1 h2
  have hin : ∀ c, inside g c → inside g (mx (g.m - 1) c) := fun c ⟨h1, h2, h3, h4⟩ => ⟨by simp only [mx]; omega, by simp only [mx]; omega, h3, h4⟩
  have inv : ∀ a c, mx a (mx a c) = c := fun a c => by simp only [mx]; ext <;> simp
  refine ⟨mirror_mx _, ⟨fun C => ?_, fun C => ?_⟩, hcm⟩
  · have e : (coarser g' r).m = g.m / r := by rw [← ceilDiv_dvd hr hd, ← hm]; rfl
    have e2 : (coarser g r).m = g.m / r := ceilDiv_dvd hr hd
    have e3 : (coarser g' r).n = (coarser g r).n := by show ceilDiv g'.n r = ceilDiv g.n r; rw [hn]
    unfold inside
    rw [e, e2, e3]
    simp only [mx]
    omega
  · rw [coarser_land_iff hr, coarser_land_iff hr]
    constructor
    · rintro ⟨c', hc', e⟩
      have hl : land g (mx (g.m - 1) c') := (h.land_iff _).1 (by rw [inv]; exact hc')
      have hi : inside g c' := by
        have := hin _ hl.1
        rwa [inv] at this
      exact ⟨_, hl, by rw [hcm c' hi, e, inv]⟩
    · rintro ⟨c, hc, e⟩
      exact ⟨_, (h.land_iff c).2 hc, by rw [hcm c hc.1, e]⟩

theorem layerMirror_my {g g' : Grid} (hm : g'.m = g.m) (hn : g'.n = g.n) (h : Turned (my (g.n - 1)) g g') {r : Nat} (hr : 0 < r) (hd : r ∣ g.n) :
    LayerMirror (my (g.n - 1)) (my (((g.n / r : Nat) : Int) - 1)) g g' r := by
  have hcm : ∀ c, inside g c → coarse r (my (g.n - 1) c) = my (((g.n / r : Nat) : Int) - 1) (coarse r c) := by
    rintro c ⟨_, _, h3, h4⟩
    unfold coarse my
    simp only [Prod.mk.injEq, true_and]
    exact tdiv_mirror hr hd h3 h4
  have hin : ∀ c, inside g c → inside g (my (g.n - 1) c) := fun c ⟨h1, h2, h3, h4⟩ => ⟨h1, h2, by simp only [my]; omega, by simp only [my]; omega⟩
  have inv : ∀ a c, my a (my a c) = c := fun a c => by simp only [my]; ext <;> simp
  refine ⟨mirror_my _, ⟨fun C => ?_, fun C => ?_⟩, hcm⟩
  · have e : (coarser g' r).n = g.n / r := by rw [← ceilDiv_dvd hr hd, ← hn]; rfl
    have e2 : (coarser g r).n = g.n / r := ceilDiv_dvd hr hd
    have e3 : (coarser g' r).m = (coarser g r).m := by show ceilDiv g'.m r = ceilDiv g.m r; rw [hm]
    unfold inside
    rw [e, e2, e3]
    simp only [my]
    omega
  · rw [coarser_land_iff hr, coarser_land_iff hr]
    constructor
    · rintro ⟨c', hc', e⟩
      have hl : land g (my (g.n - 1) c') := (h.land_iff _).1 (by rw [inv]; exact hc')
      have hi : inside g c' := by
        have := hin _ hl.1
        rwa [inv] at this
      exact ⟨_, hl, by rw [hcm c' hi, e, inv]⟩
    · rintro ⟨c, hc, e⟩
      exact ⟨_, (h.land_iff c).2 hc, by rw [hcm c hc.1, e]⟩

/-- A result of the layers, turned. -/
def LRes.turn (τ : Int × Int → Int × Int) : LRes → LRes
  | .hit px py hx hy => .hit (τ (px, py)).1 (τ (px, py)).2 (τ (hx, hy)).1 (τ (hx, hy)).2
  | r => r

theorem layerFind_turn {τ : Int × Int → Int × Int} (hτ : Mirror τ) {g g' : Grid} (hg : Turned τ g g') (p q : Int × Int) :
    layerFind g' (τ p) (τ q) = (layerFind g p q).turn τ := by
  have h1 : ∀ p q : Int × Int, steps p q < enough p q := fun p q => by unfold steps enough; omega
  exact find_turn hτ hg p q _ _ (h1 p q) (by rw [← hτ.steps_eq p q]; exact h1 _ _)

theorem layersFind_turn {τ : Int × Int → Int × Int} (hτ : Mirror τ) {g g' : Grid} (hg : Turned τ g g') (p q : Int × Int) (hp : inside g p) (hq : inside g q)
    (rs : List Nat) (hr : ∀ r ∈ rs, ∃ σ, LayerMirror τ σ g g' r) : layersFind g' (τ p) (τ q) rs = (layersFind g p q rs).turn τ := by
  induction rs with
  | nil =>
    simp only [layersFind, coarse_one]
    rw [layerFind_turn hτ hg]
    cases layerFind g p q <;> rfl
  | cons r rs ih =>
    obtain ⟨σ, hσ⟩ := hr r (by simp)
    simp only [layersFind]
    rw [hσ.comm p hp, hσ.comm q hq, layerFind_turn hσ.mirror hσ.turned]
    cases layerFind (coarser g r) (coarse r p) (coarse r q)
    · rfl
    · exact ih (fun r h => hr r (by simp [h]))
    · rfl
    · rfl

theorem checkLayers_turn {τ : Int × Int → Int × Int} (hτ : Mirror τ) {g g' : Grid} (hg : Turned τ g g') (rs : List Nat)
    (hr : ∀ r ∈ rs, ∃ σ, LayerMirror τ σ g g' r) (es : List El) (hes : ∀ e ∈ es, e.status ≠ onLand → inside g e.pos ∧ inside g e.fin) :
    checkLandLayers g' rs (es.map (El.turn τ)) = (checkLandLayers g rs es).map (List.map (El.turn τ)) := by
  have one : ∀ e ∈ es, checkLayersOne g' rs (e.turn τ) = (checkLayersOne g rs e).map (El.turn τ) := by
    intro e he
    unfold checkLayersOne
    rw [show (e.turn τ).status = e.status from rfl]
    by_cases h : e.status = onLand
    · rw [if_pos h, if_pos h]; rfl
    · rw [if_neg h, if_neg h, show (e.turn τ).pos = τ e.pos from rfl, show (e.turn τ).fin = τ e.fin from rfl,
        layersFind_turn hτ hg _ _ (hes e he h).1 (hes e he h).2 rs hr]
      cases layersFind g e.pos e.fin rs <;> rfl
  clear hes
  unfold checkLandLayers
  induction es with
  | nil => rfl
  | cons e es ih =>
    rw [List.map_cons, List.mapM_cons, List.mapM_cons, one e (by simp), ih (fun e he => one e (by simp [he]))]
    cases checkLayersOne g rs e with
    | none => rfl
    | some x => cases List.mapM (checkLayersOne g rs) es <;> rfl

/-- **C361 (partial)** the check that a map uses gives the mirrored result on a map that is mirrored from east to west, for moves on the raster, when the width of the
raster is a multiple of the ratio of every layer (missing: the other rasters, `C361_counterexample_layers`, and moves that leave the raster,
`C361_counterexample_outside`). -/
theorem C361_layers_east_west_partial (g g' : Grid) (hm : g'.m = g.m) (hn : g'.n = g.n) (h : Turned (mx (g.m - 1)) g g') (rs : List Nat)
    (hr : ∀ r ∈ rs, 0 < r ∧ r ∣ g.m) (es : List El) (hes : ∀ e ∈ es, e.status ≠ onLand → inside g e.pos ∧ inside g e.fin) :
    checkLandLayers g' rs (es.map (El.turn (mx (g.m - 1)))) = (checkLandLayers g rs es).map (List.map (El.turn (mx (g.m - 1)))) :=
  checkLayers_turn (mirror_mx _) h rs (fun r hr' => ⟨_, layerMirror_mx hm hn h (hr r hr').1 (hr r hr').2⟩) es hes

/-- **C361 (partial)** and on a map that is mirrored from south to north, when the height of the raster is such a multiple. -/
theorem C361_layers_south_north_partial (g g' : Grid) (hm : g'.m = g.m) (hn : g'.n = g.n) (h : Turned (my (g.n - 1)) g g') (rs : List Nat)
    (hr : ∀ r ∈ rs, 0 < r ∧ r ∣ g.n) (es : List El) (hes : ∀ e ∈ es, e.status ≠ onLand → inside g e.pos ∧ inside g e.fin) :
    checkLandLayers g' rs (es.map (El.turn (my (g.n - 1)))) = (checkLandLayers g rs es).map (List.map (El.turn (my (g.n - 1)))) :=
  checkLayers_turn (mirror_my _) h rs (fun r hr' => ⟨_, layerMirror_my hm hn h (hr r hr').1 (hr r hr').2⟩) es hes

/-- A raster of 48 by 32 pixels, three by two coarse cells, with one pixel of land, and the same mirrored. -/
def shoal : Grid := ⟨48, 32, (List.replicate 1536 0).set (25 * 32 + 16) 1, by rw [List.length_set, List.length_replicate]⟩
def laohs : Grid := ⟨48, 32, (List.replicate 1536 0).set (22 * 32 + 16) 1, by rw [List.length_set, List.length_replicate]⟩

theorem shoal_land (x y : Nat) (c : Int × Int) (h : ((List.replicate 1536 0).set (x * 32 + y) 1).length = 48 * 32) (hx : x < 48) (hy : y < 32) :
    land ⟨48, 32, (List.replicate 1536 0).set (x * 32 + y) 1, h⟩ c ↔ c = ((x : Int), (y : Int)) := by
  unfold land inside
  constructor
  · rintro ⟨⟨h1, h2, h3, h4⟩, hv⟩
    simp only at h1 h2 h3 h4 hv
    by_contra hc
    apply hv
    rw [List.getD_eq_getElem?_getD, List.getElem?_set_ne, List.getElem?_replicate]
    · split <;> rfl
    · intro he
      apply hc
      ext
      · simp only; omega
      · simp only; omega
  · rintro rfl
    simp only [Int.toNat_natCast]
    refine ⟨⟨by omega, by omega, by omega, by omega⟩, ?_⟩
    rw [List.getD_eq_getElem?_getD, List.getElem?_set_self (by rw [List.length_replicate]; omega)]
    exact Nat.one_ne_zero

theorem shoal_iff (c : Int × Int) : land shoal c ↔ c = (25, 16) := by
  unfold shoal
  rw [shoal_land 25 16 _ _ (by norm_num) (by norm_num)]
  norm_num

theorem laohs_iff (c : Int × Int) : land laohs c ↔ c = (22, 16) := by
  unfold laohs
  rw [shoal_land 22 16 _ _ (by norm_num) (by norm_num)]
  norm_num

theorem shoal_turned : Turned (mx (shoal.m - 1)) shoal laohs := by
  refine ⟨fun c => ?_, fun c => ?_⟩
  · simp only [inside, mx, shoal, laohs]
    push_cast
    omega
  · rw [shoal_iff, laohs_iff]
    simp only [shoal]
    simp only [mx, Prod.ext_iff]
    push_cast
    omega

/-- The claim for rasters of whole coarse cells. -/
def C361_claim_whole : Prop := ∀ (g g' : Grid) (es : List El), g'.m = g.m → g'.n = g.n → Turned (mx (g.m - 1)) g g' →
  (∀ r ∈ defaultRatios (g.m * g.n), r ∣ g.m) →
  checkLandLayers g' (defaultRatios (g.m * g.n)) (es.map (El.turn (mx (g.m - 1)))) =
    (checkLandLayers g (defaultRatios (g.m * g.n)) es).map (List.map (El.turn (mx (g.m - 1))))

/-- The coarse cells of a raster with one pixel of land, as a raster of three by two. -/
def cells : Grid := ⟨3, 2, [0, 0, 0, 1, 0, 0], rfl⟩

theorem cells_land (c : Int × Int) : land cells c ↔ c = (1, 1) := by
  constructor
  · rintro ⟨⟨h1, h2, h3, h4⟩, hv⟩
    obtain ⟨x, y⟩ := c
    simp only [cells] at h1 h2 h3 h4
    have hx : x = 0 ∨ x = 1 ∨ x = 2 := by omega
    have hy : y = 0 ∨ y = 1 := by omega
    rcases hx with rfl | rfl | rfl <;> rcases hy with rfl | rfl <;> first | rfl | (revert hv; decide)
  · rintro rfl; decide

theorem mirror_id : Mirror id := ⟨fun _ _ => rfl, fun _ _ => ⟨Iff.rfl, Iff.rfl⟩, fun _ _ => rfl, fun _ _ _ _ => rfl⟩

theorem cells_of {g : Grid} (hm : g.m = 48) (hn : g.n = 32) (d : Int × Int) (hd : ∀ c, land g c ↔ c = d) (hc : coarse 16 d = (1, 1)) (p q : Int × Int) :
    layerFind (coarser g 16) p q = layerFind cells p q := by
  have ht : Turned id cells (coarser g 16) := by
    refine ⟨fun c => ?_, fun c => ?_⟩
    · have e1 : (coarser g 16).m = 3 := by show ceilDiv g.m 16 = 3; rw [hm]; rfl
      have e2 : (coarser g 16).n = 2 := by show ceilDiv g.n 16 = 2; rw [hn]; rfl
      unfold inside
      rw [e1, e2]
      rfl
    · rw [coarser_land_iff (by norm_num), cells_land]
      constructor
      · rintro ⟨x, hx, e⟩
        rw [(hd x).1 hx, hc] at e
        exact e.symm
      · rintro rfl
        exact ⟨d, (hd d).2 rfl, hc⟩
  have := layerFind_turn mirror_id ht p q
  simp only [id] at this
  rw [this]
  cases layerFind cells p q <;> rfl

theorem layers_miss (g : Grid) (r : Nat) (p q : Int × Int) (h : layerFind (coarser g r) (coarse r p) (coarse r q) = .miss) : layersFind g p q [r] = .miss := by
  simp only [layersFind, h]

theorem layers_hit (g : Grid) (r : Nat) (p q : Int × Int) (h : ∃ a b c d, layerFind (coarser g r) (coarse r p) (coarse r q) = .hit a b c d)
    (h' : ∃ k ≤ steps p q, land g (pix p q k)) : ∃ a b c d, layersFind g p q [r] = .hit a b c d := by
  obtain ⟨a, b, c, d, h⟩ := h
  simp only [layersFind, h, coarse_one]
  rcases layerFind_good g p q with ⟨_, hn⟩ | ⟨j, _, x, _, _, he⟩
  · obtain ⟨k, hk, hl⟩ := h'
    exact absurd hl ((stop_iff ..).1 (hn k hk)).1
  · rw [he]
    exact ⟨_, _, _, _, rfl⟩

theorem check_miss (g : Grid) (rs : List Nat) (p q w : Int × Int) (h : layersFind g p q rs = .miss) : checkLandLayers g rs [⟨p, q, 2, w⟩] = some [⟨q, q, 2, w⟩] := by
  unfold checkLandLayers checkLayersOne
  simp [List.mapM_cons, onLand, h]

theorem check_hit (g : Grid) (rs : List Nat) (p q w : Int × Int) (h : ∃ a b c d, layersFind g p q rs = .hit a b c d) (e : El) (he : e.status = 2) :
    checkLandLayers g rs [⟨p, q, 2, w⟩] ≠ some [e] := by
  obtain ⟨a, b, c, d, h⟩ := h
  unfold checkLandLayers checkLayersOne
  simp only [List.mapM_cons, List.mapM_nil, onLand, h]
  intro hc
  have : (3 : Nat) = e.status := by
    have := congrArg (fun o : Option (List El) => o.map (List.map El.status)) hc
    simpa using this
  omega

theorem shoal_west : checkLandLayers shoal [16] [⟨(-5, 10), (33, 18), 2, (0, 0)⟩] = some [⟨(33, 18), (33, 18), 2, (0, 0)⟩] := by
  apply check_miss
  apply layers_miss
  rw [cells_of (g := shoal) rfl rfl (25, 16) shoal_iff (by decide)]
  decide +kernel

/-- The element from the east is stopped. -/
theorem laohs_east : ∃ a b c d : Int, layersFind laohs (52, 10) (14, 18) [16] = .hit a b c d := by
  apply layers_hit
  · rw [cells_of (g := laohs) rfl rfl (22, 16) laohs_iff (by decide)]
    exact ⟨2, 0, 1, 1, by decide +kernel⟩
  · exact ⟨30, by decide, (laohs_iff _).2 (by decide)⟩

/-- **C361** fails for a move that begins west of the raster: its start is put into the first coarse cell, while east of the raster there is a cell more. The element
from the west passes over the land that the one from the east meets. -/
theorem C361_counterexample_outside : ¬ C361_claim_whole := by
  intro h
  have hm : shoal.m = 48 := rfl
  have hr : defaultRatios (shoal.m * shoal.n) = [16] := by rw [show shoal.m = 48 from rfl, show shoal.n = 32 from rfl]; decide
  have h1 := h shoal laohs [⟨(-5, 10), (33, 18), 2, (0, 0)⟩] rfl rfl shoal_turned (by rw [hr, hm]; decide)
  rw [hr, shoal_west, hm] at h1
  exact check_hit laohs [16] (52, 10) (14, 18) (47, 0) laohs_east (El.turn (mx ((48 : Nat) - 1)) ⟨(33, 18), (33, 18), 2, (0, 0)⟩) rfl h1

/-- The mirrored maps meet the conditions of the theorems above, and a move on them meets the land. -/
example : shoal.m = laohs.m ∧ shoal.n = laohs.n ∧ Turned (mx (shoal.m - 1)) shoal laohs ∧ 16 ∣ shoal.m ∧ inside shoal (24, 16) ∧ inside shoal (25, 16) ∧
    land shoal (25, 16) :=
  ⟨rfl, rfl, shoal_turned, by decide, by decide, by decide, (shoal_iff _).2 rfl⟩

end Verif.Land
