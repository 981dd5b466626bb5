import Verif.Geom.ProjModel

/-!
# C43 (projection and inverse), C52 (image box), C53 (arguments are not changed)
-/

namespace Verif.Geom

/-- A projection that can be inverted. -/
def Proj.Ok (P : Proj) : Prop := P.sx ≠ 0 ∧ P.sy ≠ 0

/-- A box of positive extent. -/
def LBox.Ok (b : LBox) : Prop := b.x0 < b.x1 ∧ b.y0 < b.y1

/-- Specification: a point of the box. -/
def LBox.Has (b : LBox) (p : Pt) : Prop := b.x0 ≤ p.x ∧ p.x ≤ b.x1 ∧ b.y0 ≤ p.y ∧ p.y ≤ b.y1

/-- The scale of the three kinds of projections is `sx > 0 > sy`, the box fits in the image, and the centre and offset
correspond. -/
structure Fits (P : Proj) (b : LBox) (W H : Int) : Prop where
  sx : 0 < P.sx
  sy : P.sy < 0
  cx : P.cx = (b.x0 + b.x1) / 2
  cy : P.cy = (b.y0 + b.y1) / 2
  ox : P.ox = (W : Rat) / 2
  oy : P.oy = (H : Rat) / 2
  wfit : (b.x1 - b.x0) * P.sx ≤ W
  hfit : (b.y1 - b.y0) * (-P.sy) ≤ H

theorem Fits.ok {P : Proj} {b : LBox} {W H : Int} (f : Fits P b W H) : P.Ok := ⟨f.sx.ne', f.sy.ne⟩

theorem flat_fits (k : Rat) (hk : 0 < k) (b : LBox) (hb : b.Ok) (W H : Int) (hW : 0 < W) (hH : 0 < H) :
    Fits (flatScale k b W H) b W H := by
  have hw : 0 < (b.x1 - b.x0) * k := mul_pos (by linarith [hb.1]) hk
  have hh : 0 < b.y1 - b.y0 := by linarith [hb.2]
  have hW' : (0 : Rat) < W := by exact_mod_cast hW
  have hH' : (0 : Rat) < H := by exact_mod_cast hH
  have key : ∀ s : Rat, s = (if (b.x1 - b.x0) * k / (b.y1 - b.y0) > (W : Rat) / H then (W : Rat) / ((b.x1 - b.x0) * k)
      else (H : Rat) / (b.y1 - b.y0)) → 0 < s ∧ (b.x1 - b.x0) * k * s ≤ W ∧ (b.y1 - b.y0) * s ≤ H := by
    intro s hs
    by_cases hc : (b.x1 - b.x0) * k / (b.y1 - b.y0) > (W : Rat) / H
    · rw [if_pos hc] at hs
      rw [hs]
      refine ⟨div_pos hW' hw, (mul_div_cancel₀ _ hw.ne').le, ?_⟩
      rw [mul_div_assoc', div_le_iff₀ hw]
      rw [gt_iff_lt, div_lt_div_iff₀ hH' hh] at hc
      linarith
    · rw [if_neg hc] at hs
      rw [hs]
      refine ⟨div_pos hH' hh, ?_, (mul_div_cancel₀ _ hh.ne').le⟩
      rw [mul_div_assoc', div_le_iff₀ hh]
      rw [gt_iff_lt, not_lt, div_le_div_iff₀ hh hH'] at hc
      linarith
  obtain ⟨h1, h2, h3⟩ := key _ rfl
  unfold flatScale
  refine ⟨?_, ?_, rfl, rfl, rfl, rfl, ?_, ?_⟩
  · exact mul_pos h1 hk
  · simp only [neg_lt_zero]; exact h1
  · simp only; linarith
  · simp only [neg_neg]; linarith

theorem geo_eq_flat (b : LBox) (W H : Int) : geoScale b W H = flatScale 1 b W H := by
  simp [geoScale, flatScale]

theorem geo_fits (b : LBox) (hb : b.Ok) (W H : Int) (hW : 0 < W) (hH : 0 < H) : Fits (geoScale b W H) b W H := by
  rw [geo_eq_flat]; exact flat_fits 1 one_pos b hb W H hW hH

theorem grid_fits (b : LBox) (hb : b.Ok) (W H : Int) (hW : 0 < W) (hH : 0 < H) : Fits (gridScale b W H) b W H := by
  have hw : 0 < b.x1 - b.x0 := by linarith [hb.1]
  have hh : 0 < b.y1 - b.y0 := by linarith [hb.2]
  have hW' : (0 : Rat) < W := by exact_mod_cast hW
  have hH' : (0 : Rat) < H := by exact_mod_cast hH
  unfold gridScale
  refine ⟨div_pos hW' hw, ?_, rfl, rfl, rfl, rfl, (mul_div_cancel₀ _ hw.ne').le, ?_⟩
  · simp only; rw [neg_div]; linarith [div_pos hH' hh]
  · simp only; rw [neg_div, neg_neg]; exact (mul_div_cancel₀ _ hh.ne').le

/-- **C43** (round trip).  Unrounded: `to_lonlat(to_pixel(p)) = p` and `to_pixel(to_lonlat(q)) = q`. -/
theorem C43_roundtrip (P : Proj) (h : P.Ok) (p q : Pt) : P.toLonLat (P.toPixel p) = p ∧ P.toPixel (P.toLonLat q) = q := by
  obtain ⟨h1, h2⟩ := h
  cases p; cases q
  simp only [Proj.toLonLat, Proj.toPixel, Pt.mk.injEq, add_sub_cancel_right]
  refine ⟨⟨?_, ?_⟩, ?_, ?_⟩ <;> field_simp <;> ring

theorem floor_half (i : Int) : ((i : Rat) + 1 / 2).floor = i := by
  have : ⌊(i : Rat) + 1 / 2⌋ = i := by
    rw [Int.floor_eq_iff]
    constructor <;> linarith
  exact this

/-- **C43** (integer pixels).  The centre of every pixel projects to the pixel. -/
theorem C43_pixel (P : Proj) (h : P.Ok) (i j : Int) : P.toPixelInt (P.toLonLatInt i j) = (i, j) := by
  unfold Proj.toPixelInt Proj.toLonLatInt
  rw [(C43_roundtrip P h ⟨0, 0⟩ _).2]
  simp only [floor_half]

/-- **C43** (rounding down).  A point is in its integer pixel: going back gives a point at most half a pixel away. -/
theorem C43_nearest (P : Proj) (h : P.Ok) (p : Pt) :
    |((P.toLonLatInt (P.toPixelInt p).1 (P.toPixelInt p).2).x - p.x) * P.sx| ≤ 1 / 2 ∧
    |((P.toLonLatInt (P.toPixelInt p).1 (P.toPixelInt p).2).y - p.y) * P.sy| ≤ 1 / 2 := by
  obtain ⟨h1, h2⟩ := h
  unfold Proj.toLonLatInt Proj.toPixelInt Proj.toLonLat
  simp only
  have fx1 : (((P.toPixel p).x.floor : Int) : Rat) ≤ (P.toPixel p).x := by exact_mod_cast Int.floor_le (P.toPixel p).x
  have fx2 : (P.toPixel p).x < (((P.toPixel p).x.floor : Int) : Rat) + 1 := by
    exact_mod_cast Int.lt_floor_add_one (P.toPixel p).x
  have fy1 : (((P.toPixel p).y.floor : Int) : Rat) ≤ (P.toPixel p).y := by exact_mod_cast Int.floor_le (P.toPixel p).y
  have fy2 : (P.toPixel p).y < (((P.toPixel p).y.floor : Int) : Rat) + 1 := by
    exact_mod_cast Int.lt_floor_add_one (P.toPixel p).y
  generalize (((P.toPixel p).x.floor : Int) : Rat) = fx at *
  generalize (((P.toPixel p).y.floor : Int) : Rat) = fy at *
  have ex : ((fx + 1 / 2 - P.ox) / P.sx + P.cx - p.x) * P.sx = fx + 1 / 2 - (P.toPixel p).x := by
    unfold Proj.toPixel; field_simp; ring
  have ey : ((fy + 1 / 2 - P.oy) / P.sy + P.cy - p.y) * P.sy = fy + 1 / 2 - (P.toPixel p).y := by
    unfold Proj.toPixel; field_simp; ring
  rw [ex, ey, abs_le, abs_le]
  exact ⟨⟨by linarith, by linarith⟩, by linarith, by linarith⟩

theorem fits_inside {P : Proj} {b : LBox} {W H : Int} (f : Fits P b W H) (p : Pt) (hp : b.Has p) :
    0 ≤ (P.toPixel p).x ∧ (P.toPixel p).x ≤ W ∧ 0 ≤ (P.toPixel p).y ∧ (P.toPixel p).y ≤ H := by
  obtain ⟨sx, sy, cx, cy, ox, oy, wf, hf⟩ := f
  obtain ⟨h1, h2, h3, h4⟩ := hp
  unfold Proj.toPixel
  simp only [cx, cy, ox, oy]
  have a1 := mul_le_mul_of_nonneg_right h1 sx.le
  have a2 := mul_le_mul_of_nonneg_right h2 sx.le
  have a3 := mul_le_mul_of_nonneg_right h3 (neg_pos.2 sy).le
  have a4 := mul_le_mul_of_nonneg_right h4 (neg_pos.2 sy).le
  refine ⟨?_, ?_, ?_, ?_⟩ <;> nlinarith

/-- **C43** (in the image).  For each kind of projection, every box of positive extent, every image size, every point of the
box falls in the (closed) image rectangle. -/
theorem C43_in_image (b : LBox) (hb : b.Ok) (W H : Int) (hW : 0 < W) (hH : 0 < H) (k : Rat) (hk : 0 < k) (p : Pt)
    (hp : b.Has p) (P : Proj) (hP : P = geoScale b W H ∨ P = flatScale k b W H ∨ P = gridScale b W H) :
    0 ≤ (P.toPixel p).x ∧ (P.toPixel p).x ≤ W ∧ 0 ≤ (P.toPixel p).y ∧ (P.toPixel p).y ≤ H := by
  rcases hP with rfl | rfl | rfl
  · exact fits_inside (geo_fits b hb W H hW hH) p hp
  · exact fits_inside (flat_fits k hk b hb W H hW hH) p hp
  · exact fits_inside (grid_fits b hb W H hW hH) p hp

/-- **C43** (north up, east right). -/
theorem C43_orientation (b : LBox) (hb : b.Ok) (W H : Int) (hW : 0 < W) (hH : 0 < H) (k : Rat) (hk : 0 < k)
    (P : Proj) (hP : P = geoScale b W H ∨ P = flatScale k b W H ∨ P = gridScale b W H) (p q : Pt) :
    (p.x < q.x ↔ (P.toPixel p).x < (P.toPixel q).x) ∧ (p.y < q.y ↔ (P.toPixel q).y < (P.toPixel p).y) := by
  have f : Fits P b W H := by
    rcases hP with rfl | rfl | rfl
    · exact geo_fits b hb W H hW hH
    · exact flat_fits k hk b hb W H hW hH
    · exact grid_fits b hb W H hW hH
  unfold Proj.toPixel
  simp only
  constructor
  · constructor
    · intro h; nlinarith [mul_lt_mul_of_pos_right h f.sx]
    · intro h
      by_contra hn
      nlinarith [mul_le_mul_of_nonneg_right (not_lt.1 hn) f.sx.le]
  · constructor
    · intro h; nlinarith [mul_lt_mul_of_pos_right h (neg_pos.2 f.sy)]
    · intro h
      by_contra hn
      nlinarith [mul_le_mul_of_nonneg_right (not_lt.1 hn) (neg_pos.2 f.sy).le]

/-- **C43** fails on the border for integer pixels: the southern and the eastern border of the box are outside of the image
(row `H`, column `W`).  The docstring says so for the maximum but promises the zeroth pixel for the minimum, which for the
latitude is the one outside. -/
theorem C43_counterexample : ∃ (b : LBox) (W H : Int), b.Ok ∧ 0 < W ∧ 0 < H ∧ b.Has ⟨b.x0, b.y0⟩ ∧
    (geoScale b W H).toPixelInt ⟨b.x0, b.y0⟩ = (0, H) ∧ (geoScale b W H).toPixelInt ⟨b.x1, b.y1⟩ = (W, 0) := by
  refine ⟨⟨0, 0, 10, 10⟩, 100, 100, ?_, by decide, by decide, ?_, ?_, ?_⟩
  · norm_num [LBox.Ok]
  · norm_num [LBox.Has]
  · have : ((100 : Rat)).floor = 100 := by decide +kernel
    norm_num [geoScale, Proj.toPixelInt, Proj.toPixel]
    exact ⟨by decide +kernel, this⟩
  · have : ((100 : Rat)).floor = 100 := by decide +kernel
    norm_num [geoScale, Proj.toPixelInt, Proj.toPixel]
    exact ⟨this, by decide +kernel⟩

/-- The border is the only exception. -/
theorem C43_in_image_int (b : LBox) (hb : b.Ok) (W H : Int) (hW : 0 < W) (hH : 0 < H) (k : Rat) (hk : 0 < k) (p : Pt)
    (hp : b.x0 ≤ p.x ∧ p.x < b.x1 ∧ b.y0 < p.y ∧ p.y ≤ b.y1) (P : Proj)
    (hP : P = geoScale b W H ∨ P = flatScale k b W H ∨ P = gridScale b W H) :
    (0 ≤ (P.toPixelInt p).1 ∧ (P.toPixelInt p).1 < W) ∧ (0 ≤ (P.toPixelInt p).2 ∧ (P.toPixelInt p).2 < H) := by
  have f : Fits P b W H := by
    rcases hP with rfl | rfl | rfl
    · exact geo_fits b hb W H hW hH
    · exact flat_fits k hk b hb W H hW hH
    · exact grid_fits b hb W H hW hH
  have hc := fits_inside f p ⟨hp.1, hp.2.1.le, hp.2.2.1.le, hp.2.2.2⟩
  have ho := C43_orientation b hb W H hW hH k hk P hP
  have e1 := fits_inside f ⟨b.x1, b.y1⟩ ⟨hb.1.le, le_refl _, hb.2.le, le_refl _⟩
  have e2 := fits_inside f ⟨b.x0, b.y0⟩ ⟨le_refl _, hb.1.le, le_refl _, hb.2.le⟩
  have x1 := ((ho p ⟨b.x1, b.y1⟩).1).1 hp.2.1
  have y1 := ((ho ⟨b.x0, b.y0⟩ p).2).1 hp.2.2.1
  unfold Proj.toPixelInt
  simp only
  have hx : ⌊(P.toPixel p).x⌋ < W := Int.floor_lt.2 (by linarith [e1.2.1])
  have hx0 : 0 ≤ ⌊(P.toPixel p).x⌋ := Int.floor_nonneg.2 hc.1
  have hy : ⌊(P.toPixel p).y⌋ < H := Int.floor_lt.2 (by linarith [e2.2.2.2])
  have hy0 : 0 ≤ ⌊(P.toPixel p).y⌋ := Int.floor_nonneg.2 hc.2.2.1
  exact ⟨⟨hx0, hx⟩, hy0, hy⟩

example : (⟨-10, 20, 30, 50⟩ : LBox).Ok ∧ (⟨-10, 20, 30, 50⟩ : LBox).Has ⟨0, 50⟩ := by norm_num [LBox.Ok, LBox.Has]

/-! ## C52: the image box -/

/-- Specification: the part of the world shown in the image. -/
def trueBox (P : Proj) (W H : Int) : Pt × Pt := (P.toLonLat ⟨0, H⟩, P.toLonLat ⟨W, 0⟩)

/-- **C52** The box is always off by half a pixel to the right and down. -/
theorem C52_shift (P : Proj) (W H : Int) :
    (imageBox P W H).1 = ⟨(trueBox P W H).1.x + 1 / 2 / P.sx, (trueBox P W H).1.y + 1 / 2 / P.sy⟩ ∧
    (imageBox P W H).2 = ⟨(trueBox P W H).2.x + 1 / 2 / P.sx, (trueBox P W H).2.y + 1 / 2 / P.sy⟩ := by
  simp only [imageBox, trueBox, Proj.toLonLatInt, Proj.toLonLat, Pt.mk.injEq, Int.cast_zero]
  refine ⟨⟨?_, ?_⟩, ?_, ?_⟩ <;> ring

/-- The true box contains the requested one. -/
theorem true_contains {P : Proj} {b : LBox} {W H : Int} (f : Fits P b W H) :
    (trueBox P W H).1.x ≤ b.x0 ∧ (trueBox P W H).1.y ≤ b.y0 ∧ b.x1 ≤ (trueBox P W H).2.x ∧ b.y1 ≤ (trueBox P W H).2.y := by
  obtain ⟨sx, sy, cx, cy, ox, oy, wf, hf⟩ := f
  simp only [trueBox, Proj.toLonLat, cx, cy, ox, oy]
  have nsy := neg_pos.2 sy
  have hw : b.x1 - b.x0 ≤ W / P.sx := (le_div_iff₀ sx).2 wf
  have hh : b.y1 - b.y0 ≤ H / (-P.sy) := (le_div_iff₀ nsy).2 hf
  rw [div_neg] at hh
  have e1 : (0 - (W : Rat) / 2) / P.sx = -(W / P.sx) / 2 := by ring
  have e2 : ((W : Rat) - (W : Rat) / 2) / P.sx = (W / P.sx) / 2 := by ring
  have e3 : ((H : Rat) - (H : Rat) / 2) / P.sy = (H / P.sy) / 2 := by ring
  have e4 : (0 - (H : Rat) / 2) / P.sy = -(H / P.sy) / 2 := by ring
  rw [e1, e2, e3, e4]
  refine ⟨?_, ?_, ?_, ?_⟩ <;> linarith

/-- **C52** fails: the image box of a projection never contains a box that fills the width of the image: its west side is half
a pixel inside. -/
theorem C52_counterexample (b : LBox) (hb : b.Ok) (W H : Int) (hW : 0 < W)
    (hfull : (b.x1 - b.x0) / (b.y1 - b.y0) > (W : Rat) / H) : b.x0 < (geoNew b W H).box.1.x := by
  unfold geoNew
  simp only
  rw [(C52_shift _ W H).1]
  simp only
  have hw : 0 < b.x1 - b.x0 := by linarith [hb.1]
  have hW' : (0 : Rat) < W := by exact_mod_cast hW
  have e : (geoScale b W H).sx = W / (b.x1 - b.x0) := by
    unfold geoScale; simp only; rw [if_pos hfull]
  have : (trueBox (geoScale b W H) W H).1.x = b.x0 := by
    simp only [trueBox, Proj.toLonLat, e]
    simp only [geoScale]
    field_simp
    ring
  rw [this, e]
  have : 0 < 1 / 2 / ((W : Rat) / (b.x1 - b.x0)) := div_pos (by norm_num) (div_pos hW' hw)
  linarith

example : (⟨0, 0, 20, 10⟩ : LBox).Ok ∧
    (((⟨0, 0, 20, 10⟩ : LBox).x1 - 0) / ((⟨0, 0, 20, 10⟩ : LBox).y1 - 0)) > ((600 : Int) : Rat) / (600 : Int) := by
  norm_num [LBox.Ok]

/-- **C52** (partial): up to half a pixel the image box contains the requested box, for the projections that set it. -/
theorem C52_half_pixel_partial (b : LBox) (hb : b.Ok) (W H : Int) (hW : 0 < W) (hH : 0 < H) (k : Rat) (hk : 0 < k)
    (P : Proj) (hP : P = geoScale b W H ∨ P = flatScale k b W H) :
    (imageBox P W H).1.x - 1 / 2 / P.sx ≤ b.x0 ∧ (imageBox P W H).1.y ≤ b.y0 ∧
    b.x1 ≤ (imageBox P W H).2.x ∧ b.y1 ≤ (imageBox P W H).2.y - 1 / 2 / P.sy := by
  have f : Fits P b W H := by
    rcases hP with rfl | rfl
    · exact geo_fits b hb W H hW hH
    · exact flat_fits k hk b hb W H hW hH
  have h := true_contains f
  rw [(C52_shift P W H).1, (C52_shift P W H).2]
  simp only
  have p1 : 0 < 1 / 2 / P.sx := div_pos (by norm_num) f.sx
  have p2 : 1 / 2 / P.sy < 0 := div_neg_of_pos_of_neg (by norm_num) f.sy
  exact ⟨by linarith [h.1], by linarith [h.2.1], by linarith [h.2.2.1], by linarith [h.2.2.2]⟩

/-- **C52** For the regular grid projection the box is the requested one, but only until the scale is set again. -/
theorem C52_grid_partial (b : LBox) (W H : Int) : (gridNew b W H).box = (⟨b.x0, b.y0⟩, ⟨b.x1, b.y1⟩) := rfl

theorem C52_counterexample_grid : ∃ (b c : LBox) (W H : Int), b.Ok ∧ c.Ok ∧
    (gridRescale (gridNew b W H) c W H).box.2.x < c.x0 :=
  ⟨⟨0, 0, 1, 1⟩, ⟨10, 10, 11, 11⟩, 100, 100, by norm_num [LBox.Ok], by norm_num [LBox.Ok], by
    norm_num [gridRescale, gridNew]⟩

/-! ## C53: arguments -/

/-- **C53** (partial) `to_pixel` of the scaling projections, and `to_lonlat` of integer pixels, leave the argument alone. -/
theorem C53_unchanged_partial (P : Proj) (a : List Pt) (q : List (Int × Int)) :
    (pixelArray P a).1 = a ∧ (lonLatIntArray P q).1 = q ∧ (lonLatIntArray P q).2 = q.map (fun ⟨i, j⟩ => P.toLonLatInt i j) := ⟨rfl, rfl, rfl⟩

/-- **C53** fails for `to_lonlat` of float pixels: calling it twice with the same array gives different results. -/
theorem C53_counterexample_lonlat : ∃ (P : Proj) (a : List Pt), P.Ok ∧
    (lonLatFloatArray P a).1 ≠ a ∧ (lonLatFloatArray P (lonLatFloatArray P a).1).2 ≠ (lonLatFloatArray P a).2 := by
  refine ⟨⟨0, 0, 2, -2, 0, 0⟩, [⟨4, 4⟩], by norm_num [Proj.Ok], ?_, ?_⟩ <;>
    norm_num [lonLatFloatArray, Proj.toLonLat]

/-- **C53** fails for the rectangular grid: positions outside of the grid are moved to its border by asking for their
pixel. -/
theorem C53_counterexample_grid : ∃ (lon lat : List Rat) (a : List Pt),
    (rectPixelArray lon lat a).1 = [⟨1, 1 / 2⟩] ∧ a = [⟨7, 1 / 2⟩] :=
  ⟨[0, 1], [0, 1], [⟨7, 1 / 2⟩], by decide +kernel, rfl⟩

/-- **C53** (rectangular grid, exactly).  The argument is unchanged iff all its points are on the grid. -/
theorem clip_eq_iff (lo hi x : Rat) (h : lo ≤ hi) : clip lo hi x = x ↔ lo ≤ x ∧ x ≤ hi := by
  unfold clip
  simp only
  split
  · rw [if_neg (by linarith)]
    constructor
    · intro e; linarith
    · intro e; linarith [e.1]
  · split
    · constructor
      · intro e; linarith
      · intro e; linarith [e.2]
    · constructor
      · intro _; constructor <;> linarith
      · intro _; rfl

theorem C53_grid_iff (lon lat : List Rat) (h1 : nodeMin lon ≤ nodeMax lon) (h2 : nodeMin lat ≤ nodeMax lat) (a : List Pt) :
    (rectPixelArray lon lat a).1 = a ↔
      ∀ p ∈ a, (nodeMin lon ≤ p.x ∧ p.x ≤ nodeMax lon) ∧ (nodeMin lat ≤ p.y ∧ p.y ≤ nodeMax lat) := by
  unfold rectPixelArray
  simp only
  induction a with
  | nil => simp
  | cons p a ih =>
    simp only [List.map_cons, List.cons.injEq, ih, List.mem_cons, forall_eq_or_imp]
    have : (⟨clip (nodeMin lon) (nodeMax lon) p.x, clip (nodeMin lat) (nodeMax lat) p.y⟩ : Pt) = p ↔
        (nodeMin lon ≤ p.x ∧ p.x ≤ nodeMax lon) ∧ (nodeMin lat ≤ p.y ∧ p.y ≤ nodeMax lat) := by
      rw [← clip_eq_iff _ _ _ h1, ← clip_eq_iff _ _ _ h2]
      cases p; simp
    rw [this]

/-! ## Rectangular grids: interpolation is inverted by interpolation -/

/-- Strictly ascending in both coordinates. -/
def Asc : List (Rat × Rat) → Prop
  | a :: b :: r => (a.1 < b.1 ∧ a.2 < b.2) ∧ Asc (b :: r)
  | _ => True

theorem interp_cons3 (a b c : Rat × Rat) (r : List (Rat × Rat)) (q : Rat) :
    interp (a :: b :: c :: r) q =
      if q ≤ b.1 then (b.2 - a.2) / (b.1 - a.1) * (q - a.1) + a.2 else interp (b :: c :: r) q := rfl

theorem seg_bounds {a b : Rat × Rat} (h1 : a.1 < b.1) (h2 : a.2 < b.2) {q : Rat} (hq : a.1 ≤ q) :
    a.2 ≤ (b.2 - a.2) / (b.1 - a.1) * (q - a.1) + a.2 ∧
    (q ≤ b.1 ↔ (b.2 - a.2) / (b.1 - a.1) * (q - a.1) + a.2 ≤ b.2) := by
  have hd : 0 < b.1 - a.1 := by linarith
  have hn : 0 < b.2 - a.2 := by linarith
  constructor
  · have := mul_nonneg (div_pos hn hd).le (sub_nonneg.2 hq)
    linarith
  · have : (b.2 - a.2) / (b.1 - a.1) * (q - a.1) ≤ b.2 - a.2 ↔ q - a.1 ≤ b.1 - a.1 := by
      rw [div_mul_eq_mul_div, div_le_iff₀ hd, mul_le_mul_iff_right₀ hn]
    constructor
    · intro h; linarith [this.2 (by linarith)]
    · intro h; linarith [this.1 (by linarith)]

theorem seg_inverse {a b : Rat × Rat} (h1 : a.1 < b.1) (h2 : a.2 < b.2) (q : Rat) :
    (b.1 - a.1) / (b.2 - a.2) * ((b.2 - a.2) / (b.1 - a.1) * (q - a.1) + a.2 - a.2) + a.1 = q := by
  have hd : b.1 - a.1 ≠ 0 := by linarith
  have hn : b.2 - a.2 ≠ 0 := by linarith
  field_simp
  ring

theorem interp_ge : ∀ (l : List (Rat × Rat)) (a : Rat × Rat), Asc (a :: l) → ∀ q, a.1 ≤ q → a.2 ≤ interp (a :: l) q := by
  intro l
  induction l with
  | nil => intro a _ q _; exact le_refl _
  | cons b r ih =>
    intro a h q hq
    cases r with
    | nil => exact (seg_bounds h.1.1 h.1.2 hq).1
    | cons c r =>
      rw [interp_cons3]
      split
      · exact (seg_bounds h.1.1 h.1.2 hq).1
      · rename_i hc
        exact le_trans h.1.2.le (ih b h.2 q (not_le.1 hc).le)

theorem interp_gt : ∀ (l : List (Rat × Rat)) (a : Rat × Rat), l ≠ [] → Asc (a :: l) → ∀ q, a.1 < q → a.2 < interp (a :: l) q := by
  intro l
  induction l with
  | nil => intro a h; exact absurd rfl h
  | cons b r ih =>
    intro a _ h q hq
    have hseg : a.2 < (b.2 - a.2) / (b.1 - a.1) * (q - a.1) + a.2 := by
      have := mul_pos (div_pos (sub_pos.2 h.1.2) (sub_pos.2 h.1.1)) (sub_pos.2 hq)
      linarith
    cases r with
    | nil => exact hseg
    | cons c r =>
      rw [interp_cons3]
      split
      · exact hseg
      · rename_i hc
        exact lt_of_lt_of_le h.1.2 (interp_ge (c :: r) b h.2 q (not_le.1 hc).le)

/-- Interpolating back gives the point again. -/
theorem interp_inverse : ∀ (l : List (Rat × Rat)) (a : Rat × Rat), l ≠ [] → Asc (a :: l) → ∀ q, a.1 ≤ q →
    interp (swapNodes (a :: l)) (interp (a :: l) q) = q := by
  intro l
  induction l with
  | nil => intro a h; exact absurd rfl h
  | cons b r ih =>
    intro a _ h q hq
    cases r with
    | nil => exact seg_inverse h.1.1 h.1.2 q
    | cons c r =>
      have e : swapNodes (a :: b :: c :: r) = (a.2, a.1) :: (b.2, b.1) :: (c.2, c.1) :: swapNodes r := rfl
      rw [e, interp_cons3, interp_cons3]
      by_cases hc : q ≤ b.1
      · rw [if_pos hc, if_pos ((seg_bounds h.1.1 h.1.2 hq).2.1 hc)]
        exact seg_inverse h.1.1 h.1.2 q
      · rw [if_neg hc]
        have hgt := interp_gt (c :: r) b (by simp) h.2 q (not_le.1 hc)
        rw [if_neg (not_le.2 hgt)]
        exact ih b (by simp) h.2 q (not_le.1 hc).le

/-- Strictly ascending coordinates. -/
def AscL : List Rat → Prop
  | a :: b :: r => a < b ∧ AscL (b :: r)
  | _ => True

theorem asc_numbered : ∀ (l : List Rat) (k : Nat), AscL l → Asc (numbered k l) := by
  intro l
  induction l with
  | nil => intro k _; trivial
  | cons a l ih =>
    intro k h
    cases l with
    | nil => trivial
    | cons b l =>
      refine ⟨⟨h.1, ?_⟩, ih (k + 1) h.2⟩
      push_cast; linarith

theorem getLastD_cons2 (a b : Rat) (l : List Rat) : (a :: b :: l).getLastD 0 = (b :: l).getLastD 0 := by
  simp

theorem interp_le : ∀ (l : List Rat) (k : Nat), l ≠ [] → AscL l → ∀ q, q ≤ l.getLastD 0 → nodeMin l ≤ q →
    interp (numbered k l) q ≤ (k : Rat) + ((l.length - 1 : Nat) : Rat) := by
  intro l
  induction l with
  | nil => intro k h; exact absurd rfl h
  | cons a l ih =>
    intro k _ h q hq ha
    cases l with
    | nil => simp [numbered, interp]
    | cons b l =>
      have hak : ((a, (k : Rat)) : Rat × Rat).1 < ((b, ((k + 1 : Nat) : Rat)) : Rat × Rat).1 := h.1
      have hk2 : ((a, (k : Rat)) : Rat × Rat).2 < ((b, ((k + 1 : Nat) : Rat)) : Rat × Rat).2 := by push_cast; linarith
      cases l with
      | nil =>
        have := ((seg_bounds hak hk2 (q := q) ha).2).1 (by simpa using hq)
        simp only [numbered, interp] at this ⊢
        simpa using this
      | cons c l =>
        have e : numbered k (a :: b :: c :: l)
            = (a, (k : Rat)) :: (b, ((k + 1 : Nat) : Rat)) :: (c, ((k + 1 + 1 : Nat) : Rat)) :: numbered (k + 1 + 1 + 1) l := rfl
        rw [e, interp_cons3]
        have hlen : (((a :: b :: c :: l).length - 1 : Nat) : Rat) = 1 + (((b :: c :: l).length - 1 : Nat) : Rat) := by
          simp only [List.length_cons, Nat.add_sub_cancel]; push_cast; ring
        split
        · rename_i hc
          have := ((seg_bounds hak hk2 (q := q) ha).2).1 hc
          refine le_trans this ?_
          rw [hlen]
          simp only
          push_cast
          have : (0 : Rat) ≤ (((b :: c :: l).length - 1 : Nat) : Rat) := Nat.cast_nonneg _
          push_cast at this
          linarith
        · rename_i hc
          have := ih (k + 1) (by simp) h.2 q (by rw [← getLastD_cons2 a]; exact hq) (not_le.1 hc).le
          rw [hlen]
          refine le_trans this ?_
          push_cast; linarith

theorem clip_of_mem {lo hi x : Rat} (h1 : lo ≤ x) (h2 : x ≤ hi) : clip lo hi x = x :=
  (clip_eq_iff lo hi x (le_trans h1 h2)).2 ⟨h1, h2⟩

theorem axis_inverse (l : List Rat) (h2 : 2 ≤ l.length) (h : AscL l) (q : Rat) (h0 : nodeMin l ≤ q) (h1 : q ≤ nodeMax l) :
    interp (swapNodes (numbered 0 l)) (interp (numbered 0 l) q) = q ∧
    0 ≤ interp (numbered 0 l) q ∧ interp (numbered 0 l) q ≤ ((l.length - 1 : Nat) : Rat) := by
  match l, h2, h with
  | a :: b :: r, _, h =>
    have hA := asc_numbered (a :: b :: r) 0 h
    refine ⟨?_, ?_, ?_⟩
    · exact interp_inverse (numbered 1 (b :: r)) (a, ((0 : Nat) : Rat)) (by simp [numbered]) hA q h0
    · have := interp_ge (numbered 1 (b :: r)) (a, ((0 : Nat) : Rat)) hA q h0
      have e : ((0 : Nat) : Rat) = 0 := Nat.cast_zero
      simp only [e] at this
      simpa [numbered] using this
    · have := interp_le (a :: b :: r) 0 (by simp) h q h1 h0
      simpa using this

/-- **C43** (rectangular grid).  For strictly ascending longitudes and latitudes and every point on the grid,
`to_lonlat(to_pixel(p)) = p`, and the pixel is inside of the grid. -/
theorem C43_rectangular (lon lat : List Rat) (h1 : 2 ≤ lon.length) (h2 : 2 ≤ lat.length) (a1 : AscL lon) (a2 : AscL lat)
    (p : Pt) (hx : nodeMin lon ≤ p.x ∧ p.x ≤ nodeMax lon) (hy : nodeMin lat ≤ p.y ∧ p.y ≤ nodeMax lat) :
    rectLonLat lon lat (rectPixel lon lat p) = p ∧
    (0 ≤ (rectPixel lon lat p).x ∧ (rectPixel lon lat p).x ≤ ((lon.length - 1 : Nat) : Rat)) ∧
    (0 ≤ (rectPixel lon lat p).y ∧ (rectPixel lon lat p).y ≤ ((lat.length - 1 : Nat) : Rat)) := by
  obtain ⟨ix, x0, x1⟩ := axis_inverse lon h1 a1 p.x hx.1 hx.2
  obtain ⟨iy, y0, y1⟩ := axis_inverse lat h2 a2 p.y hy.1 hy.2
  have e : rectPixel lon lat p = ⟨interp (numbered 0 lon) p.x, ((lat.length - 1 : Nat) : Rat) - interp (numbered 0 lat) p.y⟩ := by
    unfold rectPixel
    rw [clip_of_mem hx.1 hx.2, clip_of_mem hy.1 hy.2]
  rw [e]
  refine ⟨?_, ⟨x0, x1⟩, by simp only; linarith, by simp only; linarith⟩
  unfold rectLonLat
  simp only
  rw [clip_of_mem x0 x1, clip_of_mem (by linarith) (by linarith), sub_sub_cancel, ix, iy]

example : AscL [0, 1, 5] ∧ nodeMin [0, 1, 5] ≤ (3 : Rat) ∧ (3 : Rat) ≤ nodeMax [0, 1, 5] := by
  norm_num [AscL, nodeMin, nodeMax]

/-! ## Flat earth conversion of displacements -/

/-- **C43** (displacements).  Converting metres to degrees and back, at a latitude whose cosine is not 0, gives the
displacement again, in both directions; the vertical component is not touched. -/
theorem C43_displacement (c : Rat) (hc : c ≠ 0) (d : Rat × Rat × Rat) :
    lonLatToMeters c (metersToLonLat c d) = d ∧ metersToLonLat c (lonLatToMeters c d) = d := by
  have hf : flatC ≠ 0 := by unfold flatC; norm_num
  obtain ⟨x, y, z⟩ := d
  unfold lonLatToMeters metersToLonLat
  refine ⟨?_, ?_⟩ <;> (simp only [Prod.mk.injEq, and_true]; constructor <;> field_simp)

end Verif.Geom
