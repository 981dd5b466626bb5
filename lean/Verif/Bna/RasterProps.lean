import Verif.Bna.RasterModel
import Mathlib.Tactic.Linarith
import Mathlib.Tactic.FieldSimp
import Mathlib.Tactic.Ring
import Mathlib.Tactic.NormNum
import Mathlib.Data.List.Induction
/-!
# C299, C300: rasters of maps from BNA files
-/
namespace Verif.Bna.Raster

/-- C299. A raster that is made has at most the number of pixels that was asked for, and misses it by less than a row. -/
theorem C299_bound (n : Nat) (aspect : ℝ) (w h : Nat) (e : size n aspect = some (w, h)) : w * h ≤ n ∧ n < w * h + w := by
  unfold size at e
  simp only at e
  split at e
  · exact absurd e nofun
  · next hw =>
    simp only [Option.some.injEq, Prod.mk.injEq] at e
    obtain ⟨rfl, rfl⟩ := e
    have h1 := Nat.div_add_mod n ⌊√(n * aspect)⌋₊
    have h2 := Nat.mod_lt n (Nat.pos_of_ne_zero hw)
    omega

/-- C299. A raster is made exactly when the number of pixels is at least the ratio of height to width; it then has pixels in both directions if the number is at least the ratio of width to height. -/
theorem C299_made (n : Nat) (aspect : ℝ) (ha : 0 < aspect) : ((∃ w h, size n aspect = some (w, h)) ↔ 1 ≤ n * aspect) ∧
    ∀ w h, size n aspect = some (w, h) → aspect ≤ n → 1 ≤ w ∧ 1 ≤ h := by
  have hn : (0 : ℝ) ≤ n * aspect := mul_nonneg (Nat.cast_nonneg n) ha.le
  have key : ⌊√(n * aspect)⌋₊ = 0 ↔ ¬ 1 ≤ n * aspect := by
    rw [Nat.floor_eq_zero, not_le, Real.sqrt_lt' one_pos]; norm_num
  constructor
  · unfold size
    simp only
    constructor
    · rintro ⟨w, h, e⟩
      by_contra hc
      rw [if_pos (key.2 hc)] at e
      exact absurd e nofun
    · intro h1
      refine ⟨_, _, if_neg ?_⟩
      rw [key]; exact not_not.2 h1
  · intro w h e hle
    unfold size at e
    simp only at e
    split at e
    · exact absurd e nofun
    · next hw =>
      simp only [Option.some.injEq, Prod.mk.injEq] at e
      obtain ⟨rfl, rfl⟩ := e
      refine ⟨Nat.pos_of_ne_zero hw, ?_⟩
      rw [Nat.one_le_div_iff (Nat.pos_of_ne_zero hw)]
      refine Nat.floor_le_of_le ?_
      rw [Real.sqrt_le_left (Nat.cast_nonneg n)]
      nlinarith [Nat.cast_nonneg (α := ℝ) n]

/-- C299. Pixels are about as wide as high on the ground: the width of a pixel over its height, `aspect / w * h`, is 1 up to the rounding of the numbers of columns and rows. -/
theorem C299_square (n : Nat) (aspect : ℝ) (ha : 0 < aspect) (w h : Nat) (e : size n aspect = some (w, h)) :
    1 - aspect / w < aspect / w * h ∧ aspect / w * h < (1 + 1 / (w : ℝ)) ^ 2 := by
  have hb := C299_bound n aspect w h e
  unfold size at e
  simp only at e
  split at e
  · exact absurd e nofun
  · next hw =>
    simp only [Option.some.injEq, Prod.mk.injEq] at e
    obtain ⟨e1, -⟩ := e
    have hn : (0 : ℝ) ≤ n * aspect := mul_nonneg (Nat.cast_nonneg n) ha.le
    have f1 : (⌊√(n * aspect)⌋₊ : ℝ) ≤ √(n * aspect) := Nat.floor_le (Real.sqrt_nonneg _)
    have f2 : √(n * aspect) < ⌊√(n * aspect)⌋₊ + 1 := Nat.lt_floor_add_one _
    have sq := Real.sq_sqrt hn
    rw [e1] at f1 f2
    have wpos : (0 : ℝ) < w := by
      rw [e1] at hw; exact_mod_cast Nat.pos_of_ne_zero hw
    have s0 := Real.sqrt_nonneg (n * aspect)
    have g1 : (w : ℝ) ^ 2 ≤ n * aspect := by rw [← sq]; exact pow_le_pow_left₀ wpos.le f1 2
    have g2 : n * aspect < ((w : ℝ) + 1) ^ 2 := by rw [← sq]; exact pow_lt_pow_left₀ f2 s0 (by norm_num)
    have b1 : (w : ℝ) * h ≤ n := by exact_mod_cast hb.1
    have b2 : (n : ℝ) < w * h + w := by exact_mod_cast hb.2
    have e2 : aspect / w * h = aspect * (w * h) / (w : ℝ) ^ 2 := by field_simp
    constructor
    · rw [e2, lt_div_iff₀ (by positivity)]
      have : (1 - aspect / w) * (w : ℝ) ^ 2 = (w : ℝ) ^ 2 - aspect * w := by field_simp
      rw [this]
      nlinarith [mul_lt_mul_of_pos_left b2 ha]
    · have : (1 + 1 / (w : ℝ)) ^ 2 = (w + 1) ^ 2 / (w : ℝ) ^ 2 := by field_simp
      rw [e2, this, div_lt_div_iff_of_pos_right (by positivity)]
      nlinarith [mul_le_mul_of_nonneg_left b1 ha.le]

/-- a thousand pixels for a box twice as wide as high: 44 by 22 -/
example : size 1000 2 = some (44, 22) := by
  have h : ⌊√(((1000 : Nat) : ℝ) * 2)⌋₊ = 44 := by
    rw [Nat.floor_eq_iff (Real.sqrt_nonneg _)]
    constructor
    · exact Real.le_sqrt_of_sq_le (by norm_num)
    · rw [Real.sqrt_lt' (by norm_num)]; norm_num
  unfold size
  simp only [h]
  rfl

variable {Px : Type}

/-- a drawn polygon that covers a pixel -/
def On (p : Px) (q : Kind × (Px → Bool)) : Prop := q.2 p = true ∧ q.1 ≠ .other

theorem raster_append (ps : List (Kind × (Px → Bool))) (q : Kind × (Px → Bool)) (p : Px) :
    raster (ps ++ [q]) p = draw (q.2 p) q.1 (raster ps p) := by
  unfold raster
  rw [List.foldl_append]; rfl

theorem raster_skip (a l : List (Kind × (Px → Bool))) (p : Px) (hl : ∀ q ∈ l, ¬ On p q) : raster (a ++ l) p = raster a p := by
  induction l using List.reverseRecOn with
  | nil => rw [List.append_nil]
  | append_singleton l q ih =>
    rw [← List.append_assoc, raster_append, ih fun r hr => hl r (List.mem_append_left _ hr)]
    have := hl q (by simp)
    obtain ⟨k, c⟩ := q
    unfold On at this
    cases k <;> cases hc : c p <;> simp_all [draw]

/-- C300. The last polygon that covers a pixel decides: after land it is land, after a lake it is water, whatever was drawn before. -/
theorem C300_last (a b : List (Kind × (Px → Bool))) (q : Kind × (Px → Bool)) (p : Px) (hq : On p q) (hb : ∀ r ∈ b, ¬ On p r) :
    raster (a ++ q :: b) p = if q.1 = .land then .land else .water := by
  have : a ++ q :: b = (a ++ [q]) ++ b := by simp
  rw [this, raster_skip _ b p hb, raster_append]
  obtain ⟨k, c⟩ := q
  obtain ⟨h1, h2⟩ := hq
  cases k <;> simp_all [draw]

/-- C300. A pixel that no polygon covers is water. -/
theorem C300_none (ps : List (Kind × (Px → Bool))) (p : Px) (h : ∀ q ∈ ps, ¬ On p q) : raster ps p = .water := by
  have := raster_skip [] ps p h
  rw [List.nil_append] at this
  rw [this]; rfl

/-- every pixel of the first polygon is in the second -/
def Inside (q r : Kind × (Px → Bool)) : Prop := ∀ p, q.2 p = true → r.2 p = true

/-- `q` is the innermost polygon at a pixel -/
def Innermost (ps : List (Kind × (Px → Bool))) (p : Px) (q : Kind × (Px → Bool)) : Prop :=
  On p q ∧ ∀ r ∈ ps, On p r → r = q ∨ (Inside q r ∧ ¬ Inside r q)

/-- C300 in full: the innermost polygon at a pixel decides, in whatever order the file has the polygons. -/
def C300_claim : Prop := ∀ (Px : Type) (ps : List (Kind × (Px → Bool))) (p : Px) (q), q ∈ ps → Innermost ps p q →
  raster ps p = if q.1 = .land then .land else .water

/-- C300. It decides if the file has a polygon after those around it. -/
theorem C300_partial (ps : List (Kind × (Px → Bool))) (ho : ps.Pairwise fun a b => Inside a b → Inside b a) (p : Px) (q) (hq : q ∈ ps) (hi : Innermost ps p q) :
    raster ps p = if q.1 = .land then .land else .water := by
  induction ps using List.reverseRecOn with
  | nil => exact absurd hq (by simp)
  | append_singleton l r ih =>
    by_cases hr : On p r
    · rcases hi.2 r (by simp) hr with he | ⟨h1, h2⟩
      · subst he
        exact C300_last l [] r p hr (by simp)
      · rcases List.mem_append.1 hq with hl | hl
        · have := (List.pairwise_append.1 ho).2.2 q hl r (by simp)
          exact absurd (this h1) h2
        · rw [List.mem_singleton] at hl
          subst hl
          exact C300_last l [] q p hr (by simp)
    · rw [raster_skip l [r] p (by intro s hs; rw [List.mem_singleton] at hs; subst hs; exact hr)]
      have hl : q ∈ l := by
        rcases List.mem_append.1 hq with hl | hl
        · exact hl
        · rw [List.mem_singleton] at hl; subst hl; exact absurd hi.1 hr
      exact ih (List.pairwise_append.1 ho).1 hl ⟨hi.1, fun s hs => hi.2 s (List.mem_append_left _ hs)⟩

/-- C300 fails: an island that the file has before the lake around it is drawn over. -/
theorem C300_counterexample : ¬ C300_claim := by
  intro h
  have := h Nat [(.land, fun p => p == 1), (.lake, fun p => decide (p < 3))] 1 (.land, fun p => p == 1) (by simp)
    ⟨⟨rfl, by simp⟩, by
      intro r hr _
      simp only [List.mem_cons, List.not_mem_nil, or_false] at hr
      rcases hr with rfl | rfl
      · exact Or.inl rfl
      · refine Or.inr ⟨?_, ?_⟩
        · intro p hp
          have : p = 1 := by simpa using hp
          subst this; decide
        · intro hc
          have := hc 2 (by decide)
          exact absurd this (by decide)⟩
  exact absurd this (by decide)

/-- land with a lake with an island, in this order -/
example : let ps : List (Kind × (Nat → Bool)) := [(.land, fun p => decide (p < 9)), (.lake, fun p => decide (p < 5)), (.land, fun p => p == 1)]
    raster ps 7 = .land ∧ raster ps 3 = .water ∧ raster ps 1 = .land ∧ raster ps 10 = .water := by
  decide

end Verif.Bna.Raster
