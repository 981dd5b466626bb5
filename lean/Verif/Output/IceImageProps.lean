import Verif.Output.IceImageModel
import Mathlib.Tactic.NormNum
/-
C234: the images of ice show each cell in the colour of its value, in a box that
holds all cells, as text that can be decoded.
-/
namespace Verif.Output.IceImage

/-- Specification: characters of base 64. -/
def isB64 (c : Char) : Bool := c.isAlphanum || c = '+' || c = '/' || c = '='

/-- Specification: a text of data is the head and characters of base 64. -/
def validData (t : List Char) : Prop :=
  ∃ body : List Char, t = "data:image/png;base64,".toList ++ body ∧ ∀ c ∈ body, isB64 c = true

/-- Specification: the scale is cut in equal parts, one for each colour; colour `i` is for the
values from `low + i * part` up to the next. -/
def colourIs (g : Gradient) (v : ℚ) (i : Int) : Prop :=
  g.low + i * ((g.high - g.low) / g.colours) ≤ v ∧ v < g.low + (i + 1) * ((g.high - g.low) / g.colours)

/-- The claim. -/
def C234_claim : Prop :=
  (∀ (g : Gradient) (v : ℚ) (i : Int), g.low < g.high → 0 ≤ i → i < g.colours → colourIs g v i → lookup g v = i) ∧
  (∀ b64 : List Char, (∀ c ∈ b64, isB64 c = true) → validData (imageText b64))

/-- A gradient from 1 to 3 in 2 colours: 1.5 has the second colour, not the first. -/
theorem C234_counterexample_low :
    colourIs ⟨1, 3, 2⟩ (3 / 2) 0 ∧ lookup ⟨1, 3, 2⟩ (3 / 2) = 1 := by
  refine ⟨⟨by decide +kernel, by decide +kernel⟩, by decide +kernel⟩

theorem imageText_drop (b64 : List Char) :
    (imageText b64).drop "data:image/png;base64,".toList.length = ['b', '\''] ++ b64 ++ ['\''] := by
  unfold imageText
  rw [List.append_assoc, List.append_assoc, List.drop_left, List.append_assoc]

/-- No image can be decoded: the text has quotation marks, whatever the image. -/
theorem C234_counterexample_text (b64 : List Char) : ¬ validData (imageText b64) := by
  rintro ⟨body, h, hb⟩
  have h1 : (imageText b64).drop "data:image/png;base64,".toList.length = body := by
    rw [h, List.drop_left]
  rw [imageText_drop] at h1
  have h2 : isB64 '\'' = true := hb _ (by rw [← h1]; simp)
  revert h2
  decide

theorem C234_counterexample : ¬ C234_claim := by
  intro h
  exact C234_counterexample_text ['A'] (h.2 ['A'] (by decide))

/-- What holds of the colours: on a scale that starts at 0, as those of the two images do, each value
has the colour of its part; values below have the first and values above the last; and more ice
never has an earlier colour. -/
theorem C234_colour_partial (g : Gradient) (h0 : g.low = 0) (h1 : 0 < g.high) (hc : 0 < g.colours) :
    (∀ (v : ℚ) (i : Int), 0 ≤ i → i < g.colours → colourIs g v i → lookup g v = i) ∧
    (∀ v, v < 0 → lookup g v = 0) ∧ (∀ v, g.high ≤ v → lookup g v = g.colours - 1) ∧
    (∀ v w, v ≤ w → lookup g v ≤ lookup g w) ∧
    (∀ v, 0 ≤ lookup g v ∧ lookup g v < g.colours) := by
  have hcq : (0 : ℚ) < g.colours := by exact_mod_cast hc
  have hs : 0 < stepRange g := by
    unfold stepRange
    rw [h0, sub_zero]
    exact div_pos h1 hcq
  refine ⟨?_, ?_, ?_, ?_, ?_⟩
  · intro v i hi0 hi1 ⟨ha, hb⟩
    change g.low + i * stepRange g ≤ v at ha
    change v < g.low + (i + 1) * stepRange g at hb
    rw [h0, zero_add] at ha hb
    have hf : ⌊v / stepRange g⌋ = i := by
      rw [Int.floor_eq_iff]
      exact ⟨(le_div_iff₀ hs).mpr ha, (div_lt_iff₀ hs).mpr hb⟩
    unfold lookup
    rw [hf]
    omega
  · intro v hv
    have : ⌊v / stepRange g⌋ < 0 := by
      rw [Int.floor_lt]
      push_cast
      exact div_neg_of_neg_of_pos hv hs
    unfold lookup
    omega
  · intro v hv
    have : (g.colours : Int) ≤ ⌊v / stepRange g⌋ := by
      rw [Int.le_floor]
      push_cast
      rw [le_div_iff₀ hs]
      have : (g.colours : ℚ) * stepRange g = g.high := by
        unfold stepRange
        rw [h0, sub_zero, mul_div_cancel₀ _ hcq.ne']
      linarith
    unfold lookup
    omega
  · intro v w hvw
    have : ⌊v / stepRange g⌋ ≤ ⌊w / stepRange g⌋ := Int.floor_le_floor (div_le_div_of_nonneg_right hvw hs.le)
    unfold lookup
    omega
  · intro v
    unfold lookup
    omega

/-- What happens otherwise: the colours are those of a scale moved to start at 0. -/
theorem C234_shifted (g : Gradient) (v : ℚ) :
    lookup g v = lookup ⟨0, g.high - g.low, g.colours⟩ v := by
  unfold lookup stepRange
  simp

/-! ### the colours of a gradient -/

/-- Each component of a gradient lies between bounds of the colours it is made of. -/
theorem interp_between (range : List ℚ) (hne : range ≠ []) (lo hi : ℚ) (h : ∀ a ∈ range, lo ≤ a ∧ a ≤ hi) :
    ∀ x, 0 ≤ x → lo ≤ interp range x ∧ interp range x ≤ hi := by
  induction range with
  | nil => exact absurd rfl hne
  | cons a rest ih =>
    cases rest with
    | nil => intro x _; exact h a (by simp)
    | cons b rest =>
      intro x hx
      rw [interp]
      have ha := h a (by simp)
      have hb := h b (by simp)
      split
      · rename_i h1
        have e : a + x * (b - a) = (1 - x) * a + x * b := by ring
        rw [e]
        have p1 := mul_le_mul_of_nonneg_left ha.1 (by linarith : 0 ≤ 1 - x)
        have p2 := mul_le_mul_of_nonneg_left hb.1 hx
        have p3 := mul_le_mul_of_nonneg_left ha.2 (by linarith : 0 ≤ 1 - x)
        have p4 := mul_le_mul_of_nonneg_left hb.2 hx
        constructor <;> linarith
      · rename_i h1
        exact ih (by simp) (fun c hc => h c (List.mem_cons_of_mem _ hc)) (x - 1) (by linarith)

/-- At a whole number it is that colour. -/
theorem interp_nat (range : List ℚ) : ∀ (k : Nat) (a : ℚ), range[k]? = some a → interp range k = a := by
  induction range with
  | nil => intro k a h; simp at h
  | cons a rest ih =>
    intro k c h
    cases rest with
    | nil =>
      rcases k with _ | k
      · simpa [interp] using h
      · simp at h
    | cons b rest =>
      rw [interp]
      rcases k with _ | _ | k
      · simp at h
        simp [h]
      · simp at h
        subst h
        simp
      · rw [if_neg (by push_cast; have : (0 : ℚ) ≤ k := Nat.cast_nonneg k; linarith)]
        have := ih (k + 1) c h
        have e : ((k + 1 + 1 : Nat) : ℚ) - 1 = ((k + 1 : Nat) : ℚ) := by push_cast; ring
        rw [e]
        exact this

/-- The gradient starts with the first colour given, ends with the last, and has no component outside
those of the colours given. -/
theorem C234_gradient (range : List ℚ) (n : Nat) (hn : 2 ≤ n) (a b : ℚ) (ha : range.head? = some a)
    (hb : range.getLast? = some b) :
    gradColour range n 0 = a ∧ gradColour range n (n - 1) = b ∧
    ∀ lo hi : ℚ, (∀ c ∈ range, lo ≤ c ∧ c ≤ hi) → ∀ i, lo ≤ gradColour range n i ∧ gradColour range n i ≤ hi := by
  have hne : range ≠ [] := by rintro rfl; simp at ha
  have hq : (2 : ℚ) ≤ n := by exact_mod_cast hn
  refine ⟨?_, ?_, ?_⟩
  · unfold gradColour linspace
    have := interp_nat range 0 a (by rw [← List.head?_eq_getElem?]; exact ha)
    simpa using this
  · unfold gradColour linspace
    have e : ((n - 1 : Nat) : ℚ) * (((range.length - 1 : Nat) : ℚ) / (n - 1)) = ((range.length - 1 : Nat) : ℚ) := by
      rw [Nat.cast_sub (by omega)]
      push_cast
      rw [mul_div_cancel₀]
      linarith
    rw [e]
    exact interp_nat range _ b (by rw [← List.getLast?_eq_getElem?]; exact hb)
  · intro lo hi h i
    apply interp_between range hne lo hi h
    unfold linspace
    apply mul_nonneg (Nat.cast_nonneg i)
    exact div_nonneg (Nat.cast_nonneg _) (by linarith)

/-! ### the box -/

/-- Specification: the point is in the box. -/
def Box.has (b : Box) (p : ℚ × ℚ) : Prop := b.left ≤ p.1 ∧ p.1 ≤ b.right ∧ b.bottom ≤ p.2 ∧ p.2 ≤ b.top

/-- Specification: every side is met by one of the points. -/
def Box.tight (b : Box) (ps : List (ℚ × ℚ)) : Prop :=
  (∃ p ∈ ps, p.1 = b.left) ∧ (∃ p ∈ ps, p.1 = b.right) ∧ (∃ p ∈ ps, p.2 = b.bottom) ∧ (∃ p ∈ ps, p.2 = b.top)

theorem foldl_min (f : ℚ × ℚ → ℚ) (ps : List (ℚ × ℚ)) : ∀ m, ps.foldl (fun m q => min m (f q)) m ≤ m ∧
    (∀ q ∈ ps, ps.foldl (fun m q => min m (f q)) m ≤ f q) ∧
    (ps.foldl (fun m q => min m (f q)) m = m ∨ ∃ q ∈ ps, f q = ps.foldl (fun m q => min m (f q)) m) := by
  induction ps with
  | nil => intro m; simp
  | cons p ps ih =>
    intro m
    obtain ⟨h1, h2, h3⟩ := ih (min m (f p))
    rw [List.foldl_cons]
    refine ⟨h1.trans (min_le_left _ _), ?_, ?_⟩
    · intro q hq
      rcases List.mem_cons.mp hq with rfl | hq
      · exact h1.trans (min_le_right _ _)
      · exact h2 q hq
    · rcases h3 with h3 | ⟨q, hq, h3⟩
      · rcases min_choice m (f p) with h4 | h4
        · exact Or.inl (h3.trans h4)
        · exact Or.inr ⟨p, List.mem_cons_self, (h3.trans h4).symm⟩
      · exact Or.inr ⟨q, List.mem_cons_of_mem _ hq, h3⟩

theorem foldl_max (f : ℚ × ℚ → ℚ) (ps : List (ℚ × ℚ)) : ∀ m, m ≤ ps.foldl (fun m q => max m (f q)) m ∧
    (∀ q ∈ ps, f q ≤ ps.foldl (fun m q => max m (f q)) m) ∧
    (ps.foldl (fun m q => max m (f q)) m = m ∨ ∃ q ∈ ps, f q = ps.foldl (fun m q => max m (f q)) m) := by
  induction ps with
  | nil => intro m; simp
  | cons p ps ih =>
    intro m
    obtain ⟨h1, h2, h3⟩ := ih (max m (f p))
    rw [List.foldl_cons]
    refine ⟨(le_max_left _ _).trans h1, ?_, ?_⟩
    · intro q hq
      rcases List.mem_cons.mp hq with rfl | hq
      · exact (le_max_right _ _).trans h1
      · exact h2 q hq
    · rcases h3 with h3 | ⟨q, hq, h3⟩
      · rcases max_choice m (f p) with h4 | h4
        · exact Or.inl (h3.trans h4)
        · exact Or.inr ⟨p, List.mem_cons_self, (h3.trans h4).symm⟩
      · exact Or.inr ⟨q, List.mem_cons_of_mem _ hq, h3⟩

theorem extent_spec (p : ℚ × ℚ) (ps : List (ℚ × ℚ)) :
    (∀ q ∈ p :: ps, (extent p ps).has q) ∧ (extent p ps).tight (p :: ps) := by
  obtain ⟨a1, a2, a3⟩ := foldl_min Prod.fst ps p.1
  obtain ⟨b1, b2, b3⟩ := foldl_min Prod.snd ps p.2
  obtain ⟨c1, c2, c3⟩ := foldl_max Prod.fst ps p.1
  obtain ⟨d1, d2, d3⟩ := foldl_max Prod.snd ps p.2
  have side : ∀ (f : ℚ × ℚ → ℚ) (x : ℚ), (x = f p ∨ ∃ q ∈ ps, f q = x) → ∃ q ∈ p :: ps, f q = x := by
    intro f x h
    rcases h with h | ⟨q, hq, h⟩
    · exact ⟨p, List.mem_cons_self, h.symm⟩
    · exact ⟨q, List.mem_cons_of_mem _ hq, h⟩
  refine ⟨?_, side Prod.fst _ a3, side Prod.fst _ c3, side Prod.snd _ b3, side Prod.snd _ d3⟩
  intro q hq
  rcases List.mem_cons.mp hq with rfl | hq
  · exact ⟨a1, c1, b1, d1⟩
  · exact ⟨a2 q hq, c2 q hq, b2 q hq, d2 q hq⟩

theorem Box.tight_mono {b : Box} {ps qs : List (ℚ × ℚ)} (h : b.tight ps) (hs : ∀ p ∈ ps, p ∈ qs) : b.tight qs := by
  obtain ⟨⟨p1, h1, e1⟩, ⟨p2, h2, e2⟩, ⟨p3, h3, e3⟩, ⟨p4, h4, e4⟩⟩ := h
  exact ⟨⟨p1, hs _ h1, e1⟩, ⟨p2, hs _ h2, e2⟩, ⟨p3, hs _ h3, e3⟩, ⟨p4, hs _ h4, e4⟩⟩

theorem boundingBox_merge (g : (ℚ × ℚ) × List (ℚ × ℚ)) (m : Box) (ms : List (ℚ × ℚ)) (h1 : ∀ q ∈ ms, m.has q)
    (h2 : m.tight ms) :
    (∀ q ∈ ms ++ g.1 :: g.2, (boundingBox g (some m)).has q) ∧ (boundingBox g (some m)).tight (ms ++ g.1 :: g.2) := by
  obtain ⟨e1, e2⟩ := extent_spec g.1 g.2
  have hl : (boundingBox g (some m)).left = min (extent g.1 g.2).left m.left := by
    simp only [boundingBox]
    split
    · rename_i h; rw [min_eq_right h.le]
    · rename_i h; rw [min_eq_left (not_lt.mp h)]
  have hb : (boundingBox g (some m)).bottom = min (extent g.1 g.2).bottom m.bottom := by
    simp only [boundingBox]
    split
    · rename_i h; rw [min_eq_right h.le]
    · rename_i h; rw [min_eq_left (not_lt.mp h)]
  have hr : (boundingBox g (some m)).right = max (extent g.1 g.2).right m.right := by
    simp only [boundingBox]
    split
    · rename_i h; rw [max_eq_right h.le]
    · rename_i h; rw [max_eq_left (not_lt.mp h)]
  have ht : (boundingBox g (some m)).top = max (extent g.1 g.2).top m.top := by
    simp only [boundingBox]
    split
    · rename_i h; rw [max_eq_right h.le]
    · rename_i h; rw [max_eq_left (not_lt.mp h)]
  constructor
  · intro q hq
    unfold Box.has
    rw [hl, hb, hr, ht]
    rcases List.mem_append.mp hq with hq | hq
    · obtain ⟨x1, x2, x3, x4⟩ := h1 q hq
      exact ⟨(min_le_right _ _).trans x1, x2.trans (le_max_right _ _), (min_le_right _ _).trans x3, x4.trans (le_max_right _ _)⟩
    · obtain ⟨x1, x2, x3, x4⟩ := e1 q hq
      exact ⟨(min_le_left _ _).trans x1, x2.trans (le_max_left _ _), (min_le_left _ _).trans x3, x4.trans (le_max_left _ _)⟩
  · have t1 := Box.tight_mono e2 (qs := ms ++ g.1 :: g.2) (fun p hp => List.mem_append_right _ hp)
    have t2 := Box.tight_mono h2 (qs := ms ++ g.1 :: g.2) (fun p hp => List.mem_append_left _ hp)
    unfold Box.tight
    rw [hl, hb, hr, ht]
    refine ⟨?_, ?_, ?_, ?_⟩
    · rcases min_choice (extent g.1 g.2).left m.left with h | h <;> rw [h]
      exacts [t1.1, t2.1]
    · rcases max_choice (extent g.1 g.2).right m.right with h | h <;> rw [h]
      exacts [t1.2.1, t2.2.1]
    · rcases min_choice (extent g.1 g.2).bottom m.bottom with h | h <;> rw [h]
      exacts [t1.2.2.1, t2.2.2.1]
    · rcases max_choice (extent g.1 g.2).top m.top with h | h <;> rw [h]
      exacts [t1.2.2.2, t2.2.2.2]

theorem boxOf_some (gs : List ((ℚ × ℚ) × List (ℚ × ℚ))) : ∀ (m : Box) (ms : List (ℚ × ℚ)), (∀ q ∈ ms, m.has q) →
    m.tight ms → ∃ b, boxOf gs (some m) = some b ∧
      (∀ q ∈ ms ++ gs.flatMap (fun g => g.1 :: g.2), b.has q) ∧ b.tight (ms ++ gs.flatMap (fun g => g.1 :: g.2)) := by
  induction gs with
  | nil => intro m ms h1 h2; exact ⟨m, rfl, by simpa using h1, by simpa using h2⟩
  | cons g gs ih =>
    intro m ms h1 h2
    obtain ⟨a, b⟩ := boundingBox_merge g m ms h1 h2
    obtain ⟨b', e, f1, f2⟩ := ih _ _ a b
    refine ⟨b', e, ?_, ?_⟩
    · intro q hq
      apply f1
      simpa [List.append_assoc] using hq
    · simpa [List.append_assoc] using f2

/-- The box of an image holds every point of every grid, and no smaller box does. -/
theorem C234_box (g : (ℚ × ℚ) × List (ℚ × ℚ)) (gs : List ((ℚ × ℚ) × List (ℚ × ℚ))) :
    ∃ b, boxOf (g :: gs) none = some b ∧ (∀ q ∈ (g :: gs).flatMap (fun g => g.1 :: g.2), b.has q) ∧
      ∀ b' : Box, (∀ q ∈ (g :: gs).flatMap (fun g => g.1 :: g.2), b'.has q) →
        b'.left ≤ b.left ∧ b.right ≤ b'.right ∧ b'.bottom ≤ b.bottom ∧ b.top ≤ b'.top := by
  obtain ⟨e1, e2⟩ := extent_spec g.1 g.2
  obtain ⟨b, h, h1, h2⟩ := boxOf_some gs (extent g.1 g.2) (g.1 :: g.2) e1 e2
  refine ⟨b, h, by simpa using h1, ?_⟩
  intro b' hb'
  have hb'' : ∀ q ∈ (g.1 :: g.2) ++ gs.flatMap (fun g => g.1 :: g.2), b'.has q := by simpa using hb'
  obtain ⟨⟨p1, m1, q1⟩, ⟨p2, m2, q2⟩, ⟨p3, m3, q3⟩, ⟨p4, m4, q4⟩⟩ := h2
  refine ⟨?_, ?_, ?_, ?_⟩
  · rw [← q1]; exact (hb'' _ m1).1
  · rw [← q2]; exact (hb'' _ m2).2.1
  · rw [← q3]; exact (hb'' _ m3).2.2.1
  · rw [← q4]; exact (hb'' _ m4).2.2.2

example : boxOf [((1, 2), [(3, 0)]), ((-1, 1), [(2, 5)])] none = some ⟨-1, 0, 3, 5⟩ := by decide +kernel
example : lookup ⟨0, 6, 64⟩ 3 = 32 ∧ lookup ⟨0, 6, 64⟩ 7 = 63 ∧ lookup ⟨0, 1, 64⟩ (1 / 128) = 0 := by decide +kernel
example : lookup ⟨0, 6, 64⟩ 3 = 32 :=
  (C234_colour_partial ⟨0, 6, 64⟩ rfl (by decide +kernel) (by decide)).1 3 32 (by decide) (by decide)
    ⟨by decide +kernel, by decide +kernel⟩
example : gradColour [128, 0] 64 0 = 128 ∧ gradColour [128, 0] 64 63 = 0 :=
  ⟨(C234_gradient [128, 0] 64 (by decide) 128 0 rfl rfl).1, (C234_gradient [128, 0] 64 (by decide) 128 0 rfl rfl).2.1⟩

end Verif.Output.IceImage
