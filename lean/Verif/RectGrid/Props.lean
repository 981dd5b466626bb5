import Verif.RectGrid.Model
/-
C69: a map made from a rectangular grid has its land where the mask of the
grid has it, whatever the refinement.
-/
namespace Verif.RectGrid

/-- An axis: strictly increasing, at least one cell. -/
structure Axis (l : List ℚ) : Prop where
  inc : l.Pairwise (· < ·)
  two : 2 ≤ l.length

theorem last_ge {b : ℚ} {rest : List ℚ} (h : (b :: rest).Pairwise (· < ·)) : b ≤ (b :: rest).getLastD 0 := by
  cases rest with
  | nil => simp
  | cons c rest =>
    have : (b :: c :: rest).getLastD 0 ∈ c :: rest := by
      rw [List.getLastD_cons]
      rw [List.getLastD_eq_getLast?]
      cases hl : (c :: rest).getLast? with
      | none => simp at hl
      | some v => simpa using List.mem_of_getLast? hl
    exact (List.rel_of_pairwise_cons h this).le

/-- Within the axis the pixel coordinate is between 0 and the number of cells
and interpolating back gives the coordinate. -/
theorem toPix_spec (l : List ℚ) (h : Axis l) (x : ℚ) (h1 : l.headD 0 ≤ x) (h2 : x ≤ l.getLastD 0) :
    0 ≤ toPix l x ∧ toPix l x ≤ (l.length - 1 : Nat) ∧ ofPix l (toPix l x) = x ∧ (l.headD 0 < x → 0 < toPix l x) := by
  induction l with
  | nil => have := h.two; simp at this
  | cons a l ih =>
    match l, ih, h, h1, h2 with
    | [], _, h, _, _ => have := h.two; simp at this
    | b :: rest, ih, h, h1, h2 =>
      have hab : a < b := List.rel_of_pairwise_cons h.inc (by simp)
      have hd : 0 < b - a := by linarith
      have h1' : a ≤ x := h1
      simp only [toPix]
      by_cases hc : x ≤ b ∨ rest = []
      · rw [if_pos hc]
        have hxb : x ≤ b := by
          rcases hc with hc | hc
          · exact hc
          · subst hc; simpa using h2
        have hu1 : (x - a) / (b - a) ≤ 1 := by rw [div_le_one hd]; linarith
        refine ⟨div_nonneg (by linarith) hd.le, ?_, ?_, ?_⟩
        · refine hu1.trans ?_
          have : (1 : ℚ) ≤ ((rest.length + 1 : Nat) : ℚ) := by exact_mod_cast (by omega : 1 ≤ rest.length + 1)
          simp
        · simp only [ofPix]
          rw [if_pos (.inl hu1)]
          field_simp
          ring
        · intro hx
          have hx' : a < x := hx
          exact div_pos (by linarith) hd
      · rw [if_neg hc]
        push Not at hc
        obtain ⟨hxb, hne⟩ := hc
        have hax : Axis (b :: rest) := ⟨(List.pairwise_cons.1 h.inc).2, by
          cases rest with
          | nil => exact absurd rfl hne
          | cons c r => simp⟩
        obtain ⟨i1, i2, i3, i4⟩ := ih hax hxb.le (by simpa [List.getLastD_cons] using h2)
        have hp := i4 hxb
        refine ⟨by linarith, ?_, ?_, fun _ => by linarith⟩
        · simp only [List.length_cons, Nat.add_sub_cancel] at i2 ⊢
          push_cast
          linarith
        · simp only [ofPix]
          have : ¬ (1 + toPix (b :: rest) x ≤ 1 ∨ rest = []) := by
            rintro (h | h)
            · linarith
            · exact hne h
          rw [if_neg this, add_sub_cancel_left]
          exact i3

theorem ofPix_spec (l : List ℚ) (h : Axis l) (u : ℚ) (h1 : 0 ≤ u) (h2 : u ≤ (l.length - 1 : Nat)) :
    l.headD 0 ≤ ofPix l u ∧ ofPix l u ≤ l.getLastD 0 ∧ toPix l (ofPix l u) = u ∧ (0 < u → l.headD 0 < ofPix l u) := by
  induction l generalizing u with
  | nil => have := h.two; simp at this
  | cons a l ih =>
    match l, ih, h, h1, h2 with
    | [], _, h, _, _ => have := h.two; simp at this
    | b :: rest, ih, h, h1, h2 =>
      have hab : a < b := List.rel_of_pairwise_cons h.inc (by simp)
      have hd : 0 < b - a := by linarith
      have hbl : b ≤ (a :: b :: rest).getLastD 0 := by
        have := last_ge (List.pairwise_cons.1 h.inc).2
        simpa [List.getLastD_cons] using this
      simp only [ofPix]
      by_cases hc : u ≤ 1 ∨ rest = []
      · rw [if_pos hc]
        have hu : u ≤ 1 := by
          rcases hc with hc | hc
          · exact hc
          · subst hc; simpa using h2
        have hxb : a + u * (b - a) ≤ b := by nlinarith
        refine ⟨?_, hxb.trans hbl, ?_, ?_⟩
        · show a ≤ _
          have := mul_nonneg h1 hd.le
          linarith
        · simp only [toPix]
          rw [if_pos (.inl hxb)]
          field_simp
          ring
        · intro hu
          show a < _
          have := mul_pos hu hd
          linarith
      · rw [if_neg hc]
        push Not at hc
        obtain ⟨hu, hne⟩ := hc
        have hax : Axis (b :: rest) := ⟨(List.pairwise_cons.1 h.inc).2, by
          cases rest with
          | nil => exact absurd rfl hne
          | cons c r => simp⟩
        obtain ⟨i1, i2, i3, i4⟩ := ih hax (u - 1) (by linarith) (by
          simp only [List.length_cons, Nat.add_sub_cancel] at h2 ⊢
          push_cast at h2
          linarith)
        have hp : b < ofPix (b :: rest) (u - 1) := i4 (by linarith)
        refine ⟨by show a ≤ _; linarith, by simpa [List.getLastD_cons] using i2, ?_, fun _ => by show a < _; linarith⟩
        simp only [toPix]
        have : ¬ (ofPix (b :: rest) (u - 1) ≤ b ∨ rest = []) := by
          rintro (h | h)
          · linarith
          · exact hne h
        rw [if_neg this, i3]
        ring

theorem head_le_last {l : List ℚ} (h : Axis l) : l.headD 0 ≤ l.getLastD 0 := by
  match l, h with
  | a :: rest, h => exact last_ge h.inc

theorem clip_range {l : List ℚ} (h : Axis l) (x : ℚ) : l.headD 0 ≤ clip l x ∧ clip l x ≤ l.getLastD 0 :=
  ⟨le_min (le_max_right _ _) (head_le_last h), min_le_right _ _⟩

theorem clip_id {l : List ℚ} (x : ℚ) (h1 : l.headD 0 ≤ x) (h2 : x ≤ l.getLastD 0) : clip l x = x := by
  unfold clip; rw [max_eq_left h1, min_eq_left h2]

/-- Going to pixels and back gives the same place, for all places of the grid. -/
theorem C69_roundtrip (lon lat : List ℚ) (h1 : Axis lon) (h2 : Axis lat) (p : ℚ × ℚ)
    (a : lon.headD 0 ≤ p.1) (b : p.1 ≤ lon.getLastD 0) (c : lat.headD 0 ≤ p.2) (d : p.2 ≤ lat.getLastD 0) :
    toLonLat lon lat (toPixel lon lat p) = p := by
  obtain ⟨x1, x2, x3, _⟩ := toPix_spec lon h1 p.1 a b
  obtain ⟨y1, y2, y3, _⟩ := toPix_spec lat h2 p.2 c d
  unfold toLonLat toPixel
  simp only
  rw [clip_id _ a b, clip_id _ c d, max_eq_left x1, min_eq_left x2, max_eq_left (by linarith), min_eq_left (by linarith),
    sub_sub_cancel, x3, y3]

/-- The middle of a pixel of the raster is in that pixel. -/
theorem C69_pixel (lon lat : List ℚ) (h1 : Axis lon) (h2 : Axis lat) (i j : Nat) (hi : i + 1 < lon.length)
    (hj : j + 1 < lat.length) : toPixelInt lon lat (toLonLatInt lon lat (i, j)) = ((i : Int), (j : Int)) := by
  have hi' : (i : ℚ) + 1 ≤ (lon.length - 1 : Nat) := by exact_mod_cast (by omega : i + 1 ≤ lon.length - 1)
  have hj' : (j : ℚ) + 1 ≤ (lat.length - 1 : Nat) := by exact_mod_cast (by omega : j + 1 ≤ lat.length - 1)
  have i0 : (0 : ℚ) ≤ i := Nat.cast_nonneg i
  have j0 : (0 : ℚ) ≤ j := Nat.cast_nonneg j
  obtain ⟨x1, x2, x3, _⟩ := ofPix_spec lon h1 (i + 1 / 2) (by linarith) (by linarith)
  obtain ⟨y1, y2, y3, _⟩ := ofPix_spec lat h2 ((lat.length - 1 : Nat) - (j + 1 / 2)) (by linarith) (by linarith)
  unfold toPixelInt toPixel toLonLatInt toLonLat
  simp only [Int.cast_natCast]
  rw [max_eq_left (by linarith), min_eq_left (by linarith), max_eq_left (by linarith), min_eq_left (by linarith),
    clip_id _ x1 x2, clip_id _ y1 y2, x3, y3, sub_sub_cancel]
  have e : ∀ n : Nat, ((n : ℚ) + 1 / 2).floor = (n : Int) := by
    intro n
    have : ⌊(n : ℚ) + 1 / 2⌋ = (n : Int) := by
      rw [Int.floor_eq_iff]; push_cast; constructor <;> linarith
    exact this
  rw [e, e]

/-! refinement -/

/-- An arithmetic progression of `k` terms. -/
def ap (a d : ℚ) (k : Nat) : List ℚ := (List.range k).map (fun (i : Nat) => d * i + a)

theorem ap_succ (a d : ℚ) (k : Nat) : ap a d (k + 1) = a :: ap (a + d) d k := by
  unfold ap
  rw [List.range_succ_eq_map]
  simp only [List.map_cons, List.map_map]
  congr 1
  · simp
  · apply List.map_congr_left
    intro i _
    simp only [Function.comp]
    push_cast
    ring

theorem ap_pos (a d : ℚ) (k : Nat) (hk : 1 ≤ k) : ap a d k = a :: ap (a + d) d (k - 1) := by
  obtain ⟨k', rfl⟩ : ∃ k', k = k' + 1 := ⟨k - 1, by omega⟩
  rw [ap_succ]; rfl

theorem toPix_ap (d : ℚ) (hd : 0 < d) (k : Nat) (hk : 1 ≤ k) (a : ℚ) (t : List ℚ) (x : ℚ) :
    toPix (ap a d k ++ (a + k * d) :: t) x =
      if x ≤ a + k * d ∨ t = [] then (x - a) / d else k + toPix ((a + k * d) :: t) x := by
  induction k generalizing a with
  | zero => omega
  | succ k ih =>
    cases k with
    | zero =>
      rw [ap_succ]
      have : ap (a + d) d 0 = [] := rfl
      rw [this]
      simp only [List.cons_append, List.nil_append, toPix]
      push_cast
      have e : a + 1 * d - a = d := by ring
      norm_num
    | succ k =>
      rw [ap_succ, ap_succ]
      have e : a + ((k + 1 + 1 : Nat) : ℚ) * d = (a + d) + ((k + 1 : Nat) : ℚ) * d := by push_cast; ring
      rw [e]
      have ih' := ih (by omega) (a + d)
      rw [ap_succ] at ih'
      simp only [List.cons_append] at ih' ⊢
      rw [toPix]
      have hne : ¬ (ap (a + d + d) d k ++ (a + d + ((k + 1 : Nat) : ℚ) * d) :: t = []) := by simp
      have hk0 : (0 : ℚ) ≤ ((k + 1 : Nat) : ℚ) * d := mul_nonneg (Nat.cast_nonneg _) hd.le
      by_cases hx : x ≤ a + d
      · rw [if_pos (.inl hx), if_pos (.inl (by linarith)), add_sub_cancel_left]
      · rw [if_neg (fun h => h.elim hx hne), ih']
        by_cases hc : x ≤ a + d + ((k + 1 : Nat) : ℚ) * d ∨ t = []
        · rw [if_pos hc, if_pos hc]
          field_simp
          ring
        · rw [if_neg hc, if_neg hc]
          push_cast
          ring

theorem between_ap (r : Nat) (a b : ℚ) : between r a b = ap a ((b - a) / r) r := rfl

theorem ap_end (r : Nat) (hr : 1 ≤ r) (a b : ℚ) : a + r * ((b - a) / r) = b := by
  have : (r : ℚ) ≠ 0 := by exact_mod_cast (by omega : r ≠ 0)
  field_simp
  ring

theorem refine_head (r : Nat) (hr : 1 ≤ r) (b : ℚ) (rest : List ℚ) :
    ∃ t, refineAxis r (b :: rest) = b :: t ∧ (t = [] ↔ rest = []) := by
  cases rest with
  | nil => exact ⟨[], rfl, by simp⟩
  | cons c rest =>
    simp only [refineAxis]
    rw [between_ap, ap_pos _ _ _ hr]
    refine ⟨_, rfl, ?_⟩
    have : refineAxis r (c :: rest) ≠ [] := by
      cases rest with
      | nil => simp [refineAxis]
      | cons e rest =>
        simp only [refineAxis]
        rw [between_ap, ap_pos _ _ _ hr]
        simp
    simp [this]

/-- On the refined axis the pixel coordinate is `r` times that on the axis. -/
theorem toPix_refine (r : Nat) (hr : 1 ≤ r) (l : List ℚ) (h : l.Pairwise (· < ·)) (x : ℚ) :
    toPix (refineAxis r l) x = r * toPix l x := by
  induction l with
  | nil => simp [refineAxis, toPix]
  | cons a l ih =>
    match l, ih, h with
    | [], _, _ => simp [refineAxis, toPix]
    | b :: rest, ih, h =>
      have hab : a < b := List.rel_of_pairwise_cons h (by simp)
      have hr0 : (0 : ℚ) < r := by exact_mod_cast hr
      obtain ⟨t, ht, hte⟩ := refine_head r hr b rest
      have ih' := ih (List.pairwise_cons.1 h).2
      simp only [refineAxis, toPix]
      rw [ht] at ih' ⊢
      have e := ap_end r hr a b
      have := toPix_ap ((b - a) / r) (div_pos (by linarith) hr0) r hr a t x
      rw [e] at this
      rw [between_ap, this]
      by_cases hc : x ≤ b ∨ rest = []
      · rw [if_pos hc, if_pos (hc.imp_right hte.2)]
        have : b - a ≠ 0 := by linarith
        field_simp
      · rw [if_neg hc, if_neg (fun h => hc (h.imp_right hte.1)), ih']
        ring

theorem refine_length (r : Nat) (l : List ℚ) (h : 1 ≤ l.length) : (refineAxis r l).length = (l.length - 1) * r + 1 := by
  induction l with
  | nil => simp at h
  | cons a l ih =>
    match l, ih with
    | [], _ => simp [refineAxis]
    | b :: rest, ih =>
      have := ih (by simp)
      simp only [refineAxis, List.length_append, this, between, List.length_map, List.length_range, List.length_cons,
        Nat.add_sub_cancel]
      rw [Nat.add_mul]
      omega

theorem refine_ends (r : Nat) (hr : 1 ≤ r) (l : List ℚ) :
    (refineAxis r l).headD 0 = l.headD 0 ∧ (refineAxis r l).getLastD 0 = l.getLastD 0 := by
  induction l with
  | nil => simp [refineAxis]
  | cons a l ih =>
    obtain ⟨t, ht, _⟩ := refine_head r hr a l
    refine ⟨by rw [ht]; rfl, ?_⟩
    match l, ih with
    | [], _ => simp [refineAxis]
    | b :: rest, ih =>
      simp only [refineAxis]
      have hne : refineAxis r (b :: rest) ≠ [] := by
        obtain ⟨t, ht, _⟩ := refine_head r hr b rest
        rw [ht]; simp
      have e1 : (between r a b ++ refineAxis r (b :: rest)).getLastD 0 = (refineAxis r (b :: rest)).getLastD 0 := by
        rw [List.getLastD_eq_getLast?, List.getLastD_eq_getLast?, List.getLast?_append]
        cases hl : (refineAxis r (b :: rest)).getLast? with
        | none => rw [List.getLast?_eq_none_iff] at hl; exact absurd hl hne
        | some v => rfl
      rw [e1, ih.2]
      simp

theorem floor_mul_div (r : Nat) (hr : 1 ≤ r) (u : ℚ) : ((r : ℚ) * u).floor / (r : Int) = u.floor := by
  have h : ⌊(r : ℚ) * u⌋ / (r : Int) = ⌊u⌋ := by
    rw [← Int.floor_div_natCast]
    congr 1
    have : (r : ℚ) ≠ 0 := by exact_mod_cast (by omega : r ≠ 0)
    field_simp
  exact h

/-- The pixel of the refined raster is one of those into which the pixel of the
raster is divided. -/
theorem toPixelInt_refine (r : Nat) (hr : 1 ≤ r) (lon lat : List ℚ) (h1 : Axis lon) (h2 : Axis lat) (p : ℚ × ℚ) :
    (toPixelInt (refineAxis r lon) (refineAxis r lat) p).1 / r = (toPixelInt lon lat p).1 ∧
    (toPixelInt (refineAxis r lon) (refineAxis r lat) p).2 / r = (toPixelInt lon lat p).2 := by
  unfold toPixelInt toPixel
  simp only
  have c1 : clip (refineAxis r lon) p.1 = clip lon p.1 := by
    unfold clip; rw [(refine_ends r hr lon).1, (refine_ends r hr lon).2]
  have c2 : clip (refineAxis r lat) p.2 = clip lat p.2 := by
    unfold clip; rw [(refine_ends r hr lat).1, (refine_ends r hr lat).2]
  rw [c1, c2, toPix_refine r hr _ h1.inc, toPix_refine r hr _ h2.inc, refine_length r lat (by have := h2.two; omega),
    Nat.add_sub_cancel]
  refine ⟨floor_mul_div r hr _, ?_⟩
  have : (((lat.length - 1) * r : Nat) : ℚ) - r * toPix lat (clip lat p.2) =
      r * ((lat.length - 1 : Nat) - toPix lat (clip lat p.2)) := by push_cast; ring
  rw [this]
  exact floor_mul_div r hr _

theorem rep_getElem {α : Type} (r : Nat) (hr : 1 ≤ r) (l : List α) (i : Nat) : (rep r l)[i]? = l[i / r]? := by
  induction l generalizing i with
  | nil => simp [rep]
  | cons a l ih =>
    have : rep r (a :: l) = List.replicate r a ++ rep r l := by simp [rep]
    rw [this]
    by_cases hi : i < r
    · rw [List.getElem?_append_left (by simpa using hi), Nat.div_eq_of_lt hi]
      simp [hi]
    · rw [List.getElem?_append_right (by simpa using hi), List.length_replicate, ih]
      have : i / r = (i - r) / r + 1 := by
        conv_lhs => rw [show i = (i - r) + r by omega]
        exact Nat.add_div_right _ (by omega)
      rw [this, List.getElem?_cons_succ]

theorem landAt_refine (r : Nat) (hr : 1 ≤ r) (mask : List (List Nat)) (c : Int × Int) :
    landAt (refineMask r mask) c = landAt mask (c.1 / r, c.2 / r) := by
  unfold landAt
  by_cases h1 : 0 ≤ c.1
  · by_cases h2 : 0 ≤ c.2
    · have hr' : (0 : Int) < r := by exact_mod_cast hr
      have d1 : 0 ≤ c.1 / (r : Int) := Int.ediv_nonneg h1 hr'.le
      have d2 : 0 ≤ c.2 / (r : Int) := Int.ediv_nonneg h2 hr'.le
      have t1 : (c.1 / (r : Int)).toNat = c.1.toNat / r := by
        obtain ⟨n, hn⟩ := Int.eq_ofNat_of_zero_le h1
        rw [hn]; rfl
      have t2 : (c.2 / (r : Int)).toNat = c.2.toNat / r := by
        obtain ⟨n, hn⟩ := Int.eq_ofNat_of_zero_le h2
        rw [hn]; rfl
      simp only [h1, h2, d1, d2, decide_true, Bool.true_and, t1, t2]
      unfold refineMask
      rw [List.getElem?_map, rep_getElem r hr]
      cases mask[c.1.toNat / r]? with
      | none => rfl
      | some row => simp only [Option.map_some, Option.bind_some, rep_getElem r hr]
    · have : ¬ 0 ≤ c.2 / (r : Int) := by
        have := Int.ediv_neg_of_neg_of_pos (by omega : c.2 < 0) (by exact_mod_cast hr : (0 : Int) < r)
        omega
      simp [h2, this]
  · have : ¬ 0 ≤ c.1 / (r : Int) := by
      have := Int.ediv_neg_of_neg_of_pos (by omega : c.1 < 0) (by exact_mod_cast hr : (0 : Int) < r)
      omega
    simp [h1, this]

/-- Refining a grid does not change where there is land. -/
theorem C69_refine (r : Nat) (hr : 1 ≤ r) (mask : List (List Nat)) (lon lat : List ℚ) (h1 : Axis lon) (h2 : Axis lat)
    (p : ℚ × ℚ) : onLand r mask lon lat p = landAt mask (toPixelInt lon lat p) := by
  obtain ⟨a, b⟩ := toPixelInt_refine r hr lon lat h1 h2 p
  unfold onLand
  rw [landAt_refine r hr, a, b]

/-- The pixel coordinate in a cell of the axis. -/
theorem toPix_cell (l : List ℚ) (h : l.Pairwise (· < ·)) (i : Nat) (hi : i + 1 < l.length) (x : ℚ) (h1 : l[i] ≤ x)
    (h2 : x ≤ l[i + 1]) : toPix l x = i + (x - l[i]) / (l[i + 1] - l[i]) := by
  induction l generalizing i with
  | nil => simp at hi
  | cons a l ih =>
    match l, ih, h, hi with
    | [], _, _, hi => simp at hi
    | b :: rest, ih, h, hi =>
      simp only [toPix]
      cases i with
      | zero =>
        simp only [List.getElem_cons_zero, List.getElem_cons_succ] at h1 h2 ⊢
        rw [if_pos (.inl h2)]
        push_cast
        ring
      | succ i =>
        have hi' : i + 1 < (b :: rest).length := by simpa using hi
        have e1 : (a :: b :: rest)[i + 1] = (b :: rest)[i] := rfl
        have e2 : (a :: b :: rest)[i + 1 + 1] = (b :: rest)[i + 1] := rfl
        rw [e1] at h1 ⊢
        rw [e2] at h2 ⊢
        have ih' := ih (List.pairwise_cons.1 h).2 i hi' h1 h2
        have hne : rest ≠ [] := by intro h; subst h; simp at hi'
        have hinc := List.pairwise_cons.1 h
        by_cases hx : x ≤ b
        · rw [if_pos (.inl hx)]
          have hab : a < b := hinc.1 b (by simp)
          have hbi : b ≤ (b :: rest)[i] := by
            cases i with
            | zero => exact le_refl _
            | succ i => exact (List.rel_of_pairwise_cons hinc.2 (List.getElem_mem _)).le
          have hxb : x = b := by linarith
          have hib : (b :: rest)[i] = b := by linarith
          have hi0 : i = 0 := by
            cases i with
            | zero => rfl
            | succ i =>
              have hlen : i < rest.length := by simp at hi'; omega
              have := List.rel_of_pairwise_cons hinc.2 (List.getElem_mem hlen)
              simp only [List.getElem_cons_succ] at hib
              linarith
          subst hi0
          simp only [List.getElem_cons_zero]
          rw [hxb, sub_self, zero_div, div_self (by linarith)]
          norm_num
        · rw [if_neg (fun h => h.elim hx hne), ih']
          push_cast
          ring

/-- A place in the cell `i, j` of the grid, counted from west and south, is land
if and only if the mask says so for this cell (its second index counts from the
north). -/
theorem C69_cell_partial (r : Nat) (hr : 1 ≤ r) (mask : List (List Nat)) (lon lat : List ℚ) (h1 : Axis lon) (h2 : Axis lat)
    (i j : Nat) (hi : i + 1 < lon.length) (hj : j + 1 < lat.length) (x y : ℚ)
    (a : lon[i] ≤ x) (b : x < lon[i + 1]) (c : lat[j] < y) (d : y ≤ lat[j + 1]) :
    onLand r mask lon lat (x, y) = true ↔ (mask[i]?).bind (·[lat.length - 2 - j]?) = some 1 := by
  rw [C69_refine r hr mask lon lat h1 h2]
  have mono : ∀ (l : List ℚ) (h : l.Pairwise (· < ·)) (n : Nat) (hn : n < l.length), l.headD 0 ≤ l[n] := by
    intro l h n hn
    cases l with
    | nil => simp at hn
    | cons a l =>
      cases n with
      | zero => exact le_refl _
      | succ n => exact (List.rel_of_pairwise_cons h (List.getElem_mem (by simpa using hn))).le
  have mono' : ∀ (l : List ℚ) (h : l.Pairwise (· < ·)) (n : Nat) (hn : n < l.length), l[n] ≤ l.getLastD 0 := by
    intro l h
    induction l with
    | nil => intro n hn; simp at hn
    | cons a l ih =>
      intro n hn
      cases n with
      | zero => exact last_ge h
      | succ n =>
        have := ih (List.pairwise_cons.1 h).2 n (by simpa using hn)
        cases l with
        | nil => simp at hn
        | cons b l => simpa [List.getLastD_cons] using this
  have cx : clip lon x = x := clip_id _ ((mono lon h1.inc i (by omega)).trans a) (b.le.trans (mono' lon h1.inc (i + 1) hi))
  have cy : clip lat y = y := clip_id _ ((mono lat h2.inc j (by omega)).trans c.le) (d.trans (mono' lat h2.inc (j + 1) hj))
  have dx : 0 < lon[i + 1] - lon[i] := by linarith
  have dy : 0 < lat[j + 1] - lat[j] := by linarith
  have px : toPixelInt lon lat (x, y) = ((i : Int), ((lat.length - 2 - j : Nat) : Int)) := by
    unfold toPixelInt toPixel
    simp only
    rw [cx, cy, toPix_cell lon h1.inc i hi x a b.le, toPix_cell lat h2.inc j hj y c.le d]
    have f1 : (x - lon[i]) / (lon[i + 1] - lon[i]) < 1 := by rw [div_lt_one dx]; linarith
    have f0 : 0 ≤ (x - lon[i]) / (lon[i + 1] - lon[i]) := div_nonneg (by linarith) dx.le
    have g1 : (y - lat[j]) / (lat[j + 1] - lat[j]) ≤ 1 := by rw [div_le_one dy]; linarith
    have g0 : 0 < (y - lat[j]) / (lat[j + 1] - lat[j]) := div_pos (by linarith) dy
    have e1 : ⌊(i : ℚ) + (x - lon[i]) / (lon[i + 1] - lon[i])⌋ = (i : Int) := by
      rw [Int.floor_eq_iff]; push_cast; constructor <;> linarith
    have e2 : ⌊((lat.length - 1 : Nat) : ℚ) - ((j : ℚ) + (y - lat[j]) / (lat[j + 1] - lat[j]))⌋ =
        ((lat.length - 2 - j : Nat) : Int) := by
      have hh : ((lat.length - 1 : Nat) : ℚ) = ((lat.length - 2 - j : Nat) : ℚ) + j + 1 := by
        exact_mod_cast (by omega : lat.length - 1 = lat.length - 2 - j + j + 1)
      rw [Int.floor_eq_iff, hh]; push_cast; constructor <;> linarith
    exact Prod.ext e1 e2
  rw [px]
  unfold landAt
  simp

example : Axis [0, 1, 3] ∧ onLand 4 [[0, 0], [1, 0]] [0, 1, 3] [0, 1, 2] (2, 3/2) = true ∧
    onLand 4 [[0, 0], [1, 0]] [0, 1, 3] [0, 1, 2] (2, 1/2) = false := by
  refine ⟨⟨by decide +kernel, by simp⟩, ?_, ?_⟩ <;> decide +kernel

/-- West and north of the grid the answer is that of the cell at the edge; a
place outside of the grid can be on land. -/
theorem C69_counterexample : onLand 1 [[0, 1], [0, 0]] [0, 1, 3] [0, 1, 2] (-50, 1/2) = true ∧
    onLand 1 [[0, 0], [0, 1]] [0, 1, 3] [0, 1, 2] (50, 1/2) = false := by
  constructor <;> decide +kernel

end Verif.RectGrid
