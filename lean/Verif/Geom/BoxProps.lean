import Verif.Geom.BoxModel
import Verif.Geom.PolyProps

/-!
# C40: bounding boxes

The set of points of a box is given by `PointInside`; all the other operations are characterised by the sets of their boxes.
-/

namespace Verif.Geom

open Dbl

namespace Dbl

theorem le_refl' {a : Dbl} (h : a.isNan = false) : a.le a = true := by
  cases a <;> simp [le, isNan] at h ⊢

theorem le_trans' {a b c : Dbl} (h1 : a.le b = true) (h2 : b.le c = true) : a.le c = true := by
  cases a <;> cases b <;> cases c <;> simp [le] at h1 h2 ⊢
  exact _root_.le_trans h1 h2

theorem le_total' {a b : Dbl} (ha : a.isNan = false) (hb : b.isNan = false) : a.le b = true ∨ b.le a = true := by
  cases a <;> cases b <;> simp [le, isNan] at ha hb ⊢
  exact le_total _ _

theorem lt_iff {a b : Dbl} (ha : a.isNan = false) (hb : b.isNan = false) : a.lt b = true ↔ ¬ b.le a = true := by
  cases a <;> cases b <;> simp [le, lt, isNan] at ha hb ⊢

theorem not_nan_of_le_left {a b : Dbl} (h : a.le b = true) : a.isNan = false := by
  cases a <;> simp [le, isNan] at h ⊢

theorem not_nan_of_le_right {a b : Dbl} (h : a.le b = true) : b.isNan = false := by
  cases a <;> cases b <;> simp [le, isNan] at h ⊢

theorem npMin_le {a b : Dbl} (ha : a.isNan = false) (hb : b.isNan = false) (c : Dbl) :
    c.le (a.npMin b) = true ↔ c.le a = true ∧ c.le b = true := by
  unfold npMin
  rw [ha, hb]
  simp only [Bool.false_eq_true, if_false]
  by_cases h : b.lt a = true
  · rw [if_pos h]
    have h' := (lt_iff hb ha).1 h
    have := (le_total' ha hb).resolve_left h'
    exact ⟨fun hc => ⟨le_trans' hc this, hc⟩, fun hc => hc.2⟩
  · rw [if_neg h]
    have h' : a.le b = true := by
      by_contra hc; exact h ((lt_iff hb ha).2 hc)
    exact ⟨fun hc => ⟨hc, le_trans' hc h'⟩, fun hc => hc.1⟩

theorem le_npMax {a b : Dbl} (ha : a.isNan = false) (hb : b.isNan = false) (c : Dbl) :
    (a.npMax b).le c = true ↔ a.le c = true ∧ b.le c = true := by
  unfold npMax
  rw [ha, hb]
  simp only [Bool.false_eq_true, if_false]
  by_cases h : a.lt b = true
  · rw [if_pos h]
    have h' := (lt_iff ha hb).1 h
    have := (le_total' ha hb).resolve_right h'
    exact ⟨fun hc => ⟨le_trans' this hc, hc⟩, fun hc => hc.2⟩
  · rw [if_neg h]
    have h' : b.le a = true := by
      by_contra hc; exact h ((lt_iff ha hb).2 hc)
    exact ⟨fun hc => ⟨hc, le_trans' h' hc⟩, fun hc => hc.1⟩

theorem npMin_nan {a b : Dbl} (ha : a.isNan = false) (hb : b.isNan = false) : (a.npMin b).isNan = false := by
  unfold npMin
  rw [ha, hb]
  simp only [Bool.false_eq_true, if_false]
  split <;> assumption

theorem npMax_nan {a b : Dbl} (ha : a.isNan = false) (hb : b.isNan = false) : (a.npMax b).isNan = false := by
  unfold npMax
  rw [ha, hb]
  simp only [Bool.false_eq_true, if_false]
  split <;> assumption

theorem fold_min {α : Type} (f : α → Dbl) : ∀ (l : List α) (m : Dbl), m.isNan = false → (∀ q ∈ l, (f q).isNan = false) →
    (l.foldl (fun m q => m.npMin (f q)) m).isNan = false ∧
    ∀ c : Dbl, c.le (l.foldl (fun m q => m.npMin (f q)) m) = true ↔ c.le m = true ∧ ∀ q ∈ l, c.le (f q) = true := by
  intro l
  induction l with
  | nil => intro m hm _; exact ⟨hm, fun c => by simp⟩
  | cons a l ih =>
    intro m hm hl
    obtain ⟨h1, h2⟩ := ih (m.npMin (f a)) (npMin_nan hm (hl a (by simp))) (fun q hq => hl q (List.mem_cons_of_mem _ hq))
    refine ⟨h1, fun c => ?_⟩
    rw [List.foldl_cons, h2 c, npMin_le hm (hl a (by simp))]
    simp only [List.mem_cons, forall_eq_or_imp]
    tauto

theorem fold_max {α : Type} (f : α → Dbl) : ∀ (l : List α) (m : Dbl), m.isNan = false → (∀ q ∈ l, (f q).isNan = false) →
    (l.foldl (fun m q => m.npMax (f q)) m).isNan = false ∧
    ∀ c : Dbl, (l.foldl (fun m q => m.npMax (f q)) m).le c = true ↔ m.le c = true ∧ ∀ q ∈ l, (f q).le c = true := by
  intro l
  induction l with
  | nil => intro m hm _; exact ⟨hm, fun c => by simp⟩
  | cons a l ih =>
    intro m hm hl
    obtain ⟨h1, h2⟩ := ih (m.npMax (f a)) (npMax_nan hm (hl a (by simp))) (fun q hq => hl q (List.mem_cons_of_mem _ hq))
    refine ⟨h1, fun c => ?_⟩
    rw [List.foldl_cons, h2 c, le_npMax hm (hl a (by simp))]
    simp only [List.mem_cons, forall_eq_or_imp]
    tauto

end Dbl

/-- A point without NaN. -/
def DPt.Ok (p : DPt) : Prop := p.x.isNan = false ∧ p.y.isNan = false

/-- A proper box: minima not above maxima (so no NaN). Infinite entries are allowed. -/
def Box.Ok (b : Box) : Prop := b.x0.le b.x1 = true ∧ b.y0.le b.y1 = true

/-- The set of points of a box, as observed by `PointInside`. -/
def Box.Mem (p : DPt) (b : Box) : Prop := b.pointInside p = true

theorem Box.mem_iff (p : DPt) (b : Box) : Box.Mem p b ↔
    (b.x0.le p.x = true ∧ p.x.le b.x1 = true) ∧ (b.y0.le p.y = true ∧ p.y.le b.y1 = true) := by
  unfold Box.Mem Box.pointInside
  simp only [Bool.and_eq_true]
  tauto

theorem Box.inside_iff (s b : Box) : s.inside b = true ↔
    (s.x0.le b.x0 = true ∧ b.x1.le s.x1 = true) ∧ (s.y0.le b.y0 = true ∧ b.y1.le s.y1 = true) := by
  unfold Box.inside
  simp only [Bool.and_eq_true]
  tauto

/-- The corner points of a proper box are its points. -/
theorem Box.corners {b : Box} (h : b.Ok) : Box.Mem ⟨b.x0, b.y0⟩ b ∧ Box.Mem ⟨b.x1, b.y1⟩ b := by
  rw [Box.mem_iff, Box.mem_iff]
  exact ⟨⟨⟨le_refl' (not_nan_of_le_left h.1), h.1⟩, ⟨le_refl' (not_nan_of_le_left h.2), h.2⟩⟩,
    ⟨h.1, le_refl' (not_nan_of_le_right h.1)⟩, h.2, le_refl' (not_nan_of_le_right h.2)⟩

/-- The constructor accepts a NaN-free box iff it is proper. -/
theorem C40_constructor (b : Box) (h : b.x0.isNan = false ∧ b.y0.isNan = false ∧ b.x1.isNan = false ∧ b.y1.isNan = false) :
    Box.new b = some b ↔ b.Ok := by
  obtain ⟨h1, h2, h3, h4⟩ := h
  unfold Box.new Box.Ok
  have e1 := lt_iff h3 h1
  have e2 := lt_iff h4 h2
  constructor
  · intro h
    split at h
    · exact absurd h (by simp)
    · rename_i hc
      simp only [Bool.or_eq_true, not_or] at hc
      exact ⟨by by_contra hn; exact hc.1 (e1.2 hn), by by_contra hn; exact hc.2 (e2.2 hn)⟩
  · intro h
    rw [if_neg]
    simp only [Bool.or_eq_true, not_or]
    exact ⟨fun hn => e1.1 hn h.1, fun hn => e2.1 hn h.2⟩

/-- **C40** (`Inside`).  For proper `b`: `s.Inside(b)` iff every point of `b` is in `s`. -/
theorem C40_inside (s b : Box) (hb : b.Ok) : s.inside b = true ↔ ∀ p, Box.Mem p b → Box.Mem p s := by
  constructor
  · intro h p hp
    rw [Box.inside_iff] at h
    rw [Box.mem_iff] at hp ⊢
    exact ⟨⟨le_trans' h.1.1 hp.1.1, le_trans' hp.1.2 h.1.2⟩, le_trans' h.2.1 hp.2.1, le_trans' hp.2.2 h.2.2⟩
  · intro h
    have h1 := (Box.mem_iff _ _).1 (h _ (Box.corners hb).1)
    have h2 := (Box.mem_iff _ _).1 (h _ (Box.corners hb).2)
    exact (Box.inside_iff _ _).2 ⟨⟨h1.1.1, h2.1.2⟩, h1.2.1, h2.2.2⟩

/-- A box all of whose entries are infinite and that is proper.  (`(-inf,-inf),(inf,inf)` is the usual one.) -/
theorem C40_overlaps_symm (s b : Box) : s.overlaps b = b.overlaps s := by
  unfold Box.overlaps
  rw [Bool.or_comm]
  split
  · rfl
  · rw [Bool.eq_iff_iff]
    simp only [Bool.and_eq_true]
    tauto

/-- **C40** (`Overlaps`).  For proper boxes that are not a box of four infinities, or are `InfBBox()`: `Overlaps` iff some
point is in both. -/
theorem C40_overlaps (s b : Box) (hs : s.Ok) (hb : b.Ok) (his : s.allInf = true → s = Box.inf)
    (hib : b.allInf = true → b = Box.inf) :
    s.overlaps b = true ↔ ∃ p, Box.Mem p s ∧ Box.Mem p b := by
  have hns := not_nan_of_le_left hs.1
  have hns2 := not_nan_of_le_left hs.2
  have hnb := not_nan_of_le_left hb.1
  have hnb2 := not_nan_of_le_left hb.2
  have hinf : ∀ p, DPt.Ok p → Box.Mem p Box.inf := by
    intro p hp
    rw [Box.mem_iff]
    obtain ⟨x, y⟩ := p
    cases x <;> cases y <;> simp_all [DPt.Ok, isNan, Box.inf, le]
  have hcorner : ∀ b : Box, b.Ok → DPt.Ok ⟨b.x0, b.y0⟩ := fun b hb => ⟨not_nan_of_le_left hb.1, not_nan_of_le_left hb.2⟩
  unfold Box.overlaps
  by_cases h : (s.allInf || b.allInf) = true
  · rw [if_pos h]
    simp only [true_iff]
    rw [Bool.or_eq_true] at h
    rcases h with h | h
    · refine ⟨⟨b.x0, b.y0⟩, ?_, (Box.corners hb).1⟩
      rw [his h]; exact hinf _ (hcorner b hb)
    · refine ⟨⟨s.x0, s.y0⟩, (Box.corners hs).1, ?_⟩
      rw [hib h]; exact hinf _ (hcorner s hs)
  · rw [if_neg h]
    simp only [Bool.and_eq_true]
    constructor
    · rintro ⟨⟨⟨h1, h2⟩, h3⟩, h4⟩
      refine ⟨⟨s.x0.npMax b.x0, s.y0.npMax b.y0⟩, ?_⟩
      rw [Box.mem_iff, Box.mem_iff]
      have a1 := (le_npMax hns hnb (s.x0.npMax b.x0)).1 (le_refl' (npMax_nan hns hnb))
      have a2 := (le_npMax hns2 hnb2 (s.y0.npMax b.y0)).1 (le_refl' (npMax_nan hns2 hnb2))
      exact ⟨⟨⟨a1.1, (le_npMax hns hnb _).2 ⟨hs.1, h1⟩⟩, a2.1, (le_npMax hns2 hnb2 _).2 ⟨hs.2, h3⟩⟩,
        ⟨a1.2, (le_npMax hns hnb _).2 ⟨h2, hb.1⟩⟩, a2.2, (le_npMax hns2 hnb2 _).2 ⟨h4, hb.2⟩⟩
    · rintro ⟨p, hp, hq⟩
      rw [Box.mem_iff] at hp hq
      exact ⟨⟨⟨le_trans' hq.1.1 hp.1.2, le_trans' hp.1.1 hq.1.2⟩, le_trans' hq.2.1 hp.2.2⟩, le_trans' hp.2.1 hq.2.2⟩

/-- **C40** (`Merge`).  For proper boxes the merged box is proper and is the least box containing both. -/
theorem C40_merge (s b : Box) (hs : s.Ok) (hb : b.Ok) :
    (s.merge b).Ok ∧ ∀ t : Box, t.inside (s.merge b) = true ↔ t.inside s = true ∧ t.inside b = true := by
  have hns : s.isNull = false := by
    unfold Box.isNull; rw [not_nan_of_le_left hs.1]; rfl
  have hnb : b.isNull = false := by
    unfold Box.isNull; rw [not_nan_of_le_left hb.1]; rfl
  have e : s.merge b = ⟨s.x0.npMin b.x0, s.y0.npMin b.y0, s.x1.npMax b.x1, s.y1.npMax b.y1⟩ := by
    unfold Box.merge npMin npMax
    rw [hns, hnb, not_nan_of_le_left hs.1, not_nan_of_le_left hb.1, not_nan_of_le_left hs.2, not_nan_of_le_left hb.2,
      not_nan_of_le_right hs.1, not_nan_of_le_right hb.1, not_nan_of_le_right hs.2, not_nan_of_le_right hb.2]
    simp
  rw [e]
  have sx0 := not_nan_of_le_left hs.1
  have sx1 := not_nan_of_le_right hs.1
  have sy0 := not_nan_of_le_left hs.2
  have sy1 := not_nan_of_le_right hs.2
  have bx0 := not_nan_of_le_left hb.1
  have bx1 := not_nan_of_le_right hb.1
  have by0 := not_nan_of_le_left hb.2
  have by1 := not_nan_of_le_right hb.2
  refine ⟨⟨?_, ?_⟩, fun t => ?_⟩
  · exact le_trans' ((npMin_le sx0 bx0 _).1 (le_refl' (npMin_nan sx0 bx0))).1
      (le_trans' hs.1 ((le_npMax sx1 bx1 _).1 (le_refl' (npMax_nan sx1 bx1))).1)
  · exact le_trans' ((npMin_le sy0 by0 _).1 (le_refl' (npMin_nan sy0 by0))).1
      (le_trans' hs.2 ((le_npMax sy1 by1 _).1 (le_refl' (npMax_nan sy1 by1))).1)
  · rw [Box.inside_iff, Box.inside_iff, Box.inside_iff]
    simp only [npMin_le sx0 bx0, npMin_le sy0 by0, le_npMax sx1 bx1, le_npMax sy1 by1]
    tauto

/-- **C40** (null box).  `NullBBox()` is a unit of `Merge`, and nothing is inside of it. -/
theorem C40_null (b : Box) (p : DPt) : Box.null.merge b = b ∧ b.merge Box.null = b ∧ ¬ Box.Mem p Box.null ∧
    Box.null.inside b = false := by
  refine ⟨rfl, ?_, ?_, ?_⟩
  · unfold Box.merge
    by_cases h : b.isNull = true
    · rw [if_pos h]
      unfold Box.isNull at h
      simp only [Bool.and_eq_true] at h
      obtain ⟨⟨⟨h1, h2⟩, h3⟩, h4⟩ := h
      obtain ⟨a, b, c, d⟩ := b
      cases a <;> simp [isNan] at h1
      cases b <;> simp [isNan] at h2
      cases c <;> simp [isNan] at h3
      cases d <;> simp [isNan] at h4
      rfl
    · rw [if_neg h]; rfl
  · rw [Box.mem_iff]; simp [Box.null, le]
  · simp [Box.null, Box.inside, le]

/-- **C40** (`fromPoints`).  Of NaN-free points (at least one) it is a proper box, contains them all and is inside of every
box containing them all. -/
theorem C40_fromPoints (ps : List DPt) (hne : ps ≠ []) (hok : ∀ p ∈ ps, p.Ok) :
    ∃ b, Box.fromPoints ps = some b ∧ b.Ok ∧ (∀ p ∈ ps, Box.Mem p b) ∧
      ∀ t : Box, (∀ p ∈ ps, Box.Mem p t) → t.inside b = true := by
  cases ps with
  | nil => exact absurd rfl hne
  | cons p ps =>
    have hp := hok p (by simp)
    have hx := fold_min (fun q : DPt => q.x) ps p.x hp.1 (fun q hq => (hok q (List.mem_cons_of_mem _ hq)).1)
    have hy := fold_min (fun q : DPt => q.y) ps p.y hp.2 (fun q hq => (hok q (List.mem_cons_of_mem _ hq)).2)
    have hX := fold_max (fun q : DPt => q.x) ps p.x hp.1 (fun q hq => (hok q (List.mem_cons_of_mem _ hq)).1)
    have hY := fold_max (fun q : DPt => q.y) ps p.y hp.2 (fun q hq => (hok q (List.mem_cons_of_mem _ hq)).2)
    refine ⟨_, rfl, ?_, ?_, ?_⟩
    · have a := ((hx.2 _).1 (le_refl' hx.1)).1
      have b := ((hX.2 _).1 (le_refl' hX.1)).1
      have c := ((hy.2 _).1 (le_refl' hy.1)).1
      have d := ((hY.2 _).1 (le_refl' hY.1)).1
      exact ⟨le_trans' a b, le_trans' c d⟩
    · intro q hq
      rw [Box.mem_iff]
      have a := (hx.2 _).1 (le_refl' hx.1)
      have b := (hX.2 _).1 (le_refl' hX.1)
      have c := (hy.2 _).1 (le_refl' hy.1)
      have d := (hY.2 _).1 (le_refl' hY.1)
      rcases List.mem_cons.1 hq with rfl | hq
      · exact ⟨⟨a.1, b.1⟩, c.1, d.1⟩
      · exact ⟨⟨a.2 q hq, b.2 q hq⟩, c.2 q hq, d.2 q hq⟩
    · intro t ht
      rw [Box.inside_iff]
      have h0 := (Box.mem_iff _ _).1 (ht p (by simp))
      have h1 := fun q hq => (Box.mem_iff _ _).1 (ht q (List.mem_cons_of_mem _ hq))
      exact ⟨⟨(hx.2 _).2 ⟨h0.1.1, fun q hq => (h1 q hq).1.1⟩, (hX.2 _).2 ⟨h0.1.2, fun q hq => (h1 q hq).1.2⟩⟩,
        (hy.2 _).2 ⟨h0.2.1, fun q hq => (h1 q hq).2.1⟩, (hY.2 _).2 ⟨h0.2.2, fun q hq => (h1 q hq).2.2⟩⟩

/-- **C40** (`fromBBArray`).  Of proper boxes (at least one) it is a proper box and the least containing them all. -/
theorem C40_fromBBArray (bs : List Box) (hne : bs ≠ []) (hok : ∀ b ∈ bs, b.Ok) :
    ∃ b, Box.fromBBArray bs = some b ∧ b.Ok ∧
      ∀ t : Box, t.inside b = true ↔ ∀ c ∈ bs, t.inside c = true := by
  cases bs with
  | nil => exact absurd rfl hne
  | cons p ps =>
    have hp := hok p (by simp)
    have hps := fun q hq => hok q (List.mem_cons_of_mem p hq)
    have hx := fold_min (fun q : Box => q.x0) ps p.x0 (not_nan_of_le_left hp.1) (fun q hq => not_nan_of_le_left (hps q hq).1)
    have hy := fold_min (fun q : Box => q.y0) ps p.y0 (not_nan_of_le_left hp.2) (fun q hq => not_nan_of_le_left (hps q hq).2)
    have hX := fold_max (fun q : Box => q.x1) ps p.x1 (not_nan_of_le_right hp.1) (fun q hq => not_nan_of_le_right (hps q hq).1)
    have hY := fold_max (fun q : Box => q.y1) ps p.y1 (not_nan_of_le_right hp.2) (fun q hq => not_nan_of_le_right (hps q hq).2)
    refine ⟨_, rfl, ?_, ?_⟩
    · have a := ((hx.2 _).1 (le_refl' hx.1)).1
      have b := ((hX.2 _).1 (le_refl' hX.1)).1
      have c := ((hy.2 _).1 (le_refl' hy.1)).1
      have d := ((hY.2 _).1 (le_refl' hY.1)).1
      exact ⟨le_trans' a (le_trans' hp.1 b), le_trans' c (le_trans' hp.2 d)⟩
    · intro t
      simp only [Box.inside_iff, hx.2, hy.2, hX.2, hY.2, List.mem_cons, forall_eq_or_imp]
      constructor
      · intro h
        exact ⟨⟨⟨h.1.1.1, h.1.2.1⟩, h.2.1.1, h.2.2.1⟩, fun c hc => ⟨⟨h.1.1.2 c hc, h.1.2.2 c hc⟩, h.2.1.2 c hc, h.2.2.2 c hc⟩⟩
      · intro h
        exact ⟨⟨⟨h.1.1.1, fun c hc => (h.2 c hc).1.1⟩, h.1.1.2, fun c hc => (h.2 c hc).1.2⟩,
          ⟨h.1.2.1, fun c hc => (h.2 c hc).2.1⟩, h.1.2.2, fun c hc => (h.2 c hc).2.2⟩

/-- **C40** fails with null boxes in an array: one null box makes the box of the array null, so it does not contain the
other boxes; merging one by one gives the right box. -/
theorem C40_counterexample_null : ∃ b : Box, b.Ok ∧ Box.fromBBArray [Box.null, b] = some Box.null ∧
    Box.null.merge b = b ∧ Box.null.inside b = false := by
  refine ⟨⟨.fin 0, .fin 0, .fin 1, .fin 1⟩, ?_, by decide +kernel, by decide +kernel, by decide +kernel⟩
  simp [Box.Ok, le]

/-- **C40** fails for `Overlaps` with infinite boxes: the infinite box overlaps the null box although they share no point. -/
theorem C40_counterexample_inf : Box.inf.overlaps Box.null = true ∧ ¬ ∃ p, Box.Mem p Box.inf ∧ Box.Mem p Box.null :=
  ⟨by decide, fun ⟨p, _, h⟩ => (C40_null Box.null p).2.2.1 h⟩

/-- **C40** (point test against the polygon of the box).  The point in polygon test on `AsPoly()` says inside iff the point
is in the box and not on its right or top side. -/
theorem C40_asPoly (x0 y0 x1 y1 : Rat) (hx : x0 ≤ x1) (hy : y0 ≤ y1) (p : Pt) :
    inPoly (Box.asPoly x0 y0 x1 y1) p = true ↔
      Box.Mem ⟨.fin p.x, .fin p.y⟩ ⟨.fin x0, .fin y0, .fin x1, .fin y1⟩ ∧ p.x ≠ x1 ∧ p.y ≠ y1 := by
  unfold Box.asPoly
  rw [C39_rectangle x0 x1 y0 y1 hx hy, Box.mem_iff]
  simp only [le, decide_eq_true_iff]
  constructor
  · intro h; exact ⟨⟨⟨h.1.1, h.1.2.le⟩, h.2.1, h.2.2.le⟩, h.1.2.ne, h.2.2.ne⟩
  · intro h; exact ⟨⟨h.1.1.1, lt_of_le_of_ne h.1.1.2 h.2.1⟩, h.1.2.1, lt_of_le_of_ne h.1.2.2 h.2.2⟩

/-- Witness of the hypotheses. -/
example : (⟨.fin 0, .fin 0, .fin 2, .pinf⟩ : Box).Ok ∧ (⟨.fin 1, .fin (-1), .fin 3, .fin 5⟩ : Box).Ok ∧
    (⟨.fin 0, .fin 0, .fin 2, .pinf⟩ : Box).merge ⟨.fin 1, .fin (-1), .fin 3, .fin 5⟩ = ⟨.fin 0, .fin (-1), .fin 3, .pinf⟩ := by
  refine ⟨by simp [Box.Ok, le], by constructor <;> decide +kernel, by decide +kernel⟩

/-- **C40** (equality).  Two boxes are equal exactly if both are the null box, or all entries agree and none is NaN; so
equality of boxes is symmetric, a box equals itself unless only part of it is NaN, and the null box equals no other. -/
theorem C40_eq (s b : Box) : (s.beq b = true ↔
      (s = Box.null ∧ b = Box.null) ∨ (s = b ∧ s.x0 ≠ .nan ∧ s.y0 ≠ .nan ∧ s.x1 ≠ .nan ∧ s.y1 ≠ .nan)) ∧
    s.beq b = b.beq s ∧ Box.null.beq Box.null = true ∧ (b ≠ Box.null → Box.null.beq b = false ∧ b.beq Box.null = false) := by
  have hn : ∀ d : Dbl, d.isNan = true ↔ d = .nan := by intro d; cases d <;> simp [Dbl.isNan]
  have he : ∀ a d : Dbl, a.eq d = true ↔ a = d ∧ a ≠ .nan := by
    intro a d; cases a <;> cases d <;> simp [Dbl.eq]
  have hnull : ∀ b : Box, b.isNull = true ↔ b = Box.null := by
    intro b; cases b; simp [Box.isNull, Box.null, hn, and_assoc]
  have key : ∀ s b : Box, s.beq b = true ↔ (s = Box.null ∧ b = Box.null) ∨
      (s = b ∧ s.x0 ≠ .nan ∧ s.y0 ≠ .nan ∧ s.x1 ≠ .nan ∧ s.y1 ≠ .nan) := by
    intro s b
    unfold Box.beq
    by_cases h : s = Box.null ∧ b = Box.null
    · rw [if_pos (by rw [Bool.and_eq_true, hnull, hnull]; exact h)]
      simp [h]
    · rw [if_neg (by rw [Bool.and_eq_true, hnull, hnull]; exact h)]
      simp only [Bool.and_eq_true, he, h, false_or]
      cases s; cases b
      simp only [Box.mk.injEq]
      tauto
  have hcomm : s.beq b = b.beq s := by
    rw [Bool.eq_iff_iff, key, key]
    constructor
    · rintro (⟨h1, h2⟩ | ⟨rfl, h⟩)
      · exact Or.inl ⟨h2, h1⟩
      · exact Or.inr ⟨rfl, h⟩
    · rintro (⟨h1, h2⟩ | ⟨rfl, h⟩)
      · exact Or.inl ⟨h2, h1⟩
      · exact Or.inr ⟨rfl, h⟩
  refine ⟨key s b, hcomm, by decide, fun hb => ?_⟩
  constructor
  · rw [Bool.eq_false_iff]
    intro h
    rcases (key _ _).1 h with ⟨_, h2⟩ | ⟨h1, h2, _⟩
    · exact hb h2
    · exact h2 rfl
  · rw [Bool.eq_false_iff]
    intro h
    rcases (key _ _).1 h with ⟨h2, _⟩ | ⟨h1, h2, _⟩
    · exact hb h2
    · exact hb h1

example : (⟨.fin 0, .fin 0, .fin 1, .fin 2⟩ : Box).beq ⟨.fin 0, .fin 0, .fin 1, .fin 2⟩ = true ∧
    (⟨.fin 0, .fin 0, .fin 1, .fin 2⟩ : Box).beq Box.null = false := by decide +kernel

end Verif.Geom
