import Verif.Geom.SetModel
import Mathlib.Data.List.Induction

/-!
# C41 (polygon sets) and C42 (thinning)
-/

namespace Verif.Geom

variable {M : Type}

/-! ## C41 -/

/-- Abstract contents: the state that a list of polygons should give. -/
def repr (ps : List (PolyM M)) : PSet M :=
  { points := ps.flatMap PolyM.pts
    index := (List.range (ps.length + 1)).map (fun (i : Nat) => ((ps.take i).flatMap PolyM.pts).length)
    mdata := ps.map PolyM.mdata }

theorem setLast_append (a rows : List Pt) (h : rows.length ≠ 0) :
    PSet.setLast (a ++ List.replicate rows.length ⟨0, 0⟩) rows = some (a ++ rows) := by
  unfold PSet.setLast
  rw [if_neg h]
  simp

theorem repr_append (ps : List (PolyM M)) (p : PolyM M) :
    repr (ps ++ [p]) = ⟨(repr ps).points ++ p.pts, (repr ps).index ++ [((repr ps).points ++ p.pts).length],
      (repr ps).mdata ++ [p.mdata]⟩ := by
  unfold repr
  simp only [List.flatMap_append, List.flatMap_cons, List.flatMap_nil, List.append_nil, List.length_append,
    List.length_cons, List.length_nil, List.map_append, List.map_cons, List.map_nil, PSet.mk.injEq, true_and, and_true]
  rw [List.range_succ, List.map_append]
  congr 1
  · apply List.map_congr_left
    intro i hi
    rw [List.mem_range] at hi
    rw [List.take_append_of_le_length (by omega)]
  · simp [List.take_of_length_le]

theorem append_repr (ps : List (PolyM M)) (p : PolyM M) (h : p.pts ≠ [] ∨ ps.flatMap PolyM.pts = []) :
    PSet.append (repr ps) p = some (repr (ps ++ [p])) := by
  rw [repr_append]
  unfold PSet.append
  by_cases hp : p.pts.length = 0
  · have hp' : p.pts = [] := List.length_eq_zero_iff.1 hp
    have hps := h.resolve_left (fun hh => hh hp')
    have : (repr ps).points = [] := hps
    rw [this, hp']
    simp [PSet.setLast]
  · rw [setLast_append _ _ hp]

/-- No empty polygon comes after a non-empty one. -/
def NoEmptyAfter : List (PolyM M) → Prop
  | [] => True
  | p :: ps => (p.pts ≠ [] → ∀ q ∈ ps, q.pts ≠ []) ∧ NoEmptyAfter ps

theorem appendAll_append (s : PSet M) (l r : List (PolyM M)) :
    PSet.appendAll s (l ++ r) = (PSet.appendAll s l).bind (fun t => PSet.appendAll t r) := by
  induction l generalizing s with
  | nil => rfl
  | cons a l ih =>
    simp only [List.cons_append, PSet.appendAll]
    cases PSet.append s a with
    | none => rfl
    | some t => exact ih t

theorem noEmptyAfter_snoc (ps : List (PolyM M)) (p : PolyM M) : NoEmptyAfter (ps ++ [p]) ↔
    NoEmptyAfter ps ∧ (p.pts ≠ [] ∨ ps.flatMap PolyM.pts = []) := by
  induction ps with
  | nil => simp [NoEmptyAfter]
  | cons a ps ih =>
    simp only [List.cons_append, NoEmptyAfter, ih, List.flatMap_cons, List.append_eq_nil_iff, List.mem_append,
      List.mem_singleton]
    constructor
    · rintro ⟨h1, h2, h3⟩
      refine ⟨⟨fun ha q hq => h1 ha q (Or.inl hq), h2⟩, ?_⟩
      by_cases hp : p.pts = []
      · right
        refine ⟨?_, h3.resolve_left (fun h => h hp)⟩
        by_contra ha
        exact h1 ha p (Or.inr rfl) hp
      · exact Or.inl hp
    · rintro ⟨⟨h1, h2⟩, h3⟩
      refine ⟨?_, h2, h3.imp id And.right⟩
      rintro ha q (hq | rfl)
      · exact h1 ha q hq
      · rcases h3 with h3 | h3
        · exact h3
        · exact absurd h3.1 ha

theorem empty_eq : (PSet.empty : PSet M) = repr [] := rfl

theorem appendAll_repr (ps : List (PolyM M)) (h : NoEmptyAfter ps) : PSet.appendAll PSet.empty ps = some (repr ps) := by
  induction ps using List.reverseRecOn with
  | nil => rfl
  | append_singleton ps p ih =>
    obtain ⟨h1, h2⟩ := (noEmptyAfter_snoc ps p).1 h
    rw [appendAll_append, ih h1]
    simp only [Option.bind_some, PSet.appendAll]
    rw [append_repr ps p h2]

theorem repr_index_length (ps : List (PolyM M)) : (repr ps).index.length = ps.length + 1 := by
  simp [repr]

theorem slice_flatMap (ps : List (PolyM M)) (i : Nat) (h : i < ps.length) :
    PSet.slice (ps.flatMap PolyM.pts) ((ps.take i).flatMap PolyM.pts).length ((ps.take (i + 1)).flatMap PolyM.pts).length
      = ps[i].pts := by
  have e1 : ps.flatMap PolyM.pts = (ps.take (i + 1)).flatMap PolyM.pts ++ (ps.drop (i + 1)).flatMap PolyM.pts := by
    rw [← List.flatMap_append, List.take_append_drop]
  have e2 : (ps.take (i + 1)).flatMap PolyM.pts = (ps.take i).flatMap PolyM.pts ++ ps[i].pts := by
    rw [List.take_succ_eq_append_getElem h, List.flatMap_append]; simp
  unfold PSet.slice
  rw [e1, List.take_left, e2, List.drop_left]

theorem getNat_repr (ps : List (PolyM M)) (i : Nat) : PSet.getNat (repr ps) i = ps[i]? := by
  unfold PSet.getNat
  by_cases h : i < ps.length
  · have e1 : (repr ps).index[i]? = some ((ps.take i).flatMap PolyM.pts).length := by
      unfold repr; simp only; rw [List.getElem?_map, List.getElem?_range (by omega)]; rfl
    have e2 : (repr ps).index[i + 1]? = some ((ps.take (i + 1)).flatMap PolyM.pts).length := by
      unfold repr; simp only; rw [List.getElem?_map, List.getElem?_range (by omega)]; rfl
    have e3 : (repr ps).mdata[i]? = some ps[i].mdata := by
      unfold repr; simp only; rw [List.getElem?_map, List.getElem?_eq_getElem h]; rfl
    rw [e1, e2, e3, List.getElem?_eq_getElem h]
    simp only [Option.some.injEq]
    have := slice_flatMap ps i h
    show (⟨PSet.slice (ps.flatMap PolyM.pts) _ _, _⟩ : PolyM M) = _
    rw [this]
  · have e3 : (repr ps).mdata[i]? = none := by
      unfold repr; simp only; rw [List.getElem?_map, List.getElem?_eq_none (by omega)]; rfl
    have e4 : ps[i]? = none := List.getElem?_eq_none (by omega)
    rw [e3, e4]
    cases (repr ps).index[i]? <;> cases (repr ps).index[i + 1]? <;> rfl

/-- Specification: Python's indexing of the list of the appended polygons. -/
def pyIndex {α : Type} (l : List α) (i : Int) : Option α :=
  if 0 ≤ i then l[i.toNat]? else if -(l.length : Int) ≤ i then l[(l.length + i).toNat]? else none

theorem getItem_repr (ps : List (PolyM M)) (i : Int) : PSet.getItem (repr ps) i = pyIndex ps i := by
  unfold PSet.getItem pyIndex
  rw [repr_index_length]
  push_cast
  simp only [add_sub_cancel_right]
  by_cases h0 : 0 ≤ i
  · rw [if_pos h0]
    by_cases h1 : i > (ps.length : Int)
    · rw [if_pos h1, List.getElem?_eq_none (by omega)]
    · rw [if_neg h1, if_neg (by omega), getNat_repr]
  · rw [if_neg h0, if_neg (by omega), if_pos (by omega)]
    by_cases h2 : i < -(ps.length : Int)
    · rw [if_pos h2, if_neg (by omega)]
    · rw [if_neg h2, if_pos (by omega), getNat_repr]

theorem mapM_some {α β : Type} (f : α → Option β) (g : α → β) (l : List α) (h : ∀ a ∈ l, f a = some (g a)) :
    l.mapM f = some (l.map g) := by
  induction l with
  | nil => rfl
  | cons a l ih =>
    rw [List.mapM_cons, h a (by simp), ih (fun b hb => h b (List.mem_cons_of_mem _ hb))]
    rfl

/-- **C41** (partial: no empty polygon after a non-empty one).  After appending any polygons to a new set, `len` is their
number, indexing (also with negative and out-of-range indices) is indexing of the list of polygons with their metadata,
and iterating gives them in order. -/
theorem C41_set_partial (ps : List (PolyM M)) (h : NoEmptyAfter ps) :
    ∃ s, PSet.appendAll PSet.empty ps = some s ∧ s.len = ps.length ∧ (∀ i, s.getItem i = pyIndex ps i) ∧
      s.iter = some ps := by
  refine ⟨repr ps, appendAll_repr ps h, ?_, fun i => getItem_repr ps i, ?_⟩
  · unfold PSet.len; rw [repr_index_length]; rfl
  · unfold PSet.iter
    rw [repr_index_length, Nat.add_sub_cancel]
    cases ps with
    | nil => rfl
    | cons p0 ps0 =>
    rw [mapM_some _ (fun (i : Nat) => (p0 :: ps0).getD i p0)]
    · congr 1
      apply List.ext_getElem
      · simp
      · intro i h1 h2
        simp only [List.getElem_map, List.getElem_range]
        rw [List.getD_eq_getElem?_getD, List.getElem?_eq_getElem h2]; rfl
    · intro i hi
      rw [List.mem_range] at hi
      rw [getItem_repr, pyIndex, if_pos (by omega), Int.toNat_natCast, List.getD_eq_getElem?_getD,
        List.getElem?_eq_getElem hi]; rfl

/-- The missing part fails: appending an empty polygon to a set that has points raises, for every such set. -/
theorem C41_append_empty (s : PSet M) (m : M) (h : s.points ≠ []) : s.append ⟨[], m⟩ = none := by
  unfold PSet.append PSet.setLast
  have : s.points.length ≠ 0 := fun h' => h (List.length_eq_zero_iff.1 h')
  simp [h]

/-- **C41** (exactly the histories that work). -/
theorem C41_append_iff (ps : List (PolyM M)) : (PSet.appendAll PSet.empty ps).isSome = true ↔ NoEmptyAfter ps := by
  constructor
  · intro h
    induction ps using List.reverseRecOn with
    | nil => trivial
    | append_singleton ps p ih =>
      rw [appendAll_append] at h
      cases hs : PSet.appendAll PSet.empty ps with
      | none => rw [hs] at h; simp at h
      | some t =>
        have hn := ih (by rw [hs]; rfl)
        have ht : t = repr ps := by
          have := appendAll_repr ps hn
          rw [hs] at this; exact Option.some.inj this
        rw [noEmptyAfter_snoc]
        refine ⟨hn, ?_⟩
        by_contra hc
        rw [not_or, not_not] at hc
        rw [hs, ht] at h
        simp only [Option.bind_some, PSet.appendAll] at h
        have : p = ⟨[], p.mdata⟩ := by cases p; simp at hc; simp [hc.1]
        rw [this, C41_append_empty _ _ hc.2] at h
        simp at h
  · intro h; rw [appendAll_repr ps h]; rfl

/-- **C41** fails for equality: two sets with different polygons are equal if the points and metadata, put one after the other,
are the same. -/
theorem C41_counterexample_eq : ∃ ps qs : List (PolyM Nat), ps ≠ qs ∧ NoEmptyAfter ps ∧ NoEmptyAfter qs ∧
    (repr ps).beq (repr qs) = true := by
  refine ⟨[⟨[⟨0, 0⟩, ⟨1, 0⟩], 7⟩, ⟨[⟨1, 1⟩], 7⟩], [⟨[⟨0, 0⟩], 7⟩, ⟨[⟨1, 0⟩, ⟨1, 1⟩], 7⟩], by decide, ?_, ?_, by decide⟩ <;>
  simp [NoEmptyAfter]

/-- **C41** (equality, partial).  If the polygons have pairwise the same numbers of points, `==` is equality of the polygons. -/
theorem C41_eq_partial [DecidableEq M] (ps qs : List (PolyM M))
    (hl : ps.map (fun p => p.pts.length) = qs.map (fun p => p.pts.length)) :
    (repr ps).beq (repr qs) = true ↔ ps = qs := by
  constructor
  · intro h
    unfold PSet.beq repr at h
    simp only [Bool.and_eq_true, decide_eq_true_iff] at h
    obtain ⟨h1, h2⟩ := h
    induction ps generalizing qs with
    | nil => cases qs with
      | nil => rfl
      | cons => simp at hl
    | cons p ps ih => cases qs with
      | nil => simp at hl
      | cons q qs =>
        simp only [List.map_cons, List.cons.injEq, List.flatMap_cons] at hl h1 h2
        have := List.append_inj h1 hl.1
        rw [ih qs hl.2 this.2 h2.2]
        cases p; cases q; simp_all
  · rintro rfl
    simp [PSet.beq]

example : NoEmptyAfter [(⟨[], 1⟩ : PolyM Nat), ⟨[⟨0, 0⟩, ⟨1, 0⟩], 2⟩, ⟨[⟨5, 5⟩], 3⟩] ∧
    ¬ NoEmptyAfter [(⟨[⟨0, 0⟩], 1⟩ : PolyM Nat), ⟨[], 2⟩] := by
  simp [NoEmptyAfter]

/-! ## C42 -/

/-- Specification: drop sequential duplicates. -/
def dedupSeq {α : Type} [DecidableEq α] : List α → List α
  | [] => []
  | [a] => [a]
  | a :: b :: r => if a = b then dedupSeq (b :: r) else a :: dedupSeq (b :: r)

theorem dedupSeq_cons_of_dedup {α : Type} [DecidableEq α] (a : α) (l : List α) :
    dedupSeq (a :: a :: l) = dedupSeq (a :: l) := by simp [dedupSeq]

/-- What `thinLoop` does to the drawn points. -/
theorem dedup_thinLoop (f : Pt → Int × Int) (tail : List (Int × Int)) : ∀ (l : List Pt) (o : Int × Int),
    dedupSeq (o :: ((thinLoop f o l).map f ++ tail)) = dedupSeq (o :: (l.map f ++ tail)) := by
  intro l
  induction l with
  | nil => intro o; rfl
  | cons p l ih =>
    intro o
    unfold thinLoop
    by_cases h : f p = o
    · rw [if_pos h, List.map_cons, h, ih o]
      rw [List.cons_append, dedupSeq_cons_of_dedup]
    · rw [if_neg h]
      simp only [List.map_cons, List.cons_append, dedupSeq]
      have hne : ¬ o = f p := fun e => h e.symm
      rw [if_neg hne, if_neg hne, ih (f p)]

theorem thinLoop_nil (f : Pt → Int × Int) : ∀ (l : List Pt) (o : Int × Int), thinLoop f o l = [] ↔ ∀ q ∈ l, f q = o := by
  intro l
  induction l with
  | nil => intro o; simp [thinLoop]
  | cons p l ih =>
    intro o
    unfold thinLoop
    by_cases h : f p = o
    · rw [if_pos h, ih, h]; simp [h]
    · rw [if_neg h]; simp [h]

theorem thinLoop_sublist (f : Pt → Int × Int) : ∀ (l : List Pt) (o : Int × Int), (thinLoop f o l).Sublist l := by
  intro l
  induction l with
  | nil => intro o; exact List.Sublist.refl _
  | cons p l ih =>
    intro o
    unfold thinLoop
    split
    · exact (ih _).cons _
    · exact (ih _).cons_cons _

theorem thinLoop_head (f : Pt → Int × Int) (o : Pt) (l : List Pt) : thinLoop f (f o) (o :: l) = thinLoop f (f o) l := by
  rw [thinLoop, if_pos rfl]

theorem closed_split (o : Pt) (rest : List Pt) (hr : rest ≠ []) (h : o = (o :: rest).getLast (by simp)) :
    ∃ mid, rest = mid ++ [o] := by
  refine ⟨rest.dropLast, ?_⟩
  rw [List.getLast_cons hr] at h
  conv_lhs => rw [← List.dropLast_append_getLast hr]
  rw [← h]

/-- **C42** (drawing).  For every drawing function `f` from points to pixels and every polygon that is not drawn as a
single pixel, thinning with `f` gives a polygon drawn as the same sequence of pixels (sequential duplicates dropped), whose
vertices are a subsequence of the original ones starting with the first, and that is closed if the original was. -/
theorem C42_thin (f : Pt → Int × Int) (poly : List Pt) (h : ∃ a ∈ poly, ∃ b ∈ poly, f a ≠ f b) :
    ∃ t, thinWith f poly = some t ∧ dedupSeq (t.map f) = dedupSeq (poly.map f) ∧ t.Sublist poly ∧
      t.head? = poly.head? ∧ (poly.getLast? = poly.head? → t.getLast? = t.head?) := by
  obtain ⟨a, ha, b, hb, hab⟩ := h
  cases poly with
  | nil => simp at ha
  | cons o rest =>
    unfold thinWith
    simp only
    by_cases hl : o = (o :: rest).getLast (by simp)
    · rw [decide_eq_true hl]
      simp only [if_true]
      by_cases hr : rest = []
      · subst hr
        simp at ha hb
        rw [ha, hb] at hab
        exact absurd rfl hab
      · obtain ⟨mid, rfl⟩ := closed_split o rest hr hl
        have e : (o :: (mid ++ [o])).dropLast = o :: mid := by
          rw [← List.cons_append, List.dropLast_concat]
        rw [e, thinLoop_head]
        have hne : thinLoop f (f o) mid ≠ [] := by
          intro hn
          rw [thinLoop_nil] at hn
          apply hab
          have : ∀ q ∈ o :: (mid ++ [o]), f q = f o := by
            intro q hq
            simp only [List.mem_cons, List.mem_append, List.not_mem_nil, or_false] at hq
            rcases hq with rfl | hq | rfl
            · rfl
            · exact hn q hq
            · rfl
          rw [this a ha, this b hb]
        have hlen : (o :: thinLoop f (f o) mid).length > 1 := by
          have := List.length_pos_of_ne_nil hne
          simp; omega
        rw [if_pos hlen]
        refine ⟨_, rfl, ?_, ?_, ?_, ?_⟩
        · have := dedup_thinLoop f [f o] mid (f o)
          simpa using this
        · rw [List.cons_append]
          exact ((thinLoop_sublist f mid (f o)).append (List.Sublist.refl _)).cons_cons _
        · simp
        · intro _; rw [List.getLast?_concat]; simp
    · rw [decide_eq_false hl]
      simp only [if_false, Bool.false_eq_true]
      rw [thinLoop_head]
      have hne : thinLoop f (f o) rest ≠ [] := by
        intro hn
        rw [thinLoop_nil] at hn
        apply hab
        have : ∀ q ∈ o :: rest, f q = f o := by
          intro q hq
          rcases List.mem_cons.1 hq with rfl | hq
          · rfl
          · exact hn q hq
        rw [this a ha, this b hb]
      have hlen : (o :: thinLoop f (f o) rest).length > 1 := by
        have := List.length_pos_of_ne_nil hne
        simp; omega
      rw [if_pos hlen]
      refine ⟨_, rfl, ?_, ?_, ?_, ?_⟩
      · have := dedup_thinLoop f [] rest (f o)
        simpa using this
      · exact (thinLoop_sublist f rest (f o)).cons_cons _
      · simp
      · intro hc
        exfalso; apply hl
        rw [List.getLast?_eq_getLast_of_ne_nil (by simp)] at hc
        simp only [List.head?_cons, Option.some.injEq] at hc
        exact hc.symm

/-- **C42** (removal).  A polygon drawn as one pixel becomes the empty polygon; an empty polygon raises. -/
theorem C42_one_pixel (f : Pt → Int × Int) (poly : List Pt) (hne : poly ≠ []) (h : ∀ a ∈ poly, ∀ b ∈ poly, f a = f b) :
    thinWith f poly = some [] := by
  cases poly with
  | nil => exact absurd rfl hne
  | cons o rest =>
    unfold thinWith
    simp only
    have : ∀ l : List Pt, (∀ q ∈ l, q ∈ o :: rest) → thinLoop f (f o) l = [] := by
      intro l hl
      rw [thinLoop_nil]
      intro q hq
      exact h q (hl q hq) o (by simp)
    rw [this]
    · simp
    · intro q hq
      split at hq
      · exact List.dropLast_subset _ hq
      · exact hq

theorem C42_empty (f : Pt → Int × Int) : thinWith f [] = none := rfl

/-- The drawing function of a `GeoProjection` (`projections.py` 257-274): centre (cx, cy), scale (s, -s), offset (ox, oy),
rounded down. -/
def drawGeo (cx cy s ox oy : Rat) (p : Pt) : Int × Int :=
  (((p.x - cx) * s + ox).floor, ((p.y - cy) * (-s) + oy).floor)

/-- **C42** fails for the projection that draws: the thinning grid (rounded multiples of the scale, counted from the origin
of the coordinates) is not the grid of pixels (shifted by the centre and offset, rounded down).  A triangle two pixels wide
in the image may be thinned to nothing. -/
theorem C42_counterexample : ∃ poly : List Pt,
    thin 1 1 poly = some [] ∧ dedupSeq (poly.map (drawGeo 0 0 1 0 0)) = [(0, 0), (-1, 0), (-1, -1), (0, 0)] := by
  refine ⟨[⟨1 / 4, -1 / 4⟩, ⟨-1 / 4, -1 / 4⟩, ⟨-1 / 4, 1 / 4⟩, ⟨1 / 4, -1 / 4⟩], ?_, ?_⟩ <;> decide +kernel

theorem npRound_bounds (q : Rat) : (npRound q : Rat) - 1 / 2 ≤ q ∧ q ≤ (npRound q : Rat) + 1 / 2 := by
  have h1 : (q.floor : Rat) ≤ q := by exact_mod_cast Int.floor_le q
  have h2 : q < (q.floor : Rat) + 1 := by exact_mod_cast Int.lt_floor_add_one q
  unfold npRound
  simp only
  split
  · constructor <;> linarith
  · split
    · push_cast; constructor <;> linarith
    · split
      · constructor <;> linarith
      · push_cast; constructor <;> linarith

theorem floor_close {a b : Rat} (h : |a - b| ≤ 1) : |a.floor - b.floor| ≤ 1 := by
  have a1 : (a.floor : Rat) ≤ a := by exact_mod_cast Int.floor_le a
  have a2 : a < (a.floor : Rat) + 1 := by exact_mod_cast Int.lt_floor_add_one a
  have b1 : (b.floor : Rat) ≤ b := by exact_mod_cast Int.floor_le b
  have b2 : b < (b.floor : Rat) + 1 := by exact_mod_cast Int.lt_floor_add_one b
  rw [abs_le] at h ⊢
  have h1 : (a.floor : Rat) - b.floor < 2 := by linarith [h.2]
  have h2 : (-2 : Rat) < (a.floor : Rat) - b.floor := by linarith [h.1]
  have h1' : a.floor - b.floor < 2 := by exact_mod_cast h1
  have h2' : -2 < a.floor - b.floor := by exact_mod_cast h2
  constructor <;> omega

/-- **C42** (what holds for the drawing projection).  Two points that thinning takes for the same are drawn at most one pixel
apart in each direction, whatever the centre and offset. -/
theorem C42_within_one_pixel (cx cy s ox oy : Rat) (p q : Pt) (h : scalePt s s p = scalePt s s q) :
    |(drawGeo cx cy s ox oy p).1 - (drawGeo cx cy s ox oy q).1| ≤ 1 ∧
    |(drawGeo cx cy s ox oy p).2 - (drawGeo cx cy s ox oy q).2| ≤ 1 := by
  unfold scalePt at h
  simp only [Prod.mk.injEq] at h
  obtain ⟨hx, hy⟩ := h
  have x1 := npRound_bounds (p.x * s)
  have x2 := npRound_bounds (q.x * s)
  have y1 := npRound_bounds (p.y * s)
  have y2 := npRound_bounds (q.y * s)
  rw [hx] at x1
  rw [hy] at y1
  constructor
  · apply floor_close
    rw [abs_le]
    constructor <;> nlinarith [x1.1, x1.2, x2.1, x2.2]
  · apply floor_close
    rw [abs_le]
    constructor <;> nlinarith [y1.1, y1.2, y2.1, y2.2]

/-- Witness: a closed square thinned to three of its corners and closed again. -/
example : thin 1 1 [⟨0, 0⟩, ⟨1 / 4, 0⟩, ⟨3, 0⟩, ⟨3, 3⟩, ⟨1 / 8, 1 / 8⟩, ⟨0, 0⟩]
    = some [⟨0, 0⟩, ⟨3, 0⟩, ⟨3, 3⟩, ⟨1 / 8, 1 / 8⟩, ⟨0, 0⟩] ∧ scalePt 1 1 ⟨0, 0⟩ ≠ scalePt 1 1 ⟨3, 0⟩ := by
  decide +kernel

/-- Thinning of one polygon of a set: its thinned points with its metadata; nothing if they fall into one pixel. -/
def thinOne (f : Pt → Int × Int) (p : PolyM M) : Option (PolyM M) :=
  match thinWith f p.pts with
  | none => none
  | some [] => none
  | some (q :: qs) => some ⟨q :: qs, p.mdata⟩

theorem thin_fold (sx sy : Rat) (ps acc : List (PolyM M)) (hps : ∀ p ∈ ps, p.pts ≠ []) (hacc : ∀ p ∈ acc, p.pts ≠ []) :
    ps.foldl (fun acc p => match acc with
      | none => none
      | some t => match Geom.thin sx sy p.pts with
        | none => none
        | some q => if q.length = 0 then some t else PSet.append t ⟨q, p.mdata⟩) (some (repr acc)) =
    some (repr (acc ++ ps.filterMap (thinOne (scalePt sx sy)))) := by
  induction ps generalizing acc with
  | nil => simp
  | cons p ps ih =>
    rw [List.foldl_cons]
    have hp := hps p List.mem_cons_self
    have hps' := fun q hq => hps q (List.mem_cons_of_mem p hq)
    unfold Geom.thin at ih ⊢
    cases ht : thinWith (scalePt sx sy) p.pts with
    | none =>
      cases hpp : p.pts with
      | nil => exact absurd hpp hp
      | cons o rest => rw [hpp] at ht; unfold thinWith at ht; simp only at ht; split at ht <;> split at ht <;> cases ht
    | some q =>
      simp only
      cases q with
      | nil =>
        have : thinOne (scalePt sx sy) p = none := by unfold thinOne; rw [ht]
        rw [if_pos List.length_nil, ih acc hps' hacc, List.filterMap_cons_none this]
      | cons a qs =>
        have : thinOne (scalePt sx sy) p = some ⟨a :: qs, p.mdata⟩ := by unfold thinOne; rw [ht]
        rw [if_neg (by simp), append_repr acc _ (Or.inl (by simp)), ih _ hps', List.filterMap_cons_some this]
        · simp
        · intro q hq
          rcases List.mem_append.1 hq with h | h
          · exact hacc q h
          · rw [List.mem_singleton.1 h]; simp

/-- **C42** (sets).  Thinning a set of non-empty polygons gives the set of the thinned polygons, in the same order and with
their metadata, without those that fall into one pixel. -/
theorem C42_set (sx sy : Rat) (ps : List (PolyM M)) (hps : ∀ p ∈ ps, p.pts ≠ []) :
    ∃ s t, PSet.appendAll PSet.empty ps = some s ∧ PSet.thin sx sy s = some t ∧
      t.iter = some (ps.filterMap (thinOne (scalePt sx sy))) ∧
      PSet.appendAll PSet.empty (ps.filterMap (thinOne (scalePt sx sy))) = some t := by
  have hne : ∀ l : List (PolyM M), (∀ p ∈ l, p.pts ≠ []) → NoEmptyAfter l := by
    intro l
    induction l with
    | nil => exact fun _ => trivial
    | cons a l ih =>
      intro h
      exact ⟨fun _ q hq => h q (List.mem_cons_of_mem _ hq), ih (fun q hq => h q (List.mem_cons_of_mem _ hq))⟩
  have hth : ∀ p ∈ ps.filterMap (thinOne (scalePt sx sy)), p.pts ≠ [] := by
    intro p hp
    obtain ⟨q, _, hq⟩ := List.mem_filterMap.1 hp
    unfold thinOne at hq
    split at hq
    · exact absurd hq (by simp)
    · exact absurd hq (by simp)
    · cases hq; simp
  obtain ⟨s, h1, _, _, h4⟩ := C41_set_partial ps (hne ps hps)
  obtain ⟨t, h1', _, _, h4'⟩ := C41_set_partial _ (hne _ hth)
  refine ⟨s, t, h1, ?_, h4', h1'⟩
  unfold PSet.thin
  rw [h4]
  simp only
  refine (thin_fold sx sy ps [] hps (by simp)).trans ?_
  rw [List.nil_append, ← h1', appendAll_repr _ (hne _ hth)]

/-- two polygons, one of them within a pixel -/
example : [(⟨[⟨0, 0⟩, ⟨1/10, 0⟩, ⟨0, 1/10⟩], 7⟩ : PolyM Nat), ⟨[⟨0, 0⟩, ⟨1/10, 0⟩, ⟨5, 0⟩, ⟨5, 5⟩], 8⟩].filterMap
    (thinOne (scalePt 1 1)) = [⟨[⟨0, 0⟩, ⟨5, 0⟩, ⟨5, 5⟩], 8⟩] := by decide +kernel

end Verif.Geom
