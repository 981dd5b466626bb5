import Verif.MapQ.GivenModel
import Mathlib.Algebra.Order.Field.Rat
/-!
# C295: polygons that are given to a map
-/
namespace Verif.MapQ.Given

/-- rows that are points: longitude and latitude -/
def Proper (p : Rows) : Prop := ∀ r ∈ p, r.length = 2

/-- the points of such rows -/
def pts (p : Rows) : List Pt := p.map fun r => (r.getD 0 0, r.getD 1 0)

/-- rows of points -/
def rows (l : List Pt) : Rows := l.map fun q => [q.1, q.2]

theorem proper_rows (l : List Pt) : Proper (rows l) := by
  intro r hr
  obtain ⟨q, _, rfl⟩ := List.mem_map.1 hr
  rfl

theorem pts_rows (l : List Pt) : pts (rows l) = l := by
  induction l with
  | nil => rfl
  | cons q t ih => simpa [pts, rows] using ih

theorem proper_flatten : ∀ {p : Rows}, Proper p → p.flatten.length % 2 = 0 ∧ pairs p.flatten = pts p
  | [], _ => ⟨rfl, rfl⟩
  | r :: t, h => by
    have hr := h r (by simp)
    obtain ⟨a, b, rfl⟩ : ∃ a b, r = [a, b] := by
      match r, hr with
      | [a, b], _ => exact ⟨a, b, rfl⟩
    obtain ⟨i1, i2⟩ := proper_flatten (p := t) (fun q hq => h q (by simp [hq]))
    constructor
    · simp only [List.flatten_cons, List.length_append, List.length_cons, List.length_nil]
      omega
    · simp only [List.flatten_cons, List.cons_append, List.nil_append, pairs, i2, pts, List.map_cons]
      rfl

theorem reshape_proper {p : Rows} (h : Proper p) : reshape p = .ok (pts p) := by
  obtain ⟨h1, h2⟩ := proper_flatten h
  have h3 : rect p = true := by
    cases p with
    | nil => rfl
    | cons r t =>
      unfold rect
      rw [List.all_eq_true]
      intro q hq
      rw [decide_eq_true_eq, h q (by simp [hq]), h r (by simp)]
  unfold reshape
  rw [if_pos ⟨h3, h1⟩, h2]

/-- C295, claim for bounds: points are kept, everything else is refused. -/
def C295_claim_bounds : Prop :=
  ∀ p : Rows, (Proper p → setBounds (.points p) = .ok (pts p)) ∧ (¬ Proper p → ∃ e, setBounds (.points p) = .error e)

/-- The corners of a square with a depth become six other points. -/
theorem C295_counterexample_bounds : ¬ C295_claim_bounds ∧
    setBounds (.points [[0, 0, 0], [10, 0, 0], [10, 10, 0], [0, 10, 0]]) = .ok [(0, 0), (0, 10), (0, 0), (10, 10), (0, 0), (10, 0)] := by
  have k : setBounds (.points [[0, 0, 0], [10, 0, 0], [10, 10, 0], [0, 10, 0]]) = .ok [(0, 0), (0, 10), (0, 0), (10, 10), (0, 0), (10, 0)] := by
    rfl
  refine ⟨fun h => ?_, k⟩
  obtain ⟨e, he⟩ := (h [[0, 0, 0], [10, 0, 0], [10, 10, 0], [0, 10, 0]]).2 (by
    intro hp
    have := hp [0, 0, 0] (by simp)
    simp at this)
  rw [k] at he
  exact absurd he nofun

/-- C295, bounds. Points are kept; rows of different lengths and an odd number of numbers are refused; nothing and 'global' are the whole world.
Missing for the full claim: points with more numbers than two, of which there is an even number in all. -/
theorem C295_bounds_partial (p : Rows) :
    (Proper p → setBounds (.points p) = .ok (pts p)) ∧
    ((∃ q ∈ p, ∃ r ∈ p, q.length ≠ r.length) → setBounds (.points p) = .error .value) ∧
    (p.flatten.length % 2 = 1 → setBounds (.points p) = .error .value) ∧
    setBounds .none = .ok world ∧ setBounds (.word true) = .ok world ∧ setBounds (.word false) = .error .value := by
  refine ⟨fun h => reshape_proper h, ?_, ?_, rfl, rfl, rfl⟩
  · rintro ⟨q, hq, r, hr, hne⟩
    show reshape p = _
    unfold reshape
    refine if_neg fun ⟨hrect, _⟩ => hne ?_
    cases p with
    | nil => simp at hq
    | cons s t =>
      unfold rect at hrect
      rw [List.all_eq_true] at hrect
      have hall : ∀ x ∈ s :: t, x.length = s.length := by
        intro x hx
        rcases List.mem_cons.1 hx with rfl | hx
        · rfl
        · exact of_decide_eq_true (hrect x hx)
      rw [hall q hq, hall r hr]
  · intro hodd
    show reshape p = _
    unfold reshape
    exact if_neg fun ⟨_, he⟩ => by omega

/-- C295, claim for polygons: a list of polygons is kept, one polygon is a list of one, an empty list is no polygon, for both kinds of area. -/
def C295_claim_area : Prop :=
  (∀ l : List (List Pt), (∀ p ∈ l, p ≠ []) → setSpillable (.polys (l.map rows)) = .ok (some l) ∧ setLand (.polys (l.map rows)) = .ok l) ∧
  (∀ p : List Pt, p ≠ [] → setSpillable (.list (rows p)) = .ok (some [p]) ∧ setLand (.list (rows p)) = .ok [p]) ∧
  (∀ p : List Pt, p ≠ [] → setSpillable (.array (rows p)) = .ok (some [p]) ∧ setLand (.array (rows p)) = .ok [p])

/-- An empty list is an IndexError as spillable area. -/
theorem C295_counterexample_empty : setSpillable (.polys []) = .error .index ∧ setLand (.polys []) = .ok [] := ⟨rfl, rfl⟩

/-- One polygon as an array is an IndexError. -/
theorem C295_counterexample_array (p : List Pt) : setSpillable (.array (rows p)) = .error .index ∧ setLand (.array (rows p)) = .error .index := ⟨rfl, rfl⟩

theorem C295_counterexample_area : ¬ C295_claim_area := by
  intro h
  have := (h.2.2 [(0, 0)] (by simp)).2
  rw [(C295_counterexample_array _).2] at this
  exact absurd this nofun

theorem appendAll_rows : ∀ (l acc : List (List Pt)), (∀ p ∈ l, p ≠ []) → appendAll acc (l.map rows) = .ok (acc ++ l)
  | [], acc, _ => by simp [appendAll]
  | p :: t, acc, h => by
    have hp : p ≠ [] := h p (by simp)
    simp only [List.map_cons, appendAll, reshape_proper (proper_rows p), pts_rows]
    rw [if_neg (fun hc => hp hc.1), appendAll_rows t _ (fun q hq => h q (by simp [hq]))]
    simp

/-- C295, polygons. Missing for the full claim: an empty list as spillable area and one polygon as an array. -/
theorem C295_area_partial :
    (∀ l : List (List Pt), l ≠ [] → (∀ p ∈ l, p ≠ []) → setSpillable (.polys (l.map rows)) = .ok (some l) ∧ setLand (.polys (l.map rows)) = .ok l) ∧
    (∀ p : List Pt, p ≠ [] → setSpillable (.list (rows p)) = .ok (some [p]) ∧ setLand (.list (rows p)) = .ok [p]) ∧
    (∀ l : List (List Pt), setSpillable (.set l) = .ok (some l) ∧ setLand (.set l) = .ok l) ∧
    setSpillable .none = .ok none ∧ setLand .none = .ok [] ∧ setLand (.polys []) = .ok [] := by
  refine ⟨?_, ?_, fun l => ⟨rfl, rfl⟩, rfl, rfl, rfl⟩
  · intro l hl hne
    cases l with
    | nil => exact absurd rfl hl
    | cons p t =>
      cases p with
      | nil => exact absurd rfl (hne [] (by simp))
      | cons q s =>
        have hb : build (.polys ((q :: s) :: t |>.map rows)) = .ok ((q :: s) :: t) := by
          have : first ((q :: s) :: t |>.map rows) = some q.1 := rfl
          simp only [build]
          rw [this]
          have := appendAll_rows ((q :: s) :: t) [] hne
          simpa using this
        constructor
        · show (build _).map some = _
          rw [hb]; rfl
        · exact hb
  · intro p hp
    cases p with
    | nil => exact absurd rfl hp
    | cons q s =>
      have hb : build (.list (rows (q :: s))) = .ok [q :: s] := by
        have := appendAll_rows [q :: s] [] (by simp)
        simpa [build, rows] using this
      constructor
      · show (build _).map some = _
        rw [hb]; rfl
      · exact hb

theorem fold_min (f : Pt → ℚ) : ∀ (l : List Pt) (m : ℚ), (l.foldl (fun m q => min m (f q)) m ≤ m ∧ ∀ q ∈ l, l.foldl (fun m q => min m (f q)) m ≤ f q) ∧
    (l.foldl (fun m q => min m (f q)) m = m ∨ ∃ q ∈ l, l.foldl (fun m q => min m (f q)) m = f q)
  | [], m => ⟨⟨le_refl _, by simp⟩, Or.inl rfl⟩
  | p :: t, m => by
    obtain ⟨⟨h1, h2⟩, h3⟩ := fold_min f t (min m (f p))
    simp only [List.foldl_cons]
    refine ⟨⟨le_trans h1 (min_le_left _ _), ?_⟩, ?_⟩
    · intro q hq
      rcases List.mem_cons.1 hq with rfl | hq
      · exact le_trans h1 (min_le_right _ _)
      · exact h2 q hq
    · rcases h3 with h3 | ⟨q, hq, h3⟩
      · rcases le_total m (f p) with h | h
        · left; rw [h3, min_eq_left h]
        · right; exact ⟨p, by simp, by rw [h3, min_eq_right h]⟩
      · right; exact ⟨q, by simp [hq], h3⟩

theorem fold_max (f : Pt → ℚ) : ∀ (l : List Pt) (m : ℚ), (m ≤ l.foldl (fun m q => max m (f q)) m ∧ ∀ q ∈ l, f q ≤ l.foldl (fun m q => max m (f q)) m) ∧
    (l.foldl (fun m q => max m (f q)) m = m ∨ ∃ q ∈ l, l.foldl (fun m q => max m (f q)) m = f q)
  | [], m => ⟨⟨le_refl _, by simp⟩, Or.inl rfl⟩
  | p :: t, m => by
    obtain ⟨⟨h1, h2⟩, h3⟩ := fold_max f t (max m (f p))
    simp only [List.foldl_cons]
    refine ⟨⟨le_trans (le_max_left _ _) h1, ?_⟩, ?_⟩
    · intro q hq
      rcases List.mem_cons.1 hq with rfl | hq
      · exact le_trans (le_max_right _ _) h1
      · exact h2 q hq
    · rcases h3 with h3 | ⟨q, hq, h3⟩
      · rcases le_total m (f p) with h | h
        · right; exact ⟨p, by simp, by rw [h3, max_eq_right h]⟩
        · left; rw [h3, max_eq_left h]
      · right; exact ⟨q, by simp [hq], h3⟩

/-- C295. The bounding box contains the bounds, and each of its sides touches them. -/
theorem C295_box (p : Pt) (l : List Pt) :
    (∀ q ∈ p :: l, (box p l).1.1 ≤ q.1 ∧ q.1 ≤ (box p l).2.1 ∧ (box p l).1.2 ≤ q.2 ∧ q.2 ≤ (box p l).2.2) ∧
    (∃ q ∈ p :: l, (box p l).1.1 = q.1) ∧ (∃ q ∈ p :: l, (box p l).2.1 = q.1) ∧ (∃ q ∈ p :: l, (box p l).1.2 = q.2) ∧ (∃ q ∈ p :: l, (box p l).2.2 = q.2) := by
  obtain ⟨⟨a1, a2⟩, a3⟩ := fold_min Prod.fst l p.1
  obtain ⟨⟨b1, b2⟩, b3⟩ := fold_min Prod.snd l p.2
  obtain ⟨⟨c1, c2⟩, c3⟩ := fold_max Prod.fst l p.1
  obtain ⟨⟨d1, d2⟩, d3⟩ := fold_max Prod.snd l p.2
  refine ⟨?_, ?_, ?_, ?_, ?_⟩
  · intro q hq
    rcases List.mem_cons.1 hq with rfl | hq
    · exact ⟨a1, c1, b1, d1⟩
    · exact ⟨a2 q hq, c2 q hq, b2 q hq, d2 q hq⟩
  · rcases a3 with h | ⟨q, hq, h⟩
    · exact ⟨p, by simp, h⟩
    · exact ⟨q, by simp [hq], h⟩
  · rcases c3 with h | ⟨q, hq, h⟩
    · exact ⟨p, by simp, h⟩
    · exact ⟨q, by simp [hq], h⟩
  · rcases b3 with h | ⟨q, hq, h⟩
    · exact ⟨p, by simp, h⟩
    · exact ⟨q, by simp [hq], h⟩
  · rcases d3 with h | ⟨q, hq, h⟩
    · exact ⟨p, by simp, h⟩
    · exact ⟨q, by simp [hq], h⟩

/-- the world from -360 to 360 -/
example : box (-360, -90) (world.drop 1) = ((-360, -90), (360, 90)) := by decide +kernel

/-- two triangles -/
example : setLand (.polys [[[0, 0], [1, 0], [0, 1]], [[5, 5], [6, 5], [5, 6]]]) = .ok [[(0, 0), (1, 0), (0, 1)], [(5, 5), (6, 5), (5, 6)]] := rfl

end Verif.MapQ.Given
