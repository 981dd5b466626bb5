import Verif.Geom.ClockwiseModel
import Verif.Geom.PinPProps

/-!
# C194: the orientation of a polygon
-/

namespace Verif.Geom

/-- Specification: twice the signed area of the closed polygon as the sum over the triangles that a point `o` makes with the edges;
`orient o a b` is twice the signed area of a triangle, positive if `o`, `a`, `b` is counter-clockwise. -/
def fanSum (o : Pt) : List Pt → Rat
  | a :: b :: l => orient o a b + fanSum o (b :: l)
  | _ => 0

/-- Twice the signed area of a polygon seen from `o`. -/
def area2 (o : Pt) (vs : List Pt) : Rat := fanSum o (vs.getLastD o :: vs)

theorem orient_cross (o a b : Pt) : orient o a b = cross2 a b + (cross2 o a - cross2 o b) := by
  unfold orient cross2; ring

theorem cwLoop_eq (o : Pt) : ∀ (l : List Pt) (a : Pt) (t : Rat),
    cwLoop (a :: l) t = t + fanSum o (a :: l) - (cross2 o a - cross2 o ((a :: l).getLast (by simp))) := by
  intro l
  induction l with
  | nil => intro a t; simp [cwLoop, fanSum]
  | cons b l ih =>
    intro a t
    rw [cwLoop, ih b, fanSum, orient_cross, List.getLast_cons (by simp : b :: l ≠ [])]
    ring

/-- The sum that is computed is twice the signed area, seen from any point. -/
theorem cwTotal_eq (o : Pt) (vs : List Pt) (h : vs ≠ []) : cwTotal vs = some (area2 o vs) := by
  obtain ⟨a, l, rfl⟩ := List.exists_cons_of_ne_nil h
  unfold cwTotal area2
  rw [List.getLast?_eq_getLast_of_ne_nil h]
  simp only [List.head?_cons]
  rw [cwLoop_eq o, List.getLastD_eq_getLast?, List.getLast?_eq_getLast_of_ne_nil h, Option.getD_some, fanSum, orient_cross]
  congr 1
  ring

theorem area2_indep (o o' : Pt) (vs : List Pt) (h : vs ≠ []) : area2 o vs = area2 o' vs := by
  have := (cwTotal_eq o vs h).symm.trans (cwTotal_eq o' vs h)
  exact Option.some.inj this

theorem fanSum_append (o x : Pt) : ∀ (l r : List Pt), fanSum o (l ++ x :: r) = fanSum o (l ++ [x]) + fanSum o (x :: r) := by
  intro l
  induction l with
  | nil => intro r; simp [fanSum]
  | cons a l ih =>
    intro r
    cases l with
    | nil => simp [fanSum]
    | cons b l =>
      have := ih r
      simp only [List.cons_append, fanSum] at this ⊢
      rw [this]; ring

theorem fanSum_reverse (o : Pt) : ∀ l : List Pt, fanSum o l.reverse = - fanSum o l := by
  intro l
  induction l with
  | nil => simp [fanSum]
  | cons a l ih =>
    cases l with
    | nil => simp [fanSum]
    | cons b l =>
      rw [List.reverse_cons, List.reverse_cons, List.append_assoc, List.singleton_append, fanSum_append]
      rw [List.reverse_cons] at ih
      rw [ih]
      simp only [fanSum]
      unfold orient; ring

/-- The area is that of the closed path. -/
theorem area2_closed (o v : Pt) (vs : List Pt) : area2 o (v :: vs) = fanSum o (v :: vs ++ [v]) := by
  have hne : v :: vs ≠ [] := by simp
  unfold area2
  rw [List.getLastD_eq_getLast?, List.getLast?_eq_getLast_of_ne_nil hne, Option.getD_some, fanSum]
  have h := fanSum_append o ((v :: vs).getLast hne) ((v :: vs).dropLast) [v]
  have e : (v :: vs).dropLast ++ (v :: vs).getLast hne :: [v] = v :: vs ++ [v] := by
    calc (v :: vs).dropLast ++ (v :: vs).getLast hne :: [v]
        = ((v :: vs).dropLast ++ [(v :: vs).getLast hne]) ++ [v] := by simp
      _ = v :: vs ++ [v] := by rw [List.dropLast_append_getLast hne]
  rw [e, List.dropLast_append_getLast hne] at h
  rw [h]
  simp only [fanSum]
  ring

/-! ## The properties -/

/-- **C194** (area).  A polygon is said to be clockwise exactly if its signed area, counted from any point, is not positive. -/
theorem C194_area (o : Pt) (vs : List Pt) (h : vs ≠ []) : isClockwise vs = some (decide (area2 o vs ≤ 0)) := by
  unfold isClockwise
  rw [cwTotal_eq o vs h]; rfl

/-- **C194** (starting vertex).  The answer does not depend on the vertex the polygon begins with. -/
theorem C194_rotate (as bs : List Pt) : isClockwise (as ++ bs) = isClockwise (bs ++ as) := by
  cases as with
  | nil => simp
  | cons a as =>
    cases bs with
    | nil => simp
    | cons b bs =>
      have e : area2 a (a :: as ++ b :: bs) = area2 a (b :: bs ++ a :: as) := by
        have h1 := fanSum_append a b (a :: as) (bs ++ [a])
        have h2 := fanSum_append a a (b :: bs) (as ++ [b])
        have h3 := area2_closed a a (as ++ b :: bs)
        have h4 := area2_closed a b (bs ++ a :: as)
        simp only [List.cons_append, List.append_assoc] at h1 h2 h3 h4 ⊢
        rw [h3, h4, h1, h2, add_comm]
      rw [C194_area a (a :: as ++ b :: bs) (by simp), C194_area a (b :: bs ++ a :: as) (by simp), e]

/-- **C194** (closed polygons).  Repeating the first vertex at the end changes nothing. -/
theorem C194_close (v : Pt) (vs : List Pt) : isClockwise (v :: vs ++ [v]) = isClockwise (v :: vs) := by
  rw [C194_area v _ (by simp), C194_area v _ (by simp), List.cons_append, area2_closed, area2_closed]
  have h := fanSum_append v v (v :: vs) [v]
  simp only [List.cons_append, List.append_assoc, List.nil_append] at h ⊢
  rw [h]
  simp [fanSum, orient]

/-- **C194** (reversal).  A polygon and the same polygon in reverse order have opposite orientations, unless the area is zero. -/
theorem C194_reverse (vs : List Pt) (h : vs ≠ []) (o : Pt) (ha : area2 o vs ≠ 0) :
    ∃ c, isClockwise vs = some c ∧ isClockwise vs.reverse = some (!c) := by
  refine ⟨_, C194_area o vs h, ?_⟩
  rw [C194_area o _ (by simpa using h)]
  have e : area2 o vs.reverse = - area2 o vs := by
    obtain ⟨v, ws, rfl⟩ := List.exists_cons_of_ne_nil h
    cases ws using List.reverseRecOn with
    | nil => simp [area2, fanSum, orient]; ring
    | append_singleton ws w =>
      have e1 : (v :: (ws ++ [w])).reverse = w :: (ws.reverse ++ [v]) := by simp
      rw [e1, area2_closed, area2_closed]
      have h4 := fanSum_append o v (w :: ws.reverse) [w]
      have h5 := fanSum_append o w (v :: ws) [v]
      have h6 := fanSum_reverse o (v :: (ws ++ [w]))
      rw [e1] at h6
      simp only [List.cons_append, List.append_assoc, List.nil_append] at h4 h5 h6 ⊢
      rw [h4, h5, h6]
      simp only [fanSum]
      unfold orient
      ring
  rw [e, ← decide_not]
  congr 1
  rw [decide_eq_decide, not_le]
  constructor
  · intro h'
    exact lt_of_le_of_ne (by linarith) (Ne.symm ha)
  · intro h'; linarith

/-- **C194** (shift, scale).  Moving a polygon, and enlarging it, does not change the answer. -/
theorem C194_similar (vs : List Pt) (k dx dy : Rat) (hk : 0 < k) :
    isClockwise (vs.map fun q => ⟨k * q.x + dx, k * q.y + dy⟩) = isClockwise vs := by
  cases vs with
  | nil => rfl
  | cons v vs =>
    have hf : ∀ l : List Pt, fanSum ⟨k * v.x + dx, k * v.y + dy⟩ (l.map fun q => ⟨k * q.x + dx, k * q.y + dy⟩) =
        k ^ 2 * fanSum v l := by
      intro l
      induction l with
      | nil => simp [fanSum]
      | cons a l ih => cases l with
        | nil => simp [fanSum]
        | cons b l =>
          simp only [List.map_cons, fanSum] at ih ⊢
          rw [ih]
          unfold orient; ring
    have e : area2 ⟨k * v.x + dx, k * v.y + dy⟩ ((v :: vs).map fun q => ⟨k * q.x + dx, k * q.y + dy⟩) =
        k ^ 2 * area2 v (v :: vs) := by
      have h := hf (v :: vs ++ [v])
      have h1 := area2_closed v v vs
      have h2 := area2_closed ⟨k * v.x + dx, k * v.y + dy⟩ ⟨k * v.x + dx, k * v.y + dy⟩
        (vs.map fun q => ⟨k * q.x + dx, k * q.y + dy⟩)
      simp only [List.map_cons, List.map_append, List.map_nil, List.cons_append] at h h1 h2 ⊢
      rw [h1, h2, h]
    rw [C194_area v (v :: vs) (by simp), C194_area ⟨k * v.x + dx, k * v.y + dy⟩ _ (by simp), e]
    congr 1
    rw [decide_eq_decide]
    have hk2 : 0 < k ^ 2 := by positivity
    constructor
    · intro h'
      by_contra hc
      have := mul_pos hk2 (not_le.mp hc)
      linarith
    · intro h'
      exact mul_nonpos_of_nonneg_of_nonpos hk2.le h'

/-- **C194** (cut).  If a polygon is cut along a path, the areas of the parts add up to that of the whole: two parts that are
counter-clockwise make a whole that is counter-clockwise. -/
theorem C194_cut (a b : Pt) (as bs cs : List Pt)
    (h1 : isClockwise (a :: as ++ b :: cs.reverse) = some false) (h2 : isClockwise (a :: cs ++ b :: bs) = some false) :
    isClockwise (a :: as ++ b :: bs) = some false := by
  rw [C194_area a _ (by simp)] at h1 h2 ⊢
  simp only [List.cons_append, Option.some.injEq, decide_eq_false_iff_not, not_le] at h1 h2 ⊢
  rw [area2_closed] at h1 h2 ⊢
  have g1 := fanSum_append a b (a :: as) (bs ++ [a])
  have g2 := fanSum_append a b (a :: as) (cs.reverse ++ [a])
  have g3 := fanSum_append a b (a :: cs) (bs ++ [a])
  have g4 := fanSum_reverse a (a :: cs ++ [b])
  have e : (a :: cs ++ [b]).reverse = b :: (cs.reverse ++ [a]) := by simp
  rw [e] at g4
  simp only [List.cons_append, List.append_assoc] at g1 g2 g3 g4 h1 h2 ⊢
  rw [g1]; rw [g2, g4] at h1; rw [g3] at h2
  linarith

/-! ### Convex polygons -/

/-- Specification: all vertices of a polygon are on the left of, or on, each of its edges. -/
def ConvexCCW (vs : List Pt) (h : vs ≠ []) : Prop :=
  ∀ a b, [a, b] <:+: (vs.getLast h :: vs) → ∀ c ∈ vs, 0 ≤ orient a b c

/-- The same on the right: the polygon is clockwise. -/
def ConvexCW (vs : List Pt) (h : vs ≠ []) : Prop :=
  ∀ a b, [a, b] <:+: (vs.getLast h :: vs) → ∀ c ∈ vs, orient a b c ≤ 0

theorem fanSum_nonneg (o : Pt) : ∀ l : List Pt, (∀ a b, [a, b] <:+: l → 0 ≤ orient a b o) → 0 ≤ fanSum o l := by
  intro l
  induction l with
  | nil => intro _; simp [fanSum]
  | cons a l ih => cases l with
    | nil => intro _; simp [fanSum]
    | cons b l =>
      intro h
      have h1 := ih (fun q r hqr => h q r (hqr.trans ⟨[a], [], by simp⟩))
      have h2 := h a b ⟨[], l, by simp⟩
      have : orient o a b = orient a b o := by unfold orient; ring
      rw [fanSum, this]; linarith

theorem fanSum_nonpos (o : Pt) : ∀ l : List Pt, (∀ a b, [a, b] <:+: l → orient a b o ≤ 0) → fanSum o l ≤ 0 := by
  intro l
  induction l with
  | nil => intro _; simp [fanSum]
  | cons a l ih => cases l with
    | nil => intro _; simp [fanSum]
    | cons b l =>
      intro h
      have h1 := ih (fun q r hqr => h q r (hqr.trans ⟨[a], [], by simp⟩))
      have h2 := h a b ⟨[], l, by simp⟩
      have : orient o a b = orient a b o := by unfold orient; ring
      rw [fanSum, this]; linarith

theorem getLastD_eq (o : Pt) (vs : List Pt) (h : vs ≠ []) : vs.getLastD o = vs.getLast h := by
  rw [List.getLastD_eq_getLast?, List.getLast?_eq_getLast_of_ne_nil h]; rfl

/-- The claim for the quick test: on convex polygons it is the full test. -/
def C194_claim : Prop := ∀ (vs : List Pt) (h : vs ≠ []), 3 ≤ vs.length → (ConvexCCW vs h ∨ ConvexCW vs h) →
  isClockwiseConvex vs = isClockwise vs

/-- **C194** (quick test).  On convex polygons the quick test gives the answer of the full one, if the first three vertices are
not on a line. Missing: the first three on a line, for which the claim fails. -/
theorem C194_partial (a b c : Pt) (l : List Pt) (hc : ConvexCCW (a :: b :: c :: l) (by simp) ∨ ConvexCW (a :: b :: c :: l) (by simp))
    (h3 : orient a b c ≠ 0) : isClockwiseConvex (a :: b :: c :: l) = isClockwise (a :: b :: c :: l) := by
  rw [C194_area a _ (by simp)]
  have hq : isClockwiseConvex (a :: b :: c :: l) =
      some (decide ((b.x - a.x) * (c.y - b.y) - (b.y - a.y) * (c.x - b.x) ≤ 0)) := rfl
  rw [hq]
  congr 1
  have e : (b.x - a.x) * (c.y - b.y) - (b.y - a.y) * (c.x - b.x) = orient a b c := by unfold orient; ring
  rw [e, decide_eq_decide]
  have ha : area2 a (a :: b :: c :: l) = orient a b c + fanSum a ((c :: l) ++ [a]) := by
    rw [area2_closed]
    simp only [List.cons_append, fanSum]
    unfold orient; ring
  have hcl : ∀ q r, [q, r] <:+: (c :: l ++ [a]) → [q, r] <:+: ((a :: b :: c :: l).getLast (by simp) :: (a :: b :: c :: l)) ∨
      (q = (a :: b :: c :: l).getLast (by simp) ∧ r = a) := by
    intro q r hqr
    rw [List.infix_concat_iff] at hqr
    rcases hqr with hs | hi
    · right
      obtain ⟨t, ht⟩ := hs
      have h1 : t ++ [q] = c :: l ∧ r = a := by
        have : (t ++ [q]) ++ [r] = (c :: l) ++ [a] := by simpa using ht
        have := List.append_inj' this rfl
        exact ⟨this.1, by simpa using this.2⟩
      refine ⟨?_, h1.2⟩
      have : (a :: b :: c :: l) = (a :: b :: t) ++ [q] := by simp [← h1.1]
      simp only [this, List.getLast_append_singleton]
    · left
      exact hi.trans ⟨[(a :: b :: c :: l).getLast (by simp), a, b], [], by simp⟩
  have hfirst : [(a :: b :: c :: l).getLast (by simp), a] <:+: ((a :: b :: c :: l).getLast (by simp) :: (a :: b :: c :: l)) :=
    ⟨[], b :: c :: l, by simp⟩
  have hab : [a, b] <:+: ((a :: b :: c :: l).getLast (by simp) :: (a :: b :: c :: l)) :=
    ⟨[(a :: b :: c :: l).getLast (by simp)], c :: l, by simp⟩
  rcases hc with hc | hc
  · have h1 : 0 ≤ fanSum a ((c :: l) ++ [a]) := by
      apply fanSum_nonneg
      intro q r hqr
      rcases hcl q r hqr with h | ⟨rfl, rfl⟩
      · exact hc q r h a (by simp)
      · exact hc _ _ hfirst _ (by simp)
    have h2 : 0 < orient a b c := lt_of_le_of_ne (hc a b hab c (by simp)) (Ne.symm h3)
    rw [ha]
    constructor <;> intro h' <;> linarith
  · have h1 : fanSum a ((c :: l) ++ [a]) ≤ 0 := by
      apply fanSum_nonpos
      intro q r hqr
      rcases hcl q r hqr with h | ⟨rfl, rfl⟩
      · exact hc q r h a (by simp)
      · exact hc _ _ hfirst _ (by simp)
    have h2 : orient a b c < 0 := lt_of_le_of_ne (hc a b hab c (by simp)) h3
    rw [ha]
    constructor <;> intro h' <;> linarith

/-- A square with a vertex in the middle of its first side. -/
def sq5 : List Pt := [⟨0, 0⟩, ⟨1, 0⟩, ⟨2, 0⟩, ⟨2, 2⟩, ⟨0, 2⟩]

theorem sq5_convex : ConvexCCW sq5 (by simp [sq5]) := by
  intro a b h c hc
  simp only [sq5, List.getLast_cons_cons, List.getLast_singleton, List.infix_cons_iff, List.cons_prefix_cons, List.nil_prefix,
    and_true, List.infix_nil, List.cons_ne_nil, List.prefix_nil, and_false, or_false] at h
  simp only [sq5, List.mem_cons, List.not_mem_nil, or_false] at hc
  rcases h with ⟨rfl, rfl⟩ | ⟨rfl, rfl⟩ | ⟨rfl, rfl⟩ | ⟨rfl, rfl⟩ | ⟨rfl, rfl⟩ <;>
    rcases hc with rfl | rfl | rfl | rfl | rfl <;> norm_num [orient]

/-- The same square beginning with another vertex meets the hypotheses of `C194_partial`. -/
example : isClockwiseConvex [⟨1, 0⟩, ⟨2, 0⟩, ⟨2, 2⟩, ⟨0, 2⟩, ⟨0, 0⟩] = some false ∧ isClockwise sq5 = some false ∧
    isClockwise sq5.reverse = some true := by decide +kernel

/-- **C194**, the claim fails: a counter-clockwise convex polygon whose first three vertices are on a line is said to be clockwise;
beginning with another vertex it is not. -/
theorem C194_counterexample : ¬ C194_claim ∧ isClockwiseConvex sq5 = some true ∧ isClockwise sq5 = some false := by
  have h : isClockwiseConvex sq5 = some true ∧ isClockwise sq5 = some false := by decide +kernel
  refine ⟨fun hc => ?_, h⟩
  have := hc sq5 (by simp [sq5]) (by simp [sq5]) (Or.inl sq5_convex)
  rw [h.1, h.2] at this
  simp at this

end Verif.Geom
