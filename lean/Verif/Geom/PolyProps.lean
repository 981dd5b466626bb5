import Verif.Geom.PolyModel
import Mathlib.Data.List.Induction

/-!
# C39: properties of the point in polygon test
-/

namespace Verif.Geom

/-! ## Parity of crossings along an open path -/

/-- Specification: parity of the number of edges of the open path through the vertices that are crossed by the ray from `p`
to the right. -/
def pathPar (p : Pt) : List Pt → Bool
  | [] => false
  | [_] => false
  | a :: b :: r => xor (crosses p a b) (pathPar p (b :: r))

theorem crosses_self (p a : Pt) : crosses p a a = false := by
  simp [crosses]

/-- The crossing test does not depend on the direction of the edge. -/
theorem crosses_symm (p a b : Pt) : crosses p a b = crosses p b a := by
  unfold crosses
  by_cases h : decide (a.y > p.y) = decide (b.y > p.y)
  · simp [h]
  · have hne : a.y ≠ b.y := by
      intro e; apply h; rw [e]
    have h1 : b.y - a.y ≠ 0 := fun e => hne (by linarith)
    have h2 : a.y - b.y ≠ 0 := fun e => hne (by linarith)
    have e : (b.x - a.x) * (p.y - a.y) / (b.y - a.y) + a.x
        = (a.x - b.x) * (p.y - b.y) / (a.y - b.y) + b.x := by
      field_simp
      ring
    rw [e]
    cases decide (a.y > p.y) <;> cases decide (b.y > p.y) <;> rfl

theorem pipLoop_eq (p : Pt) : ∀ (vs : List Pt) (j : Pt) (c : Bool),
    pipLoop p j vs c = xor c (pathPar p (j :: vs)) := by
  intro vs
  induction vs with
  | nil => intro j c; simp [pipLoop, pathPar]
  | cons v vs ih =>
    intro j c
    rw [pipLoop, ih, pathPar, crosses_symm p v j]
    cases crosses p j v <;> cases c <;> cases pathPar p (v :: vs) <;> rfl

theorem pathPar_append (p x : Pt) : ∀ (l r : List Pt),
    pathPar p (l ++ x :: r) = xor (pathPar p (l ++ [x])) (pathPar p (x :: r)) := by
  intro l
  induction l with
  | nil => intro r; simp [pathPar]
  | cons a l ih =>
    intro r
    cases l with
    | nil => simp [pathPar]
    | cons b l =>
      have := ih r
      simp only [List.cons_append, pathPar] at this ⊢
      rw [this]
      simp

theorem pathPar_reverse (p : Pt) : ∀ l : List Pt, pathPar p l.reverse = pathPar p l := by
  intro l
  induction l with
  | nil => rfl
  | cons a l ih =>
    cases l with
    | nil => rfl
    | cons b l =>
      rw [List.reverse_cons, List.reverse_cons, List.append_assoc, List.singleton_append, pathPar_append]
      rw [List.reverse_cons] at ih
      rw [ih, pathPar, pathPar, pathPar, crosses_symm p b a]
      simp [Bool.xor_comm]

/-- The tested polygon is the closed path from the first vertex round to the first vertex. -/
theorem inPoly_cons (p v : Pt) (vs : List Pt) : inPoly (v :: vs) p = pathPar p (v :: vs ++ [v]) := by
  have hne : v :: vs ≠ [] := by simp
  unfold inPoly
  rw [List.getLast?_eq_getLast_of_ne_nil hne]
  simp only [pipLoop_eq, Bool.false_xor]
  rw [pathPar]
  have h := pathPar_append p ((v :: vs).getLast hne) ((v :: vs).dropLast) [v]
  have e : (v :: vs).dropLast ++ (v :: vs).getLast hne :: [v] = v :: vs ++ [v] := by
    have := List.dropLast_append_getLast hne
    calc (v :: vs).dropLast ++ (v :: vs).getLast hne :: [v]
        = ((v :: vs).dropLast ++ [(v :: vs).getLast hne]) ++ [v] := by simp
      _ = v :: vs ++ [v] := by rw [this]
  rw [e, List.dropLast_append_getLast hne] at h
  rw [h]
  simp [pathPar, Bool.xor_comm]

theorem inPoly_nil (p : Pt) : inPoly [] p = false := rfl

/-! ## The properties -/

/-- **C39** (starting vertex).  Rotating the vertex list does not change the answer. -/
theorem C39_rotate (as bs : List Pt) (p : Pt) : inPoly (as ++ bs) p = inPoly (bs ++ as) p := by
  cases as with
  | nil => simp
  | cons a as =>
    cases bs with
    | nil => simp
    | cons b bs =>
      rw [List.cons_append, List.cons_append, inPoly_cons, inPoly_cons]
      have h1 := pathPar_append p b (a :: as) (bs ++ [a])
      have h2 := pathPar_append p a (b :: bs) (as ++ [b])
      simp only [List.cons_append, List.append_assoc] at h1 h2 ⊢
      rw [h1, h2, Bool.xor_comm]

/-- **C39** (orientation).  Reversing the vertex list does not change the answer. -/
theorem C39_reverse (vs : List Pt) (p : Pt) : inPoly vs.reverse p = inPoly vs p := by
  cases vs with
  | nil => rfl
  | cons v vs =>
    have e : (v :: vs).reverse = vs.reverse ++ [v] := by simp
    rw [e, C39_rotate, List.singleton_append, inPoly_cons, inPoly_cons]
    have := pathPar_reverse p (v :: vs ++ [v])
    rw [← this]
    simp

/-- **C39** (closing).  Repeating the first vertex at the end does not change the answer. -/
theorem C39_close (v : Pt) (vs : List Pt) (p : Pt) : inPoly (v :: vs ++ [v]) p = inPoly (v :: vs) p := by
  rw [List.cons_append, inPoly_cons, inPoly_cons]
  have := pathPar_append p v (v :: vs) [v]
  simp only [List.cons_append, List.append_assoc, List.nil_append] at this ⊢
  rw [this]
  simp [pathPar, crosses_self]

/-- **C39** (repeated vertices).  Repeating any vertex changes nothing. -/
theorem C39_repeat (as bs : List Pt) (v : Pt) (p : Pt) :
    inPoly (as ++ v :: v :: bs) p = inPoly (as ++ v :: bs) p := by
  rw [C39_rotate, C39_rotate as]
  simp only [List.cons_append]
  rw [inPoly_cons, inPoly_cons]
  simp [pathPar, crosses_self]

/-- **C39** (cut).  Cut the closed polygon `a … b …` along any path `cs` from `a` to `b`: a point is in the whole iff it is
in exactly one of the two parts.  This holds for all points, also for those on the cut and on the boundary. -/
theorem C39_cut (a b : Pt) (as bs cs : List Pt) (p : Pt) :
    inPoly (a :: as ++ b :: bs) p
      = xor (inPoly (a :: as ++ b :: cs.reverse) p) (inPoly (a :: cs ++ b :: bs) p) := by
  simp only [List.cons_append]
  rw [inPoly_cons, inPoly_cons, inPoly_cons]
  have h1 := pathPar_append p b (a :: as) (bs ++ [a])
  have h2 := pathPar_append p b (a :: as) (cs.reverse ++ [a])
  have h3 := pathPar_append p b (a :: cs) (bs ++ [a])
  have h4 := pathPar_reverse p (a :: cs ++ [b])
  have e : (a :: cs ++ [b]).reverse = b :: (cs.reverse ++ [a]) := by simp
  rw [e] at h4
  simp only [List.cons_append, List.append_assoc] at h1 h2 h3 h4 ⊢
  rw [h1, h2, h3, h4]
  cases pathPar p (a :: (as ++ [b])) <;> cases pathPar p (a :: (cs ++ [b])) <;>
    cases pathPar p (b :: (bs ++ [a])) <;> rfl

/-- A point on the diagonal of a square is in exactly one of the two triangles. -/
example : inPoly [⟨0, 0⟩, ⟨2, 0⟩, ⟨2, 2⟩, ⟨0, 2⟩] ⟨1, 1⟩ = true ∧
    inPoly ([⟨0, 0⟩, ⟨2, 0⟩, ⟨2, 2⟩]) ⟨1, 1⟩ = true ∧ inPoly ([⟨0, 0⟩, ⟨2, 2⟩, ⟨0, 2⟩]) ⟨1, 1⟩ = false := by
  norm_num [inPoly, pipLoop, crosses]

/-! ### Components and holes -/

/-- Header comment of the C file: components and holes separated by a common vertex `o`, each repeating its first
vertex at the end. -/
def multiList (o : Pt) (comps : List (Pt × List Pt)) : List Pt :=
  o :: comps.flatMap (fun c => c.1 :: c.2 ++ [c.1, o])

theorem pathPar_multi (o : Pt) (p : Pt) : ∀ comps : List (Pt × List Pt),
    pathPar p (multiList o comps)
      = (comps.map (fun c => inPoly (c.1 :: c.2) p)).foldr xor false := by
  intro comps
  induction comps with
  | nil => rfl
  | cons c cs ih =>
    have e : multiList o (c :: cs) = ([o] ++ c.1 :: (c.2 ++ c.1 :: ([o] ++ cs.flatMap (fun c => c.1 :: c.2 ++ [c.1, o])))) := by
      simp [multiList]
    rw [e, pathPar_append]
    have h2 := pathPar_append p c.1 (c.1 :: c.2) ([o] ++ cs.flatMap (fun c => c.1 :: c.2 ++ [c.1, o]))
    simp only [List.cons_append] at h2 ⊢
    rw [h2]
    simp only [List.map_cons, List.foldr_cons, ← ih]
    rw [inPoly_cons]
    simp only [List.cons_append, List.nil_append, pathPar, multiList, List.flatMap_def]
    rw [crosses_symm p c.1 o]
    cases crosses p o c.1 <;> cases pathPar p (c.1 :: (c.2 ++ [c.1])) <;> simp

/-- **C39** (holes).  As the header comment of the C file claims: listing several components and holes (each closed,
separated by one common vertex `o`, wherever it is) tests whether the point is in an odd number of them. -/
theorem C39_components (o : Pt) (comps : List (Pt × List Pt)) (p : Pt) :
    inPoly (multiList o comps) p = (comps.map (fun c => inPoly (c.1 :: c.2) p)).foldr xor false := by
  rw [← pathPar_multi o p]
  unfold multiList
  rw [inPoly_cons]
  induction comps using List.reverseRecOn with
  | nil => simp [pathPar, crosses_self]
  | append_singleton cs c ih =>
    have e : (o :: List.flatMap (fun c : Pt × List Pt => c.1 :: c.2 ++ [c.1, o]) (cs ++ [c]))
        = (o :: List.flatMap (fun c : Pt × List Pt => c.1 :: c.2 ++ [c.1, o]) cs ++ (c.1 :: c.2 ++ [c.1])) ++ [o] := by
      simp
    rw [e, List.append_assoc, List.singleton_append, pathPar_append]
    simp [pathPar, crosses_self]

/-- A square with a square hole. -/
example : inPoly (multiList ⟨0, 0⟩ [(⟨1, 1⟩, [⟨9, 1⟩, ⟨9, 9⟩, ⟨1, 9⟩]), (⟨4, 4⟩, [⟨4, 6⟩, ⟨6, 6⟩, ⟨6, 4⟩])]) ⟨5, 5⟩ = false ∧
    inPoly (multiList ⟨0, 0⟩ [(⟨1, 1⟩, [⟨9, 1⟩, ⟨9, 9⟩, ⟨1, 9⟩]), (⟨4, 4⟩, [⟨4, 6⟩, ⟨6, 6⟩, ⟨6, 4⟩])]) ⟨2, 5⟩ = true := by
  norm_num [inPoly, pipLoop, crosses, multiList]

/-! ### Fan of triangles: the answer for any polygon is determined by triangles -/

/-- The triangles `(v, b, c)` for consecutive `b, c`. -/
def fan (v : Pt) : List Pt → List (List Pt)
  | b :: c :: r => [v, b, c] :: fan v (c :: r)
  | _ => []

/-- **C39** (fan).  For any polygon the answer is the parity of the number of fan triangles containing the point. -/
theorem C39_fan (v : Pt) (p : Pt) : ∀ vs : List Pt,
    inPoly (v :: vs) p = ((fan v vs).map (fun t => inPoly t p)).foldr xor false
  | [] => by simp [inPoly_cons, pathPar, crosses_self, fan]
  | [b] => by simp [inPoly_cons, pathPar, crosses_symm p b v, fan]
  | b :: c :: r => by
    have h := C39_cut v c [b] r [] p
    simp only [List.cons_append, List.nil_append, List.reverse_nil] at h
    rw [h, fan, List.map_cons, List.foldr_cons, C39_fan v p (c :: r)]

/-! ### The bounding box -/

theorem crosses_bounds {p a b : Pt} (h : crosses p a b = true) :
    (min a.y b.y ≤ p.y ∧ p.y < max a.y b.y) ∧ p.x < max a.x b.x := by
  unfold crosses at h
  rw [Bool.and_eq_true] at h
  obtain ⟨h1, h2⟩ := h
  have h2 := of_decide_eq_true h2
  by_cases ha : a.y > p.y
  · have hb : ¬ b.y > p.y := by
      intro hb; rw [decide_eq_true ha, decide_eq_true hb] at h1; exact absurd h1 (by decide)
    have hb' : b.y ≤ p.y := not_lt.1 hb
    refine ⟨⟨le_trans (min_le_right _ _) hb', lt_of_lt_of_le ha (le_max_left _ _)⟩, ?_⟩
    have hd : b.y - a.y < 0 := by linarith
    refine lt_of_lt_of_le h2 ?_
    have ht0 : 0 ≤ (p.y - a.y) / (b.y - a.y) := div_nonneg_of_nonpos (by linarith) (by linarith)
    have ht1 : (p.y - a.y) / (b.y - a.y) ≤ 1 := (div_le_one_of_neg hd).2 (by linarith)
    have e : (b.x - a.x) * (p.y - a.y) / (b.y - a.y) + a.x
        = (1 - (p.y - a.y) / (b.y - a.y)) * a.x + (p.y - a.y) / (b.y - a.y) * b.x := by ring
    rw [e]
    generalize (p.y - a.y) / (b.y - a.y) = t at ht0 ht1
    have m1 : a.x ≤ max a.x b.x := le_max_left _ _
    have m2 : b.x ≤ max a.x b.x := le_max_right _ _
    nlinarith
  · have hb : b.y > p.y := by
      by_contra hb; rw [decide_eq_false ha, decide_eq_false hb] at h1; exact absurd h1 (by decide)
    have ha' : a.y ≤ p.y := not_lt.1 ha
    refine ⟨⟨le_trans (min_le_left _ _) ha', lt_of_lt_of_le hb (le_max_right _ _)⟩, ?_⟩
    have hd : 0 < b.y - a.y := by linarith
    refine lt_of_lt_of_le h2 ?_
    have ht0 : 0 ≤ (p.y - a.y) / (b.y - a.y) := div_nonneg (by linarith) (by linarith)
    have ht1 : (p.y - a.y) / (b.y - a.y) ≤ 1 := (div_le_one hd).2 (by linarith)
    have e : (b.x - a.x) * (p.y - a.y) / (b.y - a.y) + a.x
        = (1 - (p.y - a.y) / (b.y - a.y)) * a.x + (p.y - a.y) / (b.y - a.y) * b.x := by ring
    rw [e]
    generalize (p.y - a.y) / (b.y - a.y) = t at ht0 ht1
    have m1 : a.x ≤ max a.x b.x := le_max_left _ _
    have m2 : b.x ≤ max a.x b.x := le_max_right _ _
    nlinarith

/-- An edge wholly to the right of the point is crossed iff it changes side vertically. -/
theorem crosses_right {p a b : Pt} (ha : p.x < a.x) (hb : p.x < b.x) :
    crosses p a b = (decide (a.y > p.y) != decide (b.y > p.y)) := by
  by_cases h : (decide (a.y > p.y) != decide (b.y > p.y)) = true
  · unfold crosses
    rw [h, Bool.true_and]
    apply decide_eq_true
    by_cases ha' : a.y > p.y
    · have hb' : ¬ b.y > p.y := by
        intro hb'; rw [decide_eq_true ha', decide_eq_true hb'] at h; exact absurd h (by decide)
      have hb' : b.y ≤ p.y := not_lt.1 hb'
      have hd : b.y - a.y < 0 := by linarith
      have ht0 : 0 ≤ (p.y - a.y) / (b.y - a.y) := div_nonneg_of_nonpos (by linarith) (by linarith)
      have ht1 : (p.y - a.y) / (b.y - a.y) ≤ 1 := (div_le_one_of_neg hd).2 (by linarith)
      have e : (b.x - a.x) * (p.y - a.y) / (b.y - a.y) + a.x
          = (1 - (p.y - a.y) / (b.y - a.y)) * a.x + (p.y - a.y) / (b.y - a.y) * b.x := by ring
      rw [e]
      generalize (p.y - a.y) / (b.y - a.y) = t at ht0 ht1
      rcases eq_or_lt_of_le ht0 with h0 | h0
      · rw [← h0]; linarith
      · nlinarith [mul_pos h0 (sub_pos.2 hb), mul_nonneg (sub_nonneg.2 ht1) (le_of_lt (sub_pos.2 ha))]
    · have hb' : b.y > p.y := by
        by_contra hb'; rw [decide_eq_false ha', decide_eq_false hb'] at h; exact absurd h (by decide)
      have ha' : a.y ≤ p.y := not_lt.1 ha'
      have hd : 0 < b.y - a.y := by linarith
      have ht0 : 0 ≤ (p.y - a.y) / (b.y - a.y) := div_nonneg (by linarith) (by linarith)
      have ht1 : (p.y - a.y) / (b.y - a.y) ≤ 1 := (div_le_one hd).2 (by linarith)
      have e : (b.x - a.x) * (p.y - a.y) / (b.y - a.y) + a.x
          = (1 - (p.y - a.y) / (b.y - a.y)) * a.x + (p.y - a.y) / (b.y - a.y) * b.x := by ring
      rw [e]
      generalize (p.y - a.y) / (b.y - a.y) = t at ht0 ht1
      rcases eq_or_lt_of_le ht0 with h0 | h0
      · rw [← h0]; linarith
      · nlinarith [mul_pos h0 (sub_pos.2 hb), mul_nonneg (sub_nonneg.2 ht1) (le_of_lt (sub_pos.2 ha))]
  · have h := Bool.eq_false_iff.2 h
    unfold crosses
    rw [h, Bool.false_and]

theorem pathPar_right {p : Pt} : ∀ (a : Pt) (l : List Pt), (∀ q ∈ a :: l, p.x < q.x) →
    pathPar p (a :: l) = (decide (a.y > p.y) != decide ((((a :: l).getLast (by simp))).y > p.y)) := by
  intro a l
  induction l generalizing a with
  | nil => intro _; simp [pathPar]
  | cons b l ih =>
    intro h
    rw [pathPar, ih b (fun q hq => h q (List.mem_cons_of_mem _ hq)), crosses_right (h a (by simp)) (h b (by simp)),
      List.getLast_cons (List.cons_ne_nil b l)]
    generalize decide (a.y > p.y) = A
    generalize decide (b.y > p.y) = B
    generalize decide (((b :: l).getLast _).y > p.y) = C
    cases A <;> cases B <;> cases C <;> rfl

theorem pathPar_true {p : Pt} : ∀ l : List Pt, pathPar p l = true → ∃ a ∈ l, ∃ b ∈ l, crosses p a b = true := by
  intro l
  induction l with
  | nil => intro h; simp [pathPar] at h
  | cons a l ih =>
    cases l with
    | nil => intro h; simp [pathPar] at h
    | cons b l =>
      intro h
      by_cases hc : crosses p a b = true
      · exact ⟨a, by simp, b, by simp, hc⟩
      · rw [pathPar, Bool.eq_false_iff.2 hc, Bool.false_xor] at h
        obtain ⟨c, hc, d, hd, hcd⟩ := ih h
        exact ⟨c, List.mem_cons_of_mem _ hc, d, List.mem_cons_of_mem _ hd, hcd⟩

/-- **C39** (bounding box).  A point reported inside has a vertex at or left of it, a vertex strictly right of it, a vertex at
or below it and a vertex strictly above it: it is in the (half open) bounding box of the vertices. -/
theorem C39_bounding_box (vs : List Pt) (p : Pt) (h : inPoly vs p = true) :
    (∃ v ∈ vs, v.x ≤ p.x) ∧ (∃ v ∈ vs, p.x < v.x) ∧ (∃ v ∈ vs, v.y ≤ p.y) ∧ (∃ v ∈ vs, p.y < v.y) := by
  cases vs with
  | nil => simp [inPoly_nil] at h
  | cons v vs =>
    rw [inPoly_cons] at h
    have hmem : ∀ q, q ∈ v :: vs ++ [v] → q ∈ v :: vs := by
      intro q hq; simp at hq; simp; tauto
    obtain ⟨a, ha, b, hb, hab⟩ := pathPar_true _ h
    obtain ⟨⟨h1, h2⟩, h3⟩ := crosses_bounds hab
    refine ⟨?_, ?_, ?_, ?_⟩
    · by_contra hno
      have hall : ∀ q ∈ v :: vs, p.x < q.x := by
        intro q hq
        by_contra hq'
        exact hno ⟨q, hq, not_lt.1 hq'⟩
      rw [List.cons_append, pathPar_right v (vs ++ [v]) (fun q hq => hall q (hmem q hq))] at h
      simp at h
    · rcases lt_max_iff.1 h3 with h | h
      · exact ⟨a, hmem a ha, h⟩
      · exact ⟨b, hmem b hb, h⟩
    · rcases min_le_iff.1 h1 with h | h
      · exact ⟨a, hmem a ha, h⟩
      · exact ⟨b, hmem b hb, h⟩
    · rcases lt_max_iff.1 h2 with h | h
      · exact ⟨a, hmem a ha, h⟩
      · exact ⟨b, hmem b hb, h⟩

example : inPoly [⟨0, 0⟩, ⟨3, 0⟩, ⟨0, 3⟩] ⟨1, 1⟩ = true := by
  norm_num [inPoly, pipLoop, crosses]

/-! ### Rectangles and triangles: what "inside" means -/

/-- **C39** (rectangle).  For an axis-parallel rectangle the test is membership in the half-open rectangle: the left and
bottom sides belong to it, the right and top ones do not.  So rectangles tiling the plane cover each point once. -/
theorem C39_rectangle (x0 x1 y0 y1 : Rat) (hx : x0 ≤ x1) (hy : y0 ≤ y1) (p : Pt) :
    inPoly [⟨x0, y0⟩, ⟨x0, y1⟩, ⟨x1, y1⟩, ⟨x1, y0⟩] p = true ↔
      (x0 ≤ p.x ∧ p.x < x1) ∧ (y0 ≤ p.y ∧ p.y < y1) := by
  rw [inPoly_cons]
  simp only [List.cons_append, List.nil_append, pathPar, crosses, sub_self, zero_mul, zero_div, zero_add]
  by_cases a : y0 > p.y <;> by_cases b : y1 > p.y <;> by_cases c : p.x < x0 <;> by_cases d : p.x < x1 <;>
    simp [a, b, c, d] <;> (try linarith)
  exact ⟨not_lt.1 c, not_lt.1 a⟩

/-- Twice the signed area of the triangle `a b c`: positive if counter-clockwise. -/
def orient (a b c : Pt) : Rat := (b.x - a.x) * (c.y - a.y) - (b.y - a.y) * (c.x - a.x)

/-- The crossing test is an orientation test: for an edge going up, the point is left of it. -/
theorem crosses_iff (p a b : Pt) : crosses p a b = true ↔
    (a.y ≤ p.y ∧ p.y < b.y ∧ 0 < orient a b p) ∨ (b.y ≤ p.y ∧ p.y < a.y ∧ orient a b p < 0) := by
  unfold crosses orient
  rw [Bool.and_eq_true, decide_eq_true_iff]
  by_cases ha : a.y > p.y
  · by_cases hb : b.y > p.y
    · rw [decide_eq_true ha, decide_eq_true hb]
      constructor
      · intro h; exact absurd h.1 (by decide)
      · rintro (h | h) <;> exact absurd h.1 (by linarith)
    · have hb' : b.y ≤ p.y := not_lt.1 hb
      rw [decide_eq_true ha, decide_eq_false hb]
      have hd : b.y - a.y < 0 := by linarith
      have : p.x < (b.x - a.x) * (p.y - a.y) / (b.y - a.y) + a.x ↔
          (b.x - a.x) * (p.y - a.y) < (p.x - a.x) * (b.y - a.y) := by
        rw [← sub_lt_iff_lt_add, lt_div_iff_of_neg hd]
      rw [this]
      constructor
      · intro h; exact Or.inr ⟨hb', ha, by linarith [h.2]⟩
      · rintro (h | h)
        · exact absurd h.1 (by linarith)
        · exact ⟨rfl, by linarith [h.2.2]⟩
  · have ha' : a.y ≤ p.y := not_lt.1 ha
    by_cases hb : b.y > p.y
    · rw [decide_eq_false ha, decide_eq_true hb]
      have hd : 0 < b.y - a.y := by linarith
      have : p.x < (b.x - a.x) * (p.y - a.y) / (b.y - a.y) + a.x ↔
          (p.x - a.x) * (b.y - a.y) < (b.x - a.x) * (p.y - a.y) := by
        rw [← sub_lt_iff_lt_add, lt_div_iff₀ hd]
      rw [this]
      constructor
      · intro h; exact Or.inl ⟨ha', hb, by linarith [h.2]⟩
      · rintro (h | h)
        · exact ⟨rfl, by linarith [h.2.2]⟩
        · exact absurd h.2.1 (by linarith)
    · rw [decide_eq_false ha, decide_eq_false hb]
      have hb' : b.y ≤ p.y := not_lt.1 hb
      constructor
      · intro h; exact absurd h.1 (by decide)
      · rintro (h | h)
        · exact absurd h.2.1 (by linarith)
        · exact absurd h.2.1 (by linarith)

theorem tri_inside {a b c p : Pt} (h1 : 0 < orient a b p) (h2 : 0 < orient b c p) (h3 : 0 < orient c a p) :
    inPoly [a, b, c] p = true := by
  rw [inPoly_cons]
  simp only [List.cons_append, List.nil_append, pathPar, Bool.xor_false]
  have k1 := crosses_iff p a b
  have k2 := crosses_iff p b c
  have k3 := crosses_iff p c a
  have key : orient a b p * (c.y - p.y) + orient b c p * (a.y - p.y) + orient c a p * (b.y - p.y) = 0 := by
    unfold orient; ring
  have k1 : crosses p a b = decide (a.y ≤ p.y ∧ p.y < b.y) := by
    rw [Bool.eq_iff_iff, k1, decide_eq_true_iff]
    constructor
    · rintro (h | h)
      · exact ⟨h.1, h.2.1⟩
      · linarith [h.2.2]
    · intro h; exact Or.inl ⟨h.1, h.2, h1⟩
  have k2 : crosses p b c = decide (b.y ≤ p.y ∧ p.y < c.y) := by
    rw [Bool.eq_iff_iff, k2, decide_eq_true_iff]
    constructor
    · rintro (h | h)
      · exact ⟨h.1, h.2.1⟩
      · linarith [h.2.2]
    · intro h; exact Or.inl ⟨h.1, h.2, h2⟩
  have k3 : crosses p c a = decide (c.y ≤ p.y ∧ p.y < a.y) := by
    rw [Bool.eq_iff_iff, k3, decide_eq_true_iff]
    constructor
    · rintro (h | h)
      · exact ⟨h.1, h.2.1⟩
      · linarith [h.2.2]
    · intro h; exact Or.inl ⟨h.1, h.2, h3⟩
  rw [k1, k2, k3]
  by_cases A : a.y ≤ p.y <;> by_cases B : b.y ≤ p.y <;> by_cases C : c.y ≤ p.y
  · exfalso
    have hA : a.y = p.y := by
      by_contra hne
      have : a.y - p.y < 0 := by rcases lt_or_eq_of_le A with h | h; linarith; exact absurd h hne
      nlinarith [mul_pos h2 (neg_pos.2 this), mul_nonneg h1.le (sub_nonneg.2 C), mul_nonneg h3.le (sub_nonneg.2 B)]
    have hB : b.y = p.y := by
      by_contra hne
      have : b.y - p.y < 0 := by rcases lt_or_eq_of_le B with h | h; linarith; exact absurd h hne
      nlinarith [mul_pos h3 (neg_pos.2 this), mul_nonneg h1.le (sub_nonneg.2 C), mul_nonneg h2.le (sub_nonneg.2 A)]
    unfold orient at h1
    rw [hA, hB] at h1
    simp at h1
  all_goals (try simp [A, B, C, not_le.1, not_lt.2])
  all_goals (try simp [not_le.1 A]) 
  all_goals (try simp [not_le.1 B]) 
  all_goals (try simp [not_le.1 C]) 
  all_goals (have A' := not_le.1 A; have B' := not_le.1 B; have C' := not_le.1 C
             nlinarith [mul_pos h2 (sub_pos.2 A'), mul_pos h1 (sub_pos.2 C'), mul_pos h3 (sub_pos.2 B')])

/-- The convex hull, as an intersection of half planes: `p` satisfies every linear inequality that all vertices satisfy. -/
def InHull (vs : List Pt) (p : Pt) : Prop :=
  ∀ nx ny c : Rat, (∀ v ∈ vs, c ≤ nx * v.x + ny * v.y) → c ≤ nx * p.x + ny * p.y

theorem pathPar_sides {p : Pt} : ∀ (a : Pt) (l : List Pt),
    (∀ q ∈ a :: l, ∀ r ∈ a :: l, crosses p q r = (decide (q.y > p.y) != decide (r.y > p.y))) →
    pathPar p (a :: l) = (decide (a.y > p.y) != decide ((((a :: l).getLast (by simp))).y > p.y)) := by
  intro a l
  induction l generalizing a with
  | nil => intro _; simp [pathPar]
  | cons b l ih =>
    intro h
    rw [pathPar, ih b (fun q hq r hr => h q (List.mem_cons_of_mem _ hq) r (List.mem_cons_of_mem _ hr)),
      h a (by simp) b (by simp), List.getLast_cons (List.cons_ne_nil b l)]
    generalize decide (a.y > p.y) = A
    generalize decide (b.y > p.y) = B
    generalize decide (((b :: l).getLast _).y > p.y) = C
    cases A <;> cases B <;> cases C <;> rfl

/-- The point where an edge changing side meets the horizontal through `p` is a convex combination of its ends. -/
theorem cross_point {p a b : Pt} (h : (decide (a.y > p.y) != decide (b.y > p.y)) = true) :
    ∃ t : Rat, 0 ≤ t ∧ t ≤ 1 ∧ (1 - t) * a.y + t * b.y = p.y ∧
      (crosses p a b = decide (p.x < (1 - t) * a.x + t * b.x)) := by
  have hne : b.y - a.y ≠ 0 := by
    intro e
    have : b.y = a.y := by linarith
    rw [this] at h; simp at h
  refine ⟨(p.y - a.y) / (b.y - a.y), ?_, ?_, ?_, ?_⟩
  · by_cases ha : a.y > p.y
    · have hb : ¬ b.y > p.y := by
        intro hb; rw [decide_eq_true ha, decide_eq_true hb] at h; exact absurd h (by decide)
      exact div_nonneg_of_nonpos (by linarith) (by linarith [not_lt.1 hb])
    · have hb : b.y > p.y := by
        by_contra hb; rw [decide_eq_false ha, decide_eq_false hb] at h; exact absurd h (by decide)
      exact div_nonneg (by linarith [not_lt.1 ha]) (by linarith [not_lt.1 ha])
  · by_cases ha : a.y > p.y
    · have hb : ¬ b.y > p.y := by
        intro hb; rw [decide_eq_true ha, decide_eq_true hb] at h; exact absurd h (by decide)
      exact (div_le_one_of_neg (by linarith [not_lt.1 hb])).2 (by linarith [not_lt.1 hb])
    · have hb : b.y > p.y := by
        by_contra hb; rw [decide_eq_false ha, decide_eq_false hb] at h; exact absurd h (by decide)
      exact (div_le_one (by linarith [not_lt.1 ha])).2 (by linarith)
  · field_simp
    ring
  · unfold crosses
    rw [h, Bool.true_and]
    congr 1
    have : (b.x - a.x) * (p.y - a.y) / (b.y - a.y) + a.x
        = (1 - (p.y - a.y) / (b.y - a.y)) * a.x + (p.y - a.y) / (b.y - a.y) * b.x := by ring
    rw [this]

/-- **C39** (convex hull).  A point reported inside is in the convex hull of the vertices. -/
theorem C39_hull (vs : List Pt) (p : Pt) (h : inPoly vs p = true) : InHull vs p := by
  intro nx ny c hv
  by_contra hlt
  have hlt : nx * p.x + ny * p.y < c := not_le.1 hlt
  cases vs with
  | nil => simp [inPoly_nil] at h
  | cons v vs =>
    rw [inPoly_cons] at h
    have hmem : ∀ q, q ∈ v :: vs ++ [v] → q ∈ v :: vs := by
      intro q hq; simp at hq; simp; tauto
    have hpt : ∀ a ∈ v :: vs, ∀ b ∈ v :: vs, ∀ t : Rat, 0 ≤ t → t ≤ 1 → (1 - t) * a.y + t * b.y = p.y →
        0 < nx * (((1 - t) * a.x + t * b.x) - p.x) := by
      intro a ha b hb t h0 h1 hy
      have k1 := mul_le_mul_of_nonneg_left (hv a ha) (sub_nonneg.2 h1)
      have k2 := mul_le_mul_of_nonneg_left (hv b hb) h0
      have e : nx * (((1 - t) * a.x + t * b.x) - p.x)
          = ((1 - t) * (nx * a.x + ny * a.y) + t * (nx * b.x + ny * b.y)) - ny * ((1 - t) * a.y + t * b.y) - nx * p.x := by
        ring
      rw [e, hy]
      nlinarith
    rcases lt_trichotomy nx 0 with hn | hn | hn
    · obtain ⟨a, ha, b, hb, hab⟩ := pathPar_true _ h
      have hs : (decide (a.y > p.y) != decide (b.y > p.y)) = true := by
        unfold crosses at hab; rw [Bool.and_eq_true] at hab; exact hab.1
      obtain ⟨t, h0, h1, hy, hc⟩ := cross_point hs
      have := hpt a (hmem a ha) b (hmem b hb) t h0 h1 hy
      rw [hc] at hab
      have hx := of_decide_eq_true hab
      nlinarith
    · obtain ⟨a, ha, b, hb, hab⟩ := pathPar_true _ h
      have hs : (decide (a.y > p.y) != decide (b.y > p.y)) = true := by
        unfold crosses at hab; rw [Bool.and_eq_true] at hab; exact hab.1
      obtain ⟨t, h0, h1, hy, hc⟩ := cross_point hs
      have := hpt a (hmem a ha) b (hmem b hb) t h0 h1 hy
      rw [hn] at this
      simp at this
    · have : ∀ q ∈ v :: (vs ++ [v]), ∀ r ∈ v :: (vs ++ [v]),
          crosses p q r = (decide (q.y > p.y) != decide (r.y > p.y)) := by
        intro q hq r hr
        by_cases hs : (decide (q.y > p.y) != decide (r.y > p.y)) = true
        · obtain ⟨t, h0, h1, hy, hc⟩ := cross_point hs
          have k := hpt q (hmem q hq) r (hmem r hr) t h0 h1 hy
          rw [hs, hc]
          apply decide_eq_true
          have := (mul_pos_iff_of_pos_left hn).1 k
          linarith
        · have hs := Bool.eq_false_iff.2 hs
          unfold crosses
          rw [hs, Bool.false_and]
      rw [List.cons_append, pathPar_sides v (vs ++ [v]) this] at h
      simp at h

/-- **C39** (triangle, inside).  A point strictly inside of a triangle of either orientation is reported inside. -/
theorem C39_triangle_inside (a b c p : Pt)
    (h : (0 < orient a b p ∧ 0 < orient b c p ∧ 0 < orient c a p) ∨
         (orient a b p < 0 ∧ orient b c p < 0 ∧ orient c a p < 0)) : inPoly [a, b, c] p = true := by
  rcases h with h | h
  · exact tri_inside h.1 h.2.1 h.2.2
  · rw [← C39_reverse]
    have e : ∀ u v : Pt, orient v u p = - orient u v p := by intro u v; unfold orient; ring
    apply tri_inside
    · rw [e b c]; linarith [h.2.1]
    · rw [e a b]; linarith [h.1]
    · rw [e c a]; linarith [h.2.2]

/-- **C39** (triangle, outside).  A point strictly on the other side of one of the edges than the opposite vertex is
reported outside. -/
theorem C39_triangle_outside (a b c p : Pt) (h : orient a b p * orient a b c < 0) : inPoly [a, b, c] p = false := by
  by_contra hc
  have hh := C39_hull _ _ (Bool.eq_true_of_not_eq_false hc)
  rcases lt_trichotomy (orient a b c) 0 with h0 | h0 | h0
  · have := hh (b.y - a.y) (-(b.x - a.x)) ((b.y - a.y) * a.x - (b.x - a.x) * a.y) (by
      intro v hv
      simp only [List.mem_cons, List.not_mem_nil, or_false] at hv
      rcases hv with rfl | rfl | rfl
      · linarith
      · linarith
      · unfold orient at h0; linarith)
    have hp : 0 < orient a b p := by nlinarith
    unfold orient at hp; linarith
  · rw [h0] at h; simp at h
  · have := hh (-(b.y - a.y)) (b.x - a.x) (-((b.y - a.y) * a.x) + (b.x - a.x) * a.y) (by
      intro v hv
      simp only [List.mem_cons, List.not_mem_nil, or_false] at hv
      rcases hv with rfl | rfl | rfl
      · linarith
      · linarith
      · unfold orient at h0; linarith)
    have hp : orient a b p < 0 := by nlinarith
    unfold orient at hp; linarith

example : orient ⟨0, 0⟩ ⟨3, 0⟩ ⟨1, 1⟩ = 3 ∧ orient ⟨0, 0⟩ ⟨3, 0⟩ ⟨1, -1⟩ * orient ⟨0, 0⟩ ⟨3, 0⟩ ⟨0, 3⟩ < 0 := by
  norm_num [orient]

end Verif.Geom
