import Verif.Geom.PinPModel
import Verif.Geom.PolyProps

/-!
# C202: the point in polygon test in Python is that of the compiled library
-/

namespace Verif.Geom

/-- Parity of the edges of an open path that satisfy `h`. -/
def par (h : Pt → Pt → Bool) : List Pt → Bool
  | [] => false
  | [_] => false
  | a :: b :: r => xor (h a b) (par h (b :: r))

theorem pinpLoop_eq (p : Pt) : ∀ (vs : List Pt) (j : Pt) (c : Bool),
    pinpLoop p j vs c = xor c (par (pinpHit p) (j :: vs)) := by
  intro vs
  induction vs with
  | nil => intro j c; simp [pinpLoop, par]
  | cons v vs ih =>
    intro j c
    rw [pinpLoop, ih, par]
    cases pinpHit p j v <;> cases c <;> cases par (pinpHit p) (v :: vs) <;> rfl

theorem pathPar_par (p : Pt) : ∀ l : List Pt, pathPar p l = par (crosses p) l := by
  intro l
  induction l with
  | nil => rfl
  | cons a l ih => cases l with
    | nil => rfl
    | cons b l => rw [pathPar, par, ih]

theorem par_map (f : Pt → Pt) (h : Pt → Pt → Bool) : ∀ l : List Pt,
    par h (l.map f) = par (fun a b => h (f a) (f b)) l := by
  intro l
  induction l with
  | nil => rfl
  | cons a l ih => cases l with
    | nil => rfl
    | cons b l =>
      rw [par, ← ih]
      rfl

/-- Two tests that differ by the difference of a function of the vertices have parities that differ by its values at the ends. -/
theorem par_telescope (h h' : Pt → Pt → Bool) (d : Pt → Bool) : ∀ (l : List Pt) (a : Pt),
    (∀ q r, [q, r] <:+: (a :: l) → h q r = xor (h' q r) (xor (d q) (d r))) →
    par h (a :: l) = xor (par h' (a :: l)) (xor (d a) (d ((a :: l).getLast (by simp)))) := by
  intro l
  induction l with
  | nil => intro a _; simp [par]
  | cons b l ih =>
    intro a hh
    rw [par, par, ih b (fun q r hqr => hh q r (hqr.trans ⟨[a], [], by simp⟩)), hh a b ⟨[], l, by simp⟩]
    rw [List.getLast_cons (by simp : b :: l ≠ [])]
    generalize h' a b = x; generalize par h' (b :: l) = y; generalize d a = u; generalize d b = v
    generalize d ((b :: l).getLast (by simp)) = w
    cases x <;> cases y <;> cases u <;> cases v <;> cases w <;> rfl

/-- The loop of the closed polygon. -/
theorem inPoly_par (vs : List Pt) (p : Pt) (hne : vs ≠ []) :
    inPoly vs p = par (crosses p) (vs.getLast hne :: vs) := by
  unfold inPoly
  rw [List.getLast?_eq_getLast_of_ne_nil hne]
  simp only [pipLoop_eq, Bool.false_xor, pathPar_par]

theorem inPoly_verts (vs : List Pt) (p : Pt) : inPoly (pinpVerts vs) p = inPoly vs p := by
  unfold pinpVerts
  split
  · rename_i h
    cases vs with
    | nil => rfl
    | cons v vs =>
      cases vs using List.reverseRecOn with
      | nil =>
        simp [inPoly, pipLoop, crosses_self]
      | append_singleton ws w =>
        have e : v = w := by
          have : (v :: (ws ++ [w])).getLast? = some w := by
            rw [← List.cons_append, List.getLast?_append]; simp
          rw [this] at h
          simpa using h
        subst e
        have : (v :: (ws ++ [v])).dropLast = v :: ws := by
          rw [← List.cons_append, List.dropLast_concat]
        rw [this]
        exact (C39_close v ws p).symm
  · rfl

theorem verts_nil {vs : List Pt} (h : pinpVerts vs = []) (p : Pt) : inPoly vs p = false := by
  rw [← inPoly_verts, h]; rfl

/-- The answer of Python as a parity. -/
theorem pinp_par (vs : List Pt) (p : Pt) (hne : vs ≠ []) : pinp vs p =
    some (if h : pinpVerts vs = [] then false else par (pinpHit p) ((pinpVerts vs).getLast h :: pinpVerts vs)) := by
  unfold pinp
  rw [if_neg hne, pinpLoop_eq]
  by_cases h : pinpVerts vs = []
  · simp [h, par]
  · rw [dif_neg h, Bool.false_xor]
    congr 3
    rw [List.getLastD_eq_getLast?, List.getLast?_eq_getLast_of_ne_nil h]
    rfl

/-! ## The crossing of an edge -/

theorem mid_between {ay b_y py ax bx px : Rat} (hs : (ay ≥ py) ≠ (b_y ≥ py)) :
    (ax ≥ px → bx ≥ px → bx - (b_y - py) * (ax - bx) / (ay - b_y) ≥ px) ∧
    (ax < px → bx < px → bx - (b_y - py) * (ax - bx) / (ay - b_y) < px) := by
  have hne : ay - b_y ≠ 0 := by
    intro e
    apply hs
    have : ay = b_y := by linarith
    rw [this]
  have e : bx - (b_y - py) * (ax - bx) / (ay - b_y) - px =
      ((ay - py) / (ay - b_y)) * (bx - px) + ((py - b_y) / (ay - b_y)) * (ax - px) := by
    field_simp
    ring
  have hsum : (ay - py) / (ay - b_y) + (py - b_y) / (ay - b_y) = 1 := by
    field_simp
    ring
  have h0 : 0 ≤ (ay - py) / (ay - b_y) ∧ 0 ≤ (py - b_y) / (ay - b_y) := by
    by_cases h1 : ay ≥ py
    · have h2 : b_y < py := by
        by_contra h2
        exact hs (by simp [h1, not_lt.mp h2])
      exact ⟨div_nonneg (by linarith) (by linarith), div_nonneg (by linarith) (by linarith)⟩
    · have h2 : b_y ≥ py := by
        by_contra h2
        exact hs (by simp [h1, h2])
      exact ⟨div_nonneg_of_nonpos (by linarith) (by linarith), div_nonneg_of_nonpos (by linarith) (by linarith)⟩
  generalize (ay - py) / (ay - b_y) = s at *
  generalize (py - b_y) / (ay - b_y) = t at *
  constructor
  · intro ha hb
    have : 0 ≤ s * (bx - px) + t * (ax - px) :=
      add_nonneg (mul_nonneg h0.1 (by linarith)) (mul_nonneg h0.2 (by linarith))
    linarith
  · intro ha hb
    have : s * (bx - px) + t * (ax - px) < 0 := by
      rcases lt_or_eq_of_le h0.1 with h | h
      · have := mul_neg_of_pos_of_neg h (by linarith : bx - px < 0)
        have := mul_nonpos_of_nonneg_of_nonpos h0.2 (by linarith : ax - px ≤ 0)
        linarith
      · rw [← h] at hsum ⊢
        have ht : t = 1 := by linarith
        rw [ht]; linarith
    linarith

/-- The short cut by the x coordinates changes nothing: an edge is hit exactly if its ends are on both sides of the line
through the point and it meets the line at the point or to the right of it. -/
theorem pinpHit_eq (p a b : Pt) : pinpHit p a b =
    ((decide (a.y ≥ p.y) != decide (b.y ≥ p.y)) && decide (b.x - (b.y - p.y) * (a.x - b.x) / (a.y - b.y) ≥ p.x)) := by
  unfold pinpHit
  by_cases hs : (a.y ≥ p.y) = (b.y ≥ p.y)
  · simp [hs]
  · congr 1
    obtain ⟨h1, h2⟩ := mid_between (ax := a.x) (bx := b.x) (px := p.x) hs
    by_cases ha : a.x ≥ p.x <;> by_cases hb : b.x ≥ p.x
    · rw [if_pos (by simp [ha, hb])]
      simp [ha, h1 ha hb]
    · rw [if_neg (by simp [ha, hb])]
    · rw [if_neg (by simp [ha, hb])]
    · rw [if_pos (by simp [ha, hb])]
      have := h2 (not_le.mp ha) (not_le.mp hb)
      simp only [ha, decide_false]
      exact (decide_eq_false (not_le.mpr this)).symm

/-! ## The properties -/

/-- The point opposite. -/
def Pt.neg (p : Pt) : Pt := ⟨-p.x, -p.y⟩

theorem hit_neg (p a b : Pt) : pinpHit p a b =
    xor (crosses p.neg a.neg b.neg) (xor (decide (a.y ≥ p.y)) (decide (b.y ≥ p.y))) := by
  rw [pinpHit_eq]
  unfold crosses Pt.neg
  simp only
  have e1 : decide (-a.y > -p.y) = !decide (a.y ≥ p.y) := by
    rw [← decide_not]; congr 1; simp
  have e2 : decide (-b.y > -p.y) = !decide (b.y ≥ p.y) := by
    rw [← decide_not]; congr 1; simp
  rw [e1, e2]
  by_cases hs : (a.y ≥ p.y) = (b.y ≥ p.y)
  · simp [hs]
  · have hne : a.y - b.y ≠ 0 := by
      intro e
      apply hs
      have : a.y = b.y := by linarith
      rw [this]
    have e : (-b.x - -a.x) * (-p.y - -a.y) / (-b.y - -a.y) + -a.x = -(b.x - (b.y - p.y) * (a.x - b.x) / (a.y - b.y)) := by
      have : -b.y - -a.y ≠ 0 := by intro h; apply hne; linarith
      field_simp
      ring
    rw [e]
    have e3 : decide (-p.x < -(b.x - (b.y - p.y) * (a.x - b.x) / (a.y - b.y))) =
        !decide (b.x - (b.y - p.y) * (a.x - b.x) / (a.y - b.y) ≥ p.x) := by
      rw [← decide_not, decide_eq_decide, neg_lt_neg_iff, ge_iff_le, not_le]
    rw [e3]
    generalize decide (b.x - (b.y - p.y) * (a.x - b.x) / (a.y - b.y) ≥ p.x) = z
    have hd : decide (a.y ≥ p.y) ≠ decide (b.y ≥ p.y) := by
      intro h; apply hs; simpa using h
    revert hd
    generalize decide (a.y ≥ p.y) = x
    generalize decide (b.y ≥ p.y) = y
    cases x <;> cases y <;> cases z <;> simp

/-- **C202** (all points).  The Python test is the test of the compiled library seen from the other side: it treats a
boundary as the compiled one treats the boundary of the polygon turned by 180 degrees. -/
theorem C202_turned (vs : List Pt) (p : Pt) (hne : vs ≠ []) : pinp vs p = some (inPoly (vs.map Pt.neg) p.neg) := by
  rw [pinp_par vs p hne]
  have hv : inPoly (vs.map Pt.neg) p.neg = inPoly ((pinpVerts vs).map Pt.neg) p.neg := by
    have inj : Function.Injective Pt.neg := by
      intro a b h
      cases a; cases b
      simpa [Pt.neg] using h
    have : (pinpVerts vs).map Pt.neg = pinpVerts (vs.map Pt.neg) := by
      unfold pinpVerts
      by_cases h : vs.head? = vs.getLast?
      · rw [if_pos h, if_pos (by simp [h]), List.map_dropLast]
      · rw [if_neg h, if_neg]
        simp only [List.head?_map, List.getLast?_map]
        intro h'
        exact h (Option.map_injective inj h')
    rw [this, inPoly_verts]
  rw [hv]
  congr 1
  by_cases h : pinpVerts vs = []
  · rw [dif_pos h, h]; rfl
  · rw [dif_neg h]
    have hm : (pinpVerts vs).map Pt.neg ≠ [] := by simpa using h
    rw [inPoly_par _ _ hm, List.getLast_map, ← List.map_cons, par_map]
    rw [par_telescope _ (fun a b => crosses p.neg a.neg b.neg) (fun q => decide (q.y ≥ p.y)) _ _
      (fun q r _ => hit_neg p q r), List.getLast_cons h]
    simp

/-- A point is on the segment between two vertices. -/
def OnEdge (p a b : Pt) : Prop :=
  orient a b p = 0 ∧ min a.x b.x ≤ p.x ∧ p.x ≤ max a.x b.x ∧ min a.y b.y ≤ p.y ∧ p.y ≤ max a.y b.y

/-- Off the edge the two tests differ by the ends that are level with the point and to the right of it. -/
theorem hit_off (p a b : Pt) (h : ¬ OnEdge p a b) : pinpHit p a b =
    xor (crosses p a b) (xor (decide (a.y = p.y ∧ p.x < a.x)) (decide (b.y = p.y ∧ p.x < b.x))) := by
  rw [pinpHit_eq]
  unfold crosses
  by_cases ea : a.y = p.y
  · by_cases eb : b.y = p.y
    · -- a level edge
      have hx : ¬ (min a.x b.x ≤ p.x ∧ p.x ≤ max a.x b.x) := by
        intro hx
        apply h
        refine ⟨by simp [orient, ea, eb], hx.1, hx.2, by simp [ea, eb], by simp [ea, eb]⟩
      have : decide (p.x < a.x) = decide (p.x < b.x) := by
        simp only [decide_eq_decide]
        constructor
        · intro h1
          by_contra h2
          exact hx ⟨le_trans (min_le_right _ _) (not_lt.mp h2), le_trans h1.le (le_max_left _ _)⟩
        · intro h1
          by_contra h2
          exact hx ⟨le_trans (min_le_left _ _) (not_lt.mp h2), le_trans h1.le (le_max_right _ _)⟩
      simp only [ea, eb, true_and, this, bne_self_eq_false, Bool.false_and]
    · -- one end is level
      have hne : p.y - b.y ≠ 0 := fun e => eb (by linarith)
      have hne' : b.y - p.y ≠ 0 := fun e => eb (by linarith)
      have e1 : b.x - (b.y - p.y) * (a.x - b.x) / (a.y - b.y) = a.x := by
        rw [ea]; field_simp; ring
      have e2 : (b.x - a.x) * (p.y - a.y) / (b.y - a.y) + a.x = a.x := by
        rw [ea]; simp
      have hx : a.x ≠ p.x := by
        intro e
        apply h
        refine ⟨by simp [orient, ea, e], ?_, ?_, ?_, ?_⟩
        · rw [← e]; exact min_le_left _ _
        · rw [← e]; exact le_max_left _ _
        · rw [← ea]; exact min_le_left _ _
        · rw [← ea]; exact le_max_left _ _
      have hx' : decide (a.x ≥ p.x) = decide (p.x < a.x) := by
        simp only [decide_eq_decide]
        exact ⟨fun h' => lt_of_le_of_ne h' (Ne.symm hx), le_of_lt⟩
      rw [e1, e2, hx']
      simp only [ea, eb, true_and, false_and, ge_iff_le, le_refl, decide_true, decide_false, gt_iff_lt, lt_irrefl,
        Bool.xor_false]
      rcases lt_or_gt_of_ne eb with hb | hb
      · simp [not_le.mpr hb, not_lt.mpr hb.le]
      · simp [hb, hb.le]
  · by_cases eb : b.y = p.y
    · have hne : a.y - p.y ≠ 0 := fun e => ea (by linarith)
      have hne' : p.y - a.y ≠ 0 := fun e => ea (by linarith)
      have e1 : b.x - (b.y - p.y) * (a.x - b.x) / (a.y - b.y) = b.x := by
        rw [eb]; simp
      have e2 : (b.x - a.x) * (p.y - a.y) / (b.y - a.y) + a.x = b.x := by
        rw [eb]; field_simp; ring
      have hx : b.x ≠ p.x := by
        intro e
        apply h
        refine ⟨by simp [orient, eb, e]; ring, ?_, ?_, ?_, ?_⟩
        · rw [← e]; exact min_le_right _ _
        · rw [← e]; exact le_max_right _ _
        · rw [← eb]; exact min_le_right _ _
        · rw [← eb]; exact le_max_right _ _
      have hx' : decide (b.x ≥ p.x) = decide (p.x < b.x) := by
        simp only [decide_eq_decide]
        exact ⟨fun h' => lt_of_le_of_ne h' (Ne.symm hx), le_of_lt⟩
      rw [e1, e2, hx']
      simp only [ea, eb, true_and, false_and, ge_iff_le, le_refl, decide_true, decide_false, gt_iff_lt, lt_irrefl,
        Bool.false_xor]
      rcases lt_or_gt_of_ne ea with hb | hb
      · simp [not_le.mpr hb, not_lt.mpr hb.le]
      · simp [hb, hb.le]
    · -- no end is level
      simp only [ea, eb, false_and, decide_false, Bool.xor_false]
      have g1 : decide (a.y ≥ p.y) = decide (a.y > p.y) := by
        simp only [decide_eq_decide]
        exact ⟨fun h' => lt_of_le_of_ne h' (Ne.symm ea), le_of_lt⟩
      have g2 : decide (b.y ≥ p.y) = decide (b.y > p.y) := by
        simp only [decide_eq_decide]
        exact ⟨fun h' => lt_of_le_of_ne h' (Ne.symm eb), le_of_lt⟩
      rw [g1, g2]
      by_cases hs : decide (a.y > p.y) = decide (b.y > p.y)
      · simp [hs]
      · congr 1
        have hne : a.y - b.y ≠ 0 := by
          intro e
          apply hs
          have : a.y = b.y := by linarith
          rw [this]
        have hne' : b.y - a.y ≠ 0 := fun e => hne (by linarith)
        have e : (b.x - a.x) * (p.y - a.y) / (b.y - a.y) + a.x = b.x - (b.y - p.y) * (a.x - b.x) / (a.y - b.y) := by
          field_simp
          ring
        rw [e]
        have hp : b.x - (b.y - p.y) * (a.x - b.x) / (a.y - b.y) ≠ p.x := by
          intro e
          apply h
          have hy : (a.y > p.y ∧ b.y < p.y) ∨ (a.y < p.y ∧ b.y > p.y) := by
            rcases lt_or_gt_of_ne ea with h1 | h1 <;> rcases lt_or_gt_of_ne eb with h2 | h2
            · exact absurd (by simp [not_lt.mpr h1.le, not_lt.mpr h2.le]) hs
            · exact Or.inr ⟨h1, h2⟩
            · exact Or.inl ⟨h1, h2⟩
            · exact absurd (by simp [h1, h2]) hs
          have hge : (a.y ≥ p.y) ≠ (b.y ≥ p.y) := by
            rcases hy with ⟨h1, h2⟩ | ⟨h1, h2⟩
            · simp [h1.le, not_le.mpr h2]
            · simp [h2.le, not_le.mpr h1]
          have e' : (b.x - p.x) * (a.y - b.y) = (b.y - p.y) * (a.x - b.x) := by
            rw [← e]; field_simp; ring
          refine ⟨by unfold orient; linarith, ?_, ?_, ?_, ?_⟩
          · by_contra hlt
            rw [not_le, lt_min_iff] at hlt
            have hh : b.x - (b.y - p.y) * (a.x - b.x) / (a.y - b.y) ≥ min a.x b.x :=
              (mid_between (px := min a.x b.x) hge).1 (min_le_left _ _) (min_le_right _ _)
            rw [e] at hh
            exact absurd hh (not_le.mpr (lt_min hlt.1 hlt.2))
          · by_contra hlt
            rw [not_le, max_lt_iff] at hlt
            have := (mid_between (ax := a.x) (bx := b.x) (px := p.x) hge).2 hlt.1 hlt.2
            rw [e] at this
            exact absurd this (lt_irrefl _)
          · rcases hy with ⟨h1, h2⟩ | ⟨h1, h2⟩
            · exact le_trans (min_le_right _ _) h2.le
            · exact le_trans (min_le_left _ _) h1.le
          · rcases hy with ⟨h1, h2⟩ | ⟨h1, h2⟩
            · exact le_trans h1.le (le_max_left _ _)
            · exact le_trans h2.le (le_max_right _ _)
        simp only [decide_eq_decide]
        exact ⟨fun h' => lt_of_le_of_ne h' (Ne.symm hp), le_of_lt⟩

/-- The claim: both tests give the same answer. -/
def C202_claim : Prop := ∀ (vs : List Pt) (p : Pt), vs ≠ [] → pinp vs p = some (inPoly vs p)

/-- **C202** (points that are not on the boundary).  Missing: points on an edge of the polygon. -/
theorem C202_partial (vs : List Pt) (p : Pt) (hne : vs ≠ [])
    (h : ∀ a b, [a, b] <:+: (vs.getLast hne :: vs) → ¬ OnEdge p a b) : pinp vs p = some (inPoly vs p) := by
  rw [pinp_par vs p hne]
  congr 1
  by_cases hv : pinpVerts vs = []
  · rw [dif_pos hv, verts_nil hv]
  · rw [dif_neg hv, ← inPoly_verts vs p, inPoly_par _ _ hv]
    rw [par_telescope _ (crosses p) (fun q => decide (q.y = p.y ∧ p.x < q.x)) _ _ (fun q r hqr => hit_off p q r (h q r ?_)),
      List.getLast_cons hv]
    · simp
    · rw [List.infix_cons_iff] at hqr ⊢
      unfold pinpVerts at hv hqr
      by_cases hc : vs.head? = vs.getLast?
      · simp only [if_pos hc] at hv hqr
        right
        have hcat := List.dropLast_append_getLast hne
        rcases hqr with hq | hq
        · -- the edge from the last vertex but one to the first
          have hd := List.dropLast_append_getLast hv
          obtain ⟨w, ws, hw⟩ := List.exists_cons_of_ne_nil hv
          have hlast : vs.getLast hne = w := by
            have h1 : vs.head? = some w := by rw [← hcat, hw]; rfl
            rw [h1, List.getLast?_eq_getLast_of_ne_nil hne] at hc
            exact (Option.some.inj hc).symm
          have hqr' : q = vs.dropLast.getLast hv ∧ r = w := by
            obtain ⟨t, ht⟩ := hq
            rw [List.cons_append, List.cons.injEq] at ht
            refine ⟨ht.1, ?_⟩
            have := ht.2
            rw [hw] at this
            simpa using (List.cons.inj this).1
          rw [hqr'.1, hqr'.2]
          refine ⟨vs.dropLast.dropLast, [], ?_⟩
          calc vs.dropLast.dropLast ++ [vs.dropLast.getLast hv, w] ++ []
              = (vs.dropLast.dropLast ++ [vs.dropLast.getLast hv]) ++ [w] := by simp
            _ = vs.dropLast ++ [w] := by rw [hd]
            _ = vs := by rw [← hlast, hcat]
        · exact hq.trans (List.dropLast_prefix vs).isInfix
      · simpa only [if_neg hc] using hqr

/-- A square. -/
def sq : List Pt := [⟨0, 0⟩, ⟨2, 0⟩, ⟨2, 2⟩, ⟨0, 2⟩]

example : pinp sq ⟨1, 1⟩ = some true ∧ pinp (sq ++ [⟨0, 0⟩]) ⟨1, 1⟩ = some true ∧ pinp sq ⟨3, 1⟩ = some false := by
  decide +kernel

/-- A point that meets the hypothesis of `C202_partial`, level with a vertex. -/
example : ∀ a b, [a, b] <:+: ([(⟨0, 1⟩ : Pt), ⟨1, 0⟩, ⟨2, 1⟩, ⟨0, 1⟩]) → ¬ OnEdge ⟨-1, 1⟩ a b := by
  intro a b h ho
  simp only [List.infix_cons_iff, List.cons_prefix_cons, List.nil_prefix, and_true] at h
  rcases h with ⟨rfl, rfl⟩ | ⟨rfl, rfl⟩ | ⟨rfl, rfl⟩ | h <;> simp_all [OnEdge] <;> norm_num at ho

/-- **C202**, the claim fails: a corner of a square is inside for one test and outside for the other, both ways. -/
theorem C202_counterexample : ¬ C202_claim ∧
    (pinp sq ⟨0, 0⟩ = some false ∧ inPoly sq ⟨0, 0⟩ = true) ∧ (pinp sq ⟨2, 2⟩ = some true ∧ inPoly sq ⟨2, 2⟩ = false) := by
  have h : (pinp sq ⟨0, 0⟩ = some false ∧ inPoly sq ⟨0, 0⟩ = true) ∧
      (pinp sq ⟨2, 2⟩ = some true ∧ inPoly sq ⟨2, 2⟩ = false) := by decide +kernel
  refine ⟨fun hc => ?_, h⟩
  have := hc sq ⟨0, 0⟩ (by decide)
  rw [h.1.1, h.1.2] at this
  simp at this

/-- **C202** (adjacent polygons).  Cut the closed polygon `a … b …` along any path `cs` from `a` to `b`: for the test in Python
too a point is in the whole iff it is in exactly one of the two parts, also on the cut and on the boundary. -/
theorem C202_cut (a b : Pt) (as bs cs : List Pt) (p : Pt) : ∃ w x y,
    pinp (a :: as ++ b :: bs) p = some w ∧ pinp (a :: as ++ b :: cs.reverse) p = some x ∧
    pinp (a :: cs ++ b :: bs) p = some y ∧ w = xor x y := by
  refine ⟨_, _, _, C202_turned _ _ (by simp), C202_turned _ _ (by simp), C202_turned _ _ (by simp), ?_⟩
  simp only [List.map_append, List.map_cons, List.map_reverse]
  exact C39_cut a.neg b.neg (as.map Pt.neg) (bs.map Pt.neg) (cs.map Pt.neg) p.neg

/-- A point on the diagonal of the square is in exactly one of the two triangles. -/
example : pinp sq ⟨1, 1⟩ = some true ∧ pinp [⟨0, 0⟩, ⟨2, 0⟩, ⟨2, 2⟩] ⟨1, 1⟩ = some false ∧
    pinp [⟨0, 0⟩, ⟨2, 2⟩, ⟨0, 2⟩] ⟨1, 1⟩ = some true := by decide +kernel

/-- **C202** (the caller's array).  A single point that is given as a numpy array has another shape afterwards; arrays of points
are left as they are. -/
theorem C202_array (vs : List Pt) (hne : vs ≠ []) (a : PtArr) :
    ∃ r, pinpArray vs a = some (r, { a with flat := false }) ∧ r = a.pts.map (fun p => inPoly (vs.map Pt.neg) p.neg) := by
  unfold pinpArray
  by_cases h : a.pts = []
  · rw [if_pos h]; exact ⟨[], rfl, by simp [h]⟩
  · rw [if_neg h, if_neg hne]
    refine ⟨_, rfl, ?_⟩
    apply List.map_congr_left
    intro p _
    rw [C202_turned vs p hne]; rfl

theorem C202_counterexample_array : (pinpArray sq ⟨true, [⟨1, 1⟩]⟩).map (fun r => r.2.flat) = some false := by decide +kernel

end Verif.Geom
