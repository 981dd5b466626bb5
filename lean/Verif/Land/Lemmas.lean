import Verif.Land.Spec
import Mathlib.Tactic.Ring
import Mathlib.Tactic.Linarith
/-
Lemmas about the pixel path and the march.
-/
namespace Verif.Land

/-- `b` is the nearest pixel to the exact line, `k` steps along. -/
def Near (D d b k : Int) : Prop := -D ≤ 2 * (b * D - k * d) ∧ 2 * (b * D - k * d) < D

theorem nearest_near {D d : Int} (hD : 0 < D) (k : Nat) : Near D d (nearest D d k) k := by
  unfold Near nearest
  have h1 := Int.mul_ediv_add_emod (2 * k * d + D - 1) (2 * D)
  have h2 := Int.emod_nonneg (2 * k * d + D - 1) (show (2 * D) ≠ 0 by omega)
  have h3 := Int.emod_lt_of_pos (2 * k * d + D - 1) (show 0 < 2 * D by omega)
  generalize (2 * (k : Int) * d + D - 1) / (2 * D) = b at *
  generalize (2 * (k : Int) * d + D - 1) % (2 * D) = r at *
  constructor <;> nlinarith

theorem near_unique {D d b b' k : Int} (hD : 0 < D) (h : Near D d b k) (h' : Near D d b' k) :
    b = b' := by
  unfold Near at h h'
  have h1 : (b - b') * D < D := by nlinarith
  have h2 : -D < (b - b') * D := by nlinarith
  have h3 : b - b' < 1 := by
    by_contra hc
    have : 1 * D ≤ (b - b') * D := Int.mul_le_mul_of_nonneg_right (by omega) (by omega)
    omega
  have h4 : -1 < b - b' := by
    by_contra hc
    have : (b - b') * D ≤ (-1) * D := Int.mul_le_mul_of_nonneg_right (by omega) (by omega)
    omega
  omega

theorem near_step {D d b k : Int} (hD : 0 < D) (h0 : 0 ≤ d) (hd : d ≤ D) (h : Near D d b k) :
    2 * ((b + 1) * D - (k + 1) * d) > -d ∧
    (2 * ((b + 1) * D - (k + 1) * d) < D → Near D d (b + 1) (k + 1)) ∧
    (¬ 2 * ((b + 1) * D - (k + 1) * d) < D → Near D d b (k + 1)) := by
  unfold Near at *
  obtain ⟨h1, h2⟩ := h
  refine ⟨?_, ?_, ?_⟩
  · rcases Int.lt_or_eq_of_le hd with h3 | h3
    · nlinarith
    · subst h3
      have : Near d d b k := ⟨h1, h2⟩
      have hk : Near d d k k := ⟨by ring_nf; omega, by ring_nf; omega⟩
      have := near_unique hD this hk
      subst this
      nlinarith
  · intro h3
    constructor
    · nlinarith
    · nlinarith
  · intro h3
    constructor
    · nlinarith
    · nlinarith

/-- Moves along x and y in the first `k` steps. -/
def cntX (dx dy : Int) (k : Nat) : Int := if dy ≤ dx then k else nearest dy dx k
/-- Moves along x and y in the first `k` steps. -/
def cntY (dx dy : Int) (k : Nat) : Int := if dy ≤ dx then nearest dx dy k else k

/-- The error term of the march after `k` steps. -/
def errAt (dx dy : Int) (k : Nat) : Int :=
  (cntY dx dy k + 1) * dx - (cntX dx dy k + 1) * dy

theorem nearest_zero {D d : Int} (hD : 0 < D) : nearest D d 0 = 0 :=
  near_unique (b := nearest D d 0) (k := 0) (d := d) hD
    (by have := nearest_near (d := d) hD 0; simpa using this)
    (by unfold Near; constructor <;> simp <;> omega)

theorem cnt_zero {dx dy : Int} (hx : 0 ≤ dx) (hy : 0 ≤ dy) :
    cntX dx dy 0 = 0 ∧ cntY dx dy 0 = 0 := by
  unfold cntX cntY
  split
  · rcases Int.lt_or_eq_of_le hx with h | h
    · simp [nearest_zero h]
    · subst h; simp [nearest]
  · simp [nearest_zero (show 0 < dy by omega)]

theorem nearest_step {D d : Int} (hD : 0 < D) (h0 : 0 ≤ d) (hd : d ≤ D) (k : Nat) :
    2 * ((nearest D d k + 1) * D - (k + 1) * d) > -d ∧
    nearest D d (k + 1) = nearest D d k +
      (if 2 * ((nearest D d k + 1) * D - (k + 1) * d) < D then 1 else 0) := by
  have hn := nearest_near (d := d) hD k
  have hn' := nearest_near (d := d) hD (k + 1)
  have hs := near_step hD h0 hd hn
  refine ⟨hs.1, ?_⟩
  push_cast at hn'
  split
  · exact near_unique hD hn' (hs.2.1 (by assumption))
  · have := near_unique hD hn' (hs.2.2 (by assumption)); omega

/-- One step of the march advances the counters exactly when its tests say so. -/
theorem cnt_step {dx dy : Int} (hx : 0 ≤ dx) (hy : 0 ≤ dy) (hpos : 0 < dx ∨ 0 < dy) (k : Nat) :
    cntX dx dy (k + 1) = cntX dx dy k + (if 2 * errAt dx dy k > -dy then 1 else 0) ∧
    cntY dx dy (k + 1) = cntY dx dy k + (if 2 * errAt dx dy k < dx then 1 else 0) ∧
    (2 * errAt dx dy k > -dy ∨ 2 * errAt dx dy k < dx) := by
  unfold errAt
  by_cases h : dy ≤ dx
  · have hn := nearest_step (show 0 < dx by omega) hy h k
    simp only [cntX, cntY, if_pos h]
    refine ⟨?_, hn.2, .inl hn.1⟩
    rw [if_pos hn.1]; push_cast; rfl
  · have hn := nearest_step (show 0 < dy by omega) hx (show dx ≤ dy by omega) k
    simp only [cntX, cntY, if_neg h]
    have e1 : (2 * ((nearest dy dx k + 1) * dy - (k + 1) * dx) < dy) ↔
        (2 * (((k : Int) + 1) * dx - (nearest dy dx k + 1) * dy) > -dy) := by
      constructor <;> intro h <;> linarith
    have e2 : (2 * ((nearest dy dx k + 1) * dy - (k + 1) * dx) > -dx) ↔
        (2 * (((k : Int) + 1) * dx - (nearest dy dx k + 1) * dy) < dx) := by
      constructor <;> intro h <;> linarith
    refine ⟨?_, ?_, .inr (e2.1 hn.1)⟩
    · rw [hn.2]; simp only [e1]
    · rw [if_pos (e2.1 hn.1)]; push_cast; rfl

theorem nearest_end {D d : Int} (hD : 0 < D) (N : Nat) (hN : (N : Int) = D) :
    nearest D d N = d := by
  apply near_unique hD (nearest_near hD N)
  unfold Near
  rw [hN]
  constructor <;> nlinarith

theorem cnt_end (dx dy : Nat) :
    cntX dx dy (max dx dy) = dx ∧ cntY dx dy (max dx dy) = dy := by
  unfold cntX cntY
  split
  · rename_i h
    have h' : dy ≤ dx := by omega
    rw [Nat.max_eq_left h']
    refine ⟨rfl, ?_⟩
    rcases Nat.eq_zero_or_pos dx with h0 | h0
    · subst h0
      have : dy = 0 := by omega
      subst this; simp [nearest]
    · exact nearest_end (by omega) dx rfl
  · rename_i h
    have h' : dx ≤ dy := by omega
    rw [Nat.max_eq_right h']
    exact ⟨nearest_end (by omega) dy rfl, rfl⟩

/-- Extents of a move. -/
def ex (p q : Int × Int) : Int := ((q.1 - p.1).natAbs : Int)
/-- Extents of a move. -/
def ey (p q : Int × Int) : Int := ((q.2 - p.2).natAbs : Int)

theorem ex_nonneg (p q) : 0 ≤ ex p q := by unfold ex; omega
theorem ey_nonneg (p q) : 0 ≤ ey p q := by unfold ey; omega

theorem pix_eq (p q : Int × Int) (k : Nat) :
    pix p q k = (p.1 + sgn p.1 q.1 * cntX (ex p q) (ey p q) k,
                 p.2 + sgn p.2 q.2 * cntY (ex p q) (ey p q) k) := by
  unfold pix cntX cntY ex ey sgn
  simp only
  split <;> rfl

theorem steps_eq (p q : Int × Int) :
    steps p q = max (q.1 - p.1).natAbs (q.2 - p.2).natAbs := rfl

theorem pix_zero (p q : Int × Int) : pix p q 0 = p := by
  rw [pix_eq, (cnt_zero (ex_nonneg p q) (ey_nonneg p q)).1,
    (cnt_zero (ex_nonneg p q) (ey_nonneg p q)).2]
  simp

theorem pix_end (p q : Int × Int) : pix p q (steps p q) = q := by
  have h := cnt_end (q.1 - p.1).natAbs (q.2 - p.2).natAbs
  rw [pix_eq, steps_eq]
  unfold ex ey
  rw [h.1, h.2]
  unfold sgn
  ext
  · simp only; split <;> omega
  · simp only; split <;> omega

theorem cntX_mono {dx dy : Int} (hx : 0 ≤ dx) (hy : 0 ≤ dy) (hpos : 0 < dx ∨ 0 < dy)
    {j k : Nat} (h : j ≤ k) :
    cntX dx dy j ≤ cntX dx dy k ∧ cntY dx dy j ≤ cntY dx dy k := by
  induction h with
  | refl => exact ⟨Int.le_refl _, Int.le_refl _⟩
  | step h ih =>
    rename_i m
    have := cnt_step hx hy hpos m
    rw [this.1, this.2.1]
    constructor
    · split <;> omega
    · split <;> omega

theorem pos_of_steps {p q : Int × Int} (h : 0 < steps p q) : 0 < ex p q ∨ 0 < ey p q := by
  unfold steps at h; unfold ex ey; omega

/-- One step of the march. -/
theorem pix_step {p q : Int × Int} (h : 0 < steps p q) (k : Nat) :
    (pix p q (k + 1)).1 = (if 2 * errAt (ex p q) (ey p q) k > -(ey p q) then
        (pix p q k).1 + sgn p.1 q.1 else (pix p q k).1) ∧
    (pix p q (k + 1)).2 = (if 2 * errAt (ex p q) (ey p q) k < ex p q then
        (pix p q k).2 + sgn p.2 q.2 else (pix p q k).2) ∧
    (2 * errAt (ex p q) (ey p q) k > -(ey p q) ∨ 2 * errAt (ex p q) (ey p q) k < ex p q) := by
  have hs := cnt_step (ex_nonneg p q) (ey_nonneg p q) (pos_of_steps h) k
  simp only [pix_eq]
  rw [hs.1, hs.2.1]
  refine ⟨?_, ?_, hs.2.2⟩
  · split <;> ring
  · split <;> ring

theorem err_step {p q : Int × Int} (h : 0 < steps p q) (k : Nat) :
    errAt (ex p q) (ey p q) (k + 1) =
      (if 2 * errAt (ex p q) (ey p q) k < ex p q then
        (if 2 * errAt (ex p q) (ey p q) k > -(ey p q) then errAt (ex p q) (ey p q) k - ey p q
          else errAt (ex p q) (ey p q) k) + ex p q
       else (if 2 * errAt (ex p q) (ey p q) k > -(ey p q) then errAt (ex p q) (ey p q) k - ey p q
          else errAt (ex p q) (ey p q) k)) := by
  have hs := cnt_step (ex_nonneg p q) (ey_nonneg p q) (pos_of_steps h) k
  conv_lhs => unfold errAt
  rw [hs.1, hs.2.1]
  split <;> split <;> simp only [errAt] <;> ring

theorem adv_eq {p q : Int × Int} (h : 0 < steps p q) (k : Nat) :
    adv (ex p q) (ey p q) (sgn p.1 q.1) (sgn p.2 q.2) (pix p q k).1 (pix p q k).2
      (errAt (ex p q) (ey p q) k) =
    ((pix p q (k + 1)).1, (pix p q (k + 1)).2, errAt (ex p q) (ey p q) (k + 1)) := by
  have hst := pix_step h k
  rw [err_step h k, hst.1, hst.2.1]
  rfl

/-- The path is monotone along each axis. -/
theorem pix_between {p q : Int × Int} {i j k : Nat} (hij : i ≤ j) (hjk : j ≤ k) :
    (((pix p q i).1 ≤ (pix p q j).1 ∧ (pix p q j).1 ≤ (pix p q k).1) ∨
     ((pix p q k).1 ≤ (pix p q j).1 ∧ (pix p q j).1 ≤ (pix p q i).1)) ∧
    (((pix p q i).2 ≤ (pix p q j).2 ∧ (pix p q j).2 ≤ (pix p q k).2) ∨
     ((pix p q k).2 ≤ (pix p q j).2 ∧ (pix p q j).2 ≤ (pix p q i).2)) := by
  simp only [pix_eq]
  by_cases h : 0 < steps p q
  · have h1 := cntX_mono (ex_nonneg p q) (ey_nonneg p q) (pos_of_steps h) hij
    have h2 := cntX_mono (ex_nonneg p q) (ey_nonneg p q) (pos_of_steps h) hjk
    unfold sgn
    constructor
    · split <;> omega
    · split <;> omega
  · have h1 : ex p q = 0 := by unfold steps at h; unfold ex; omega
    have h2 : ey p q = 0 := by unfold steps at h; unfold ey; omega
    have e : p = q := by
      unfold ex at h1; unfold ey at h2
      ext <;> omega
    subst e
    rw [h1, h2]
    simp only [cntX, cntY, nearest, sgn]
    simp
    omega

theorem off_iff (g : Grid) (x y : Int) : off g x y = true ↔ ¬ inside g (x, y) := by
  unfold off inside
  simp only [Bool.or_eq_true, decide_eq_true_eq]
  omega

theorem flat_lt {m n x y : Nat} (hx : x < m) (hy : y < n) : x * n + y < m * n := by
  calc x * n + y < x * n + n := by omega
    _ = (x + 1) * n := by ring
    _ ≤ m * n := Nat.mul_le_mul_right n hx

theorem read_inside {g : Grid} {c : Int × Int} (h : inside g c) :
    read g c.1 c.2 = some (g.data.getD (c.1.toNat * g.n + c.2.toNat) 0) := by
  obtain ⟨h1, h2, h3, h4⟩ := h
  unfold read readFlat
  have hx : c.1 = (c.1.toNat : Int) := by omega
  have hy : c.2 = (c.2.toNat : Int) := by omega
  have e : c.1 * (g.n : Int) + c.2 = ((c.1.toNat * g.n + c.2.toNat : Nat) : Int) := by
    push_cast; rw [← hx, ← hy]
  rw [e, if_neg (by omega), Int.toNat_natCast]
  have hl : c.1.toNat * g.n + c.2.toNat < g.data.length := by
    rw [g.size_eq]; exact flat_lt (by omega) (by omega)
  rw [List.getD_eq_getElem?_getD, List.getElem?_eq_getElem hl]; rfl

theorem pix_eq_end {p q : Int × Int} {k : Nat} (h : pix p q k = q) : k = steps p q := by
  rw [pix_eq] at h
  have h1 := congrArg Prod.fst h
  have h2 := congrArg Prod.snd h
  unfold steps
  simp only [cntX, cntY] at h1 h2
  by_cases hd : ey p q ≤ ex p q
  · rw [if_pos hd] at h1
    unfold sgn at h1; unfold ex ey at hd
    split at h1 <;> omega
  · rw [if_neg hd] at h2
    unfold sgn at h2; unfold ex ey at hd
    split at h2 <;> omega

/-- Once the path has left the raster it does not come back. -/
theorem left_for_good {g : Grid} {p q : Int × Int} {i j k : Nat} (hij : i ≤ j) (hjk : j ≤ k)
    (hi : inside g (pix p q i)) (hj : ¬ inside g (pix p q j)) : ¬ inside g (pix p q k) := by
  have h := pix_between (p := p) (q := q) hij hjk
  unfold inside at *
  omega

theorem stop_outside {g : Grid} {p q : Int × Int} {k : Nat} (h : ¬ inside g (pix p q k)) :
    stop g p q k = none := by
  have h1 : ¬ land g (pix p q k) := fun hc => h hc.1
  have h2 : ¬ (0 < k ∧ squeeze g (pix p q (k - 1)) (pix p q k)) := fun hc => h hc.2.2.1
  unfold stop
  rw [if_neg h1, if_neg h2]

/-- The outcome the specification demands. -/
def Good (g : Grid) (p q : Int × Int) (r : Res) : Prop :=
  (r = .miss ∧ ∀ j ≤ steps p q, stop g p q j = none) ∨
  (∃ j ≤ steps p q, ∃ h, stop g p q j = some h ∧ (∀ i < j, stop g p q i = none) ∧
    r = .hit (pix p q (j - 1)).1 (pix p q (j - 1)).2 h.1 h.2)

theorem walk_good (g : Grid) (p q : Int × Int) :
    ∀ (f k : Nat) (on : Bool), k ≤ steps p q → steps p q < f + k →
      (on = true ↔ inside g (pix p q k)) → (∀ j ≤ k, stop g p q j = none) →
      Good g p q (walk g (ex p q) (ey p q) (sgn p.1 q.1) (sgn p.2 q.2) q.1 q.2 f
        (pix p q k).1 (pix p q k).2 (errAt (ex p q) (ey p q) k) on) := by
  intro f
  induction f with
  | zero => intro k on hk hf; omega
  | succ f ih =>
    intro k on hk hf hon hnone
    rw [walk]
    by_cases hend : (pix p q k).1 = q.1 ∧ (pix p q k).2 = q.2
    · rw [if_pos hend]
      have : k = steps p q := pix_eq_end (Prod.ext hend.1 hend.2)
      left
      exact ⟨rfl, fun j hj => hnone j (by omega)⟩
    · rw [if_neg hend]
      have hkN : k < steps p q := by
        rcases Nat.lt_or_ge k (steps p q) with h | h
        · exact h
        · exfalso; apply hend
          have : k = steps p q := by omega
          rw [this, pix_end]; exact ⟨rfl, rfl⟩
      have hp : 0 < steps p q := by omega
      have hst := pix_step hp k
      simp only [adv_eq hp k]
      -- the next recursive call
      have next : ∀ on', (on' = true ↔ inside g (pix p q (k + 1))) →
          stop g p q (k + 1) = none →
          Good g p q (walk g (ex p q) (ey p q) (sgn p.1 q.1) (sgn p.2 q.2) q.1 q.2 f
            (pix p q (k + 1)).1 (pix p q (k + 1)).2 (errAt (ex p q) (ey p q) (k + 1)) on') := by
        intro on' h1 h2
        refine ih (k + 1) on' (by omega) (by omega) h1 ?_
        intro j hj
        rcases Nat.lt_or_ge j (k + 1) with h | h
        · exact hnone j (by omega)
        · have : j = k + 1 := by omega
          rw [this]; exact h2
      by_cases hoff : inside g (pix p q (k + 1))
      · rw [if_neg (show ¬ off g (pix p q (k + 1)).1 (pix p q (k + 1)).2 = true by
          rw [off_iff]; exact fun h => h hoff)]
        rw [read_inside hoff]
        simp only
        have hland : land g (pix p q (k + 1)) ↔
            g.data.getD ((pix p q (k + 1)).1.toNat * g.n + (pix p q (k + 1)).2.toNat) 0 ≠ 0 := by
          unfold land; exact ⟨fun h => h.2, fun h => ⟨hoff, h⟩⟩
        by_cases hl : land g (pix p q (k + 1))
        · rw [if_pos (hland.1 hl)]
          right
          refine ⟨k + 1, by omega, pix p q (k + 1), ?_, ?_, ?_⟩
          · unfold stop; rw [if_pos hl]
          · intro i hi; exact hnone i (by omega)
          · simp
        · rw [if_neg (fun h => hl (hland.2 h))]
          by_cases hdiag : on = true ∧ 2 * errAt (ex p q) (ey p q) k > -(ey p q) ∧
              2 * errAt (ex p q) (ey p q) k < ex p q
          · rw [if_pos hdiag]
            obtain ⟨ho, hm1, hm2⟩ := hdiag
            have hin := hon.1 ho
            have ex1 : (pix p q (k + 1)).1 = (pix p q k).1 + sgn p.1 q.1 := by
              rw [hst.1, if_pos hm1]
            have ey1 : (pix p q (k + 1)).2 = (pix p q k).2 + sgn p.2 q.2 := by
              rw [hst.2.1, if_pos hm2]
            have hy' : (pix p q (k + 1)).2 - sgn p.2 q.2 = (pix p q k).2 := by omega
            have hx' : (pix p q (k + 1)).1 - sgn p.1 q.1 = (pix p q k).1 := by omega
            have hsx : sgn p.1 q.1 ≠ 0 := by unfold sgn; split <;> omega
            have hsy : sgn p.2 q.2 ≠ 0 := by unfold sgn; split <;> omega
            rw [hy', hx']
            have in1 : inside g ((pix p q (k + 1)).1, (pix p q k).2) := by
              unfold inside at *; simp only; omega
            have in2 : inside g ((pix p q k).1, (pix p q (k + 1)).2) := by
              unfold inside at *; simp only; omega
            have r1 := read_inside in1
            have r2 := read_inside in2
            simp only at r1 r2
            rw [r1, r2]
            simp only
            have l1 : land g ((pix p q (k + 1)).1, (pix p q k).2) ↔
                g.data.getD ((pix p q (k + 1)).1.toNat * g.n + (pix p q k).2.toNat) 0 ≠ 0 := by
              unfold land; exact ⟨fun h => h.2, fun h => ⟨in1, h⟩⟩
            have l2 : land g ((pix p q k).1, (pix p q (k + 1)).2) ↔
                g.data.getD ((pix p q k).1.toNat * g.n + (pix p q (k + 1)).2.toNat) 0 ≠ 0 := by
              unfold land; exact ⟨fun h => h.2, fun h => ⟨in2, h⟩⟩
            have hstop : ¬ squeeze g (pix p q k) (pix p q (k + 1)) → stop g p q (k + 1) = none := by
              intro hs
              unfold stop
              rw [if_neg hl]
              simp only [Nat.add_sub_cancel]
              rw [if_neg (fun h => hs h.2)]
            by_cases c1 : land g ((pix p q (k + 1)).1, (pix p q k).2)
            · rw [if_pos (l1.1 c1)]
              by_cases c2 : land g ((pix p q k).1, (pix p q (k + 1)).2)
              · rw [if_pos (l2.1 c2)]
                right
                refine ⟨k + 1, by omega, ((pix p q (k + 1)).1, (pix p q k).2), ?_, ?_, ?_⟩
                · unfold stop
                  rw [if_neg hl]
                  simp only [Nat.add_sub_cancel]
                  rw [if_pos ⟨by omega, hin, hoff, by omega, by omega, c1, c2⟩]
                · intro i hi; exact hnone i (by omega)
                · simp
              · rw [if_neg (fun h => c2 (l2.2 h))]
                exact next true ⟨fun _ => hoff, fun _ => rfl⟩ (hstop (fun h => c2 h.2.2.2.2.2))
            · rw [if_neg (fun h => c1 (l1.2 h))]
              exact next true ⟨fun _ => hoff, fun _ => rfl⟩ (hstop (fun h => c1 h.2.2.2.2.1))
          · rw [if_neg hdiag]
            apply next true ⟨fun _ => hoff, fun _ => rfl⟩
            unfold stop
            rw [if_neg hl]
            simp only [Nat.add_sub_cancel]
            rw [if_neg]
            rintro ⟨-, hin, -, hx, hy, -⟩
            apply hdiag
            refine ⟨hon.2 hin, ?_, ?_⟩
            · by_contra hc; apply hx; rw [hst.1, if_neg hc]
            · by_contra hc; apply hy; rw [hst.2.1, if_neg hc]
      · have hoff' : off g (pix p q (k + 1)).1 (pix p q (k + 1)).2 = true :=
          (off_iff g (pix p q (k + 1)).1 (pix p q (k + 1)).2).2 hoff
        rw [if_pos hoff']
        by_cases ho : on = true
        · rw [if_pos ho]
          left
          refine ⟨rfl, fun j hj => ?_⟩
          rcases Nat.lt_or_ge j (k + 1) with h | h
          · exact hnone j (by omega)
          · exact stop_outside (left_for_good (by omega) h (hon.1 ho) hoff)
        · rw [if_neg ho]
          exact next on ⟨fun h => absurd h ho, fun h => absurd h hoff⟩ (stop_outside hoff)

theorem overlap_false {g : Grid} {p q : Int × Int}
    (h : overlap g.m g.n p.1 p.2 q.1 q.2 = false) (k : Nat) (hk : k ≤ steps p q) :
    ¬ inside g (pix p q k) := by
  have hb := pix_between (p := p) (q := q) (Nat.zero_le k) hk
  rw [pix_zero, pix_end] at hb
  unfold overlap at h
  unfold inside
  split at h
  · omega
  · split at h
    · omega
    · split at h
      · omega
      · split at h
        · omega
        · simp at h

theorem find_good (g : Grid) (p q : Int × Int) (f : Nat) (hf : steps p q < f) :
    Good g p q (findFirst g f p.1 p.2 q.1 q.2) := by
  unfold findFirst
  split
  · rename_i h
    left
    exact ⟨rfl, fun j hj => stop_outside (overlap_false h j hj)⟩
  · have e0 : ex p q - ey p q = errAt (ex p q) (ey p q) 0 := by
      unfold errAt
      rw [(cnt_zero (ex_nonneg p q) (ey_nonneg p q)).1, (cnt_zero (ex_nonneg p q) (ey_nonneg p q)).2]
      ring
    have hw := fun on => walk_good g p q f 0 on (by omega) (by omega)
    rw [pix_zero, ← e0] at hw
    simp only
    by_cases hin : inside g p
    · rw [if_neg (show ¬ off g p.1 p.2 = true by rw [off_iff]; exact fun h => h hin), read_inside hin]
      simp only
      by_cases hl : land g p
      · rw [if_pos hl.2]
        right
        refine ⟨0, by omega, p, ?_, by omega, ?_⟩
        · unfold stop; rw [pix_zero, if_pos hl]
        · simp [pix_zero]
      · rw [if_neg (fun h => hl ⟨hin, h⟩)]
        refine hw true ⟨fun _ => hin, fun _ => rfl⟩ ?_
        intro j hj
        have : j = 0 := by omega
        subst this
        unfold stop; rw [pix_zero, if_neg hl, if_neg (by omega)]
    · rw [if_pos ((off_iff g p.1 p.2).2 hin)]
      refine hw false ⟨fun h => absurd h (by simp), fun h => absurd h hin⟩ ?_
      intro j hj
      have : j = 0 := by omega
      subst this
      exact stop_outside (by rw [pix_zero]; exact hin)

end Verif.Land
