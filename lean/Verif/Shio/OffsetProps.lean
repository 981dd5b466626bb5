import Verif.Shio.OffsetModel

/-!
# C164, C165: offsets of subordinate tide stations
-/

namespace Verif.Shio.Offset

/-! ## C164 -/

/-- All turning points: the extra one before, the highs and lows, the extra one after. -/
def knot (P : List Knot) (z l : ℚ) (k : Nat) : Knot :=
  if k = 0 then (z, !typeAt P 0) else if k ≤ P.length then P.getD (k - 1) (0, false) else (l, !typeAt P (P.length - 1))

/-- In the order of time, highs and lows in turn. -/
def Good (P : List Knot) (z l : ℚ) : Prop :=
  P ≠ [] ∧ ∀ k ≤ P.length, (knot P z l k).1 < (knot P z l (k + 1)).1 ∧ (knot P z l k).2 ≠ (knot P z l (k + 1)).2

/-- The new time of a sample: shifted by the offsets of the turning points before and after it, in proportion to
its time between them. -/
def Lin (off : Bool → ℚ) (P : List Knot) (z l t t' : ℚ) : Prop :=
  ∃ k ≤ P.length, (knot P z l k).1 ≤ t ∧ t ≤ (knot P z l (k + 1)).1
    ∧ t' = t + (off (knot P z l k).2 * (((knot P z l (k + 1)).1 - t) / ((knot P z l (k + 1)).1 - (knot P z l k).1))
              + off (knot P z l (k + 1)).2 * ((t - (knot P z l k).1) / ((knot P z l (k + 1)).1 - (knot P z l k).1)))

theorem knot_zero (P : List Knot) (z l : ℚ) : knot P z l 0 = (z, !typeAt P 0) := by simp [knot]

theorem knot_mid (P : List Knot) (z l : ℚ) (i : Nat) (h : i < P.length) : knot P z l (i + 1) = (timeAt P i, typeAt P i) := by
  unfold knot timeAt typeAt
  rw [if_neg (by omega), if_pos (by omega)]
  simp

theorem knot_last (P : List Knot) (z l : ℚ) : knot P z l (P.length + 1) = (l, !typeAt P (P.length - 1)) := by
  unfold knot
  rw [if_neg (by omega), if_neg (by omega)]

/-- The piece of `Lin` at a given turning point, in the form the code computes. -/
theorem lin_of (off : Bool → ℚ) (P : List Knot) (z l t : ℚ) (hg : Good P z l) (k : Nat) (hk : k ≤ P.length)
    (h1 : (knot P z l k).1 ≤ t) (h2 : t ≤ (knot P z l (k + 1)).1) :
    Lin off P z l t (if (knot P z l k).2 then
        t + (off false * (1 - ((knot P z l (k + 1)).1 - t) / ((knot P z l (k + 1)).1 - (knot P z l k).1))
           + off true * (((knot P z l (k + 1)).1 - t) / ((knot P z l (k + 1)).1 - (knot P z l k).1)))
      else t + (off false * (((knot P z l (k + 1)).1 - t) / ((knot P z l (k + 1)).1 - (knot P z l k).1))
           + off true * (1 - ((knot P z l (k + 1)).1 - t) / ((knot P z l (k + 1)).1 - (knot P z l k).1)))) := by
  obtain ⟨hlt, hne⟩ := hg.2 k hk
  refine ⟨k, hk, h1, h2, ?_⟩
  have hd : (knot P z l (k + 1)).1 - (knot P z l k).1 ≠ 0 := by linarith
  have e : (1 : ℚ) - ((knot P z l (k + 1)).1 - t) / ((knot P z l (k + 1)).1 - (knot P z l k).1)
      = (t - (knot P z l k).1) / ((knot P z l (k + 1)).1 - (knot P z l k).1) := by
    field_simp; ring
  rw [e]
  cases ha : (knot P z l k).2 <;> cases hb : (knot P z l (k + 1)).2
  · rw [ha, hb] at hne; exact absurd rfl hne
  · simp
  · simp; ring
  · rw [ha, hb] at hne; exact absurd rfl hne

theorem findDown_some (P : List Knot) (t : ℚ) (s n i : Nat) (h : findDown P t s n = some i) :
    s ≤ i ∧ i < n ∧ timeAt P i ≤ t ∧ ∀ j, i < j → j < n → t < timeAt P j := by
  induction n with
  | zero => simp [findDown] at h
  | succ n ih =>
    unfold findDown at h
    split at h
    · cases h
    · split at h
      · cases h
        rename_i h1 h2
        exact ⟨by omega, by omega, h2, fun j hj1 hj2 => by omega⟩
      · rename_i h1 h2
        obtain ⟨e1, e2, e3, e4⟩ := ih h
        refine ⟨e1, by omega, e3, fun j hj1 hj2 => ?_⟩
        by_cases hj : j = n
        · rw [hj]; exact lt_of_not_ge h2
        · exact e4 j hj1 (by omega)

theorem findDown_none (P : List Knot) (t : ℚ) (s n : Nat) (h : findDown P t s n = none) :
    ∀ j, s ≤ j → j < n → t < timeAt P j := by
  induction n with
  | zero => intro j _ hj; omega
  | succ n ih =>
    unfold findDown at h
    split at h
    · rename_i h1; intro j h2 h3; omega
    · split at h
      · cases h
      · rename_i h1 h2
        intro j hj1 hj2
        by_cases hj : j = n
        · rw [hj]; exact lt_of_not_ge h2
        · exact ih h j hj1 (by omega)

/-- The index that is kept is of a turning point not after the sample. -/
def IxOk (P : List Knot) (t : ℚ) (ix : Option Nat) : Prop := ∀ s, ix = some s → s < P.length ∧ timeAt P s ≤ t

/-- One sample, once the search starts at an entry that is not after it. -/
theorem shift_mid (off : Bool → ℚ) (P : List Knot) (z l t : ℚ) (hg : Good P z l) (h1 : z ≤ t) (h2 : t ≤ l) (s : Nat)
    (hs : s < P.length ∧ timeAt P s ≤ t) :
    Lin off P z l t (shiftTime off P z l t (some s)).1 ∧ IxOk P t (shiftTime off P z l t (some s)).2 := by
  have hpos : 0 < P.length := by omega
  have hlast : knot P z l (P.length - 1 + 1) = (timeAt P (P.length - 1), typeAt P (P.length - 1)) := knot_mid P z l _ (by omega)
  have hN : P.length - 1 + 1 = P.length := by omega
  rw [hN] at hlast
  have hend := knot_last P z l
  unfold shiftTime getWeights
  simp only
  by_cases hgt : t > timeAt P (P.length - 1)
  · rw [if_pos hgt]
    simp only [wts]
    have := lin_of off P z l t hg P.length (le_refl _) (by rw [hlast]; exact le_of_lt hgt) (by rw [hend]; exact h2)
    rw [hlast, hend] at this
    simp only at this
    refine ⟨?_, ?_⟩
    · by_cases hty : typeAt P (P.length - 1) = true <;> simpa [hty] using this
    · have hix : IxOk P t (some (P.length - 1)) := by
        intro i hi; cases hi; exact ⟨by omega, le_of_lt hgt⟩
      exact hix
  · rw [if_neg hgt]
    by_cases hlt : t < timeAt P 0
    · rw [if_pos hlt]
      simp only [wts]
      have hk1 := knot_mid P z l 0 hpos
      have := lin_of off P z l t hg 0 (by omega) (by rw [knot_zero]; exact h1) (by rw [hk1]; exact le_of_lt hlt)
      rw [knot_zero, hk1] at this
      simp only at this
      refine ⟨?_, ?_⟩
      · by_cases hty : typeAt P 0 = true <;> simpa [hty] using this
      · have hix : IxOk P t none := by intro i hi; cases hi
        exact hix
    · rw [if_neg hlt]
      cases hf : findDown P t s P.length with
      | none =>
        exfalso
        have := findDown_none P t s _ hf s (le_refl _) hs.1
        linarith [hs.2]
      | some i =>
        obtain ⟨e1, e2, e3, e4⟩ := findDown_some P t s _ i hf
        simp only [wts]
        have hki := knot_mid P z l i e2
        refine ⟨?_, ?_⟩
        · by_cases hi : i + 1 = P.length
          · -- the last high or low itself
            rw [if_pos hi]
            have hiN : i = P.length - 1 := by omega
            have hteq : t = timeAt P i := by
              rw [hiN]; rw [hiN] at e3
              exact le_antisymm (not_lt.1 hgt) e3
            have hz : z < t := by
              have : ∀ k, k < P.length → z < timeAt P k := by
                intro k hk
                induction k with
                | zero =>
                  have := (hg.2 0 (by omega)).1
                  rw [knot_zero, knot_mid P z l 0 hpos] at this; exact this
                | succ k ih =>
                  have h' := (hg.2 (k + 1) (by omega)).1
                  rw [knot_mid P z l k (by omega), knot_mid P z l (k + 1) hk] at h'
                  exact lt_trans (ih (by omega)) h'
              rw [hteq]; exact this i e2
            have hw : (z - t) / (z - timeAt P i) = 1 := by
              rw [← hteq]; exact div_self (by linarith)
            rw [hw]
            have := lin_of off P z l t hg P.length (le_refl _) (by rw [hlast, ← hiN]; exact e3) (by rw [hend]; exact h2)
            rw [hlast, hend, ← hiN] at this
            simp only at this
            have hlt' := (hg.2 P.length (le_refl _)).1
            rw [hlast, hend, ← hiN] at hlt'
            simp only at hlt'
            have hw' : (l - t) / (l - timeAt P i) = 1 := by
              rw [← hteq]; rw [← hteq] at hlt'; exact div_self (by linarith)
            rw [hw'] at this
            by_cases hty : typeAt P i = true <;> simpa [hty] using this
          · rw [if_neg hi]
            have hk2 := knot_mid P z l (i + 1) (by omega)
            have := lin_of off P z l t hg (i + 1) (by omega) (by rw [hki]; exact e3)
              (by rw [hk2]; exact le_of_lt (e4 (i + 1) (by omega) (by omega)))
            rw [hki, hk2] at this
            simp only at this
            by_cases hty : typeAt P i = true <;> simpa [hty] using this
        · have hix : IxOk P t (some i) := by intro j hj; cases hj; exact ⟨e2, e3⟩
          exact hix

theorem shift_one (off : Bool → ℚ) (P : List Knot) (z l t : ℚ) (hg : Good P z l) (h1 : z ≤ t) (h2 : t ≤ l)
    (ix : Option Nat) (hix : IxOk P t ix) :
    Lin off P z l t (shiftTime off P z l t ix).1 ∧ IxOk P t (shiftTime off P z l t ix).2 := by
  have hpos : 0 < P.length := List.length_pos_iff.2 hg.1
  cases ix with
  | some s => exact shift_mid off P z l t hg h1 h2 s (hix s rfl)
  | none =>
    by_cases hlt : t < timeAt P 0
    · unfold shiftTime getWeights
      simp only
      rw [if_pos hlt, if_neg (not_lt.2 h1)]
      simp only [wts]
      have hk1 := knot_mid P z l 0 hpos
      have := lin_of off P z l t hg 0 (by omega) (by rw [knot_zero]; exact h1) (by rw [hk1]; exact le_of_lt hlt)
      rw [knot_zero, hk1] at this
      simp only at this
      refine ⟨?_, ?_⟩
      · by_cases hty : typeAt P 0 = true <;> simpa [hty] using this
      · have hix' : IxOk P t none := by intro i hi; cases hi
        exact hix'
    · have hm := shift_mid off P z l t hg h1 h2 0 ⟨hpos, not_lt.1 hlt⟩
      have e : shiftTime off P z l t none = shiftTime off P z l t (some 0) := by
        unfold shiftTime getWeights
        simp only
        rw [if_neg hlt]
      rw [e]; exact hm

theorem shift_all (off : Bool → ℚ) (P : List Knot) (z l : ℚ) (hg : Good P z l) (ts : List ℚ) (hs : ts.Pairwise (· ≤ ·))
    (hr : ∀ t ∈ ts, z ≤ t ∧ t ≤ l) (ix : Option Nat) (hix : ∀ t ∈ ts, IxOk P t ix) :
    List.Forall₂ (Lin off P z l) ts (shiftTimes off P z l ix ts) := by
  induction ts generalizing ix with
  | nil => exact .nil
  | cons t ts ih =>
    obtain ⟨h1, h2⟩ := shift_one off P z l t hg (hr t (by simp)).1 (hr t (by simp)).2 ix (hix t (by simp))
    rw [List.pairwise_cons] at hs
    refine .cons h1 (ih hs.2 (fun s hm => hr s (List.mem_cons_of_mem _ hm)) _ ?_)
    intro s hm i hi
    obtain ⟨e1, e2⟩ := h2 i hi
    exact ⟨e1, le_trans e2 (hs.1 s hm)⟩

/-- **C164 (a)**: every sample of the reference curve is shifted by the offsets of the turning points next to it, in
proportion. -/
theorem C164 (off : Bool → ℚ) (P : List Knot) (z l : ℚ) (hg : Good P z l) (ts : List ℚ) (hs : ts.Pairwise (· ≤ ·))
    (hr : ∀ t ∈ ts, z ≤ t ∧ t ≤ l) : List.Forall₂ (Lin off P z l) ts (shiftTimes off P z l none ts) :=
  shift_all off P z l hg ts hs hr none (fun _ _ _ h => by cases h)

theorem knots_lt (P : List Knot) (z l : ℚ) (hg : Good P z l) (i j : Nat) (hij : i < j) (hj : j ≤ P.length + 1) :
    (knot P z l i).1 < (knot P z l j).1 := by
  induction j with
  | zero => omega
  | succ j ih =>
    have hstep := (hg.2 j (by omega)).1
    by_cases h : i = j
    · rw [h]; exact hstep
    · exact lt_trans (ih (by omega) (by omega)) hstep

/-- **C164 (b)**: a sample at a high moves by the offset of highs, at a low by that of lows: with its turning
point. -/
theorem C164_at (off : Bool → ℚ) (P : List Knot) (z l : ℚ) (hg : Good P z l) (k : Nat) (hk : k ≤ P.length + 1) (t t' : ℚ)
    (ht : t = (knot P z l k).1) (h : Lin off P z l t t') : t' = t + off (knot P z l k).2 := by
  obtain ⟨i, hi, h1, h2, h3⟩ := h
  subst ht
  have hlt := (hg.2 i hi).1
  have hd : (knot P z l (i + 1)).1 - (knot P z l i).1 ≠ 0 := by linarith
  have : k = i ∨ k = i + 1 := by
    by_contra hc
    rw [not_or] at hc
    rcases Nat.lt_or_ge k i with h' | h'
    · have := knots_lt P z l hg k i h' (by omega); linarith
    · have := knots_lt P z l hg (i + 1) k (by omega) hk; linarith
  rcases this with rfl | rfl
  · rw [h3, div_self hd]; simp
  · rw [h3, div_self hd]; simp

/-- The shifted turning point. -/
def shifted (off : Bool → ℚ) (P : List Knot) (z l : ℚ) (k : Nat) : ℚ := (knot P z l k).1 + off (knot P z l k).2

theorem lin_between (off : Bool → ℚ) (P : List Knot) (z l : ℚ) (hg : Good P z l) (k : Nat) (hk : k ≤ P.length) (t : ℚ)
    (h1 : (knot P z l k).1 ≤ t) (h2 : t ≤ (knot P z l (k + 1)).1) (ho : shifted off P z l k ≤ shifted off P z l (k + 1)) :
    let t' := t + (off (knot P z l k).2 * (((knot P z l (k + 1)).1 - t) / ((knot P z l (k + 1)).1 - (knot P z l k).1))
              + off (knot P z l (k + 1)).2 * ((t - (knot P z l k).1) / ((knot P z l (k + 1)).1 - (knot P z l k).1)))
    t' = shifted off P z l k
        + (shifted off P z l (k + 1) - shifted off P z l k) * ((t - (knot P z l k).1) / ((knot P z l (k + 1)).1 - (knot P z l k).1))
    ∧ shifted off P z l k ≤ t' ∧ t' ≤ shifted off P z l (k + 1) := by
  have hlt := (hg.2 k hk).1
  have hd : 0 < (knot P z l (k + 1)).1 - (knot P z l k).1 := by linarith
  have hd' := ne_of_gt hd
  intro t'
  have e : t' = shifted off P z l k
        + (shifted off P z l (k + 1) - shifted off P z l k) * ((t - (knot P z l k).1) / ((knot P z l (k + 1)).1 - (knot P z l k).1)) := by
    simp only [t', shifted]
    field_simp
    ring
  have hx0 : 0 ≤ (t - (knot P z l k).1) / ((knot P z l (k + 1)).1 - (knot P z l k).1) := div_nonneg (by linarith) (le_of_lt hd)
  have hx1 : (t - (knot P z l k).1) / ((knot P z l (k + 1)).1 - (knot P z l k).1) ≤ 1 := by
    rw [div_le_one hd]; linarith
  refine ⟨e, ?_, ?_⟩
  · rw [e]
    have := mul_nonneg (sub_nonneg.2 ho) hx0
    linarith
  · rw [e]
    have := mul_le_mul_of_nonneg_left hx1 (sub_nonneg.2 ho)
    linarith

theorem shifted_mono (off : Bool → ℚ) (P : List Knot) (z l : ℚ)
    (ho : ∀ k ≤ P.length, shifted off P z l k ≤ shifted off P z l (k + 1)) (i j : Nat) (hij : i ≤ j) (hj : j ≤ P.length + 1) :
    shifted off P z l i ≤ shifted off P z l j := by
  induction j with
  | zero => have : i = 0 := by omega
            rw [this]
  | succ j ih =>
    by_cases h : i = j + 1
    · rw [h]
    · exact le_trans (ih (by omega) (by omega)) (ho j (by omega))

/-- **C164 (c)**: as long as the turning points keep their order, so do the samples. -/
theorem C164_order (off : Bool → ℚ) (P : List Knot) (z l : ℚ) (hg : Good P z l)
    (ho : ∀ k ≤ P.length, shifted off P z l k ≤ shifted off P z l (k + 1)) (s t s' t' : ℚ) (hst : s ≤ t)
    (hs : Lin off P z l s s') (ht : Lin off P z l t t') : s' ≤ t' := by
  obtain ⟨i, hi, a1, a2, a3⟩ := hs
  obtain ⟨j, hj, b1, b2, b3⟩ := ht
  obtain ⟨e1, e2, e3⟩ := lin_between off P z l hg i hi s a1 a2 (ho i hi)
  obtain ⟨f1, f2, f3⟩ := lin_between off P z l hg j hj t b1 b2 (ho j hj)
  rw [← a3] at e1 e2 e3
  rw [← b3] at f1 f2 f3
  rcases Nat.lt_trichotomy i j with h | h | h
  · exact le_trans e3 (le_trans (shifted_mono off P z l ho (i + 1) j h (by omega)) f2)
  · subst h
    have hlt := (hg.2 i hi).1
    have hd : 0 < (knot P z l (i + 1)).1 - (knot P z l i).1 := by linarith
    rw [e1, f1]
    have hx : (s - (knot P z l i).1) / ((knot P z l (i + 1)).1 - (knot P z l i).1)
        ≤ (t - (knot P z l i).1) / ((knot P z l (i + 1)).1 - (knot P z l i).1) :=
      div_le_div_of_nonneg_right (by linarith) (le_of_lt hd)
    have := mul_le_mul_of_nonneg_left hx (sub_nonneg.2 (ho i hi))
    linarith
  · -- both at the same turning point
    have hle : (knot P z l (j + 1)).1 ≤ (knot P z l i).1 := by
      by_cases hc : j + 1 = i
      · rw [hc]
      · exact le_of_lt (knots_lt P z l hg (j + 1) i (by omega) (by omega))
    have hs' : s = (knot P z l i).1 := by linarith
    have ht' : t = (knot P z l i).1 := by linarith
    have r1 := C164_at off P z l hg i (by omega) s s' hs' ⟨i, hi, a1, a2, a3⟩
    have r2 := C164_at off P z l hg i (by omega) t t' ht' ⟨j, hj, b1, b2, b3⟩
    rw [r1, r2, hs', ht']

/-- **C164 (d)**: highs and lows that would change places are an error; otherwise each is shifted by its own offset. -/
theorem C164_peaks (off : Bool → ℚ) (P Q : List Knot) (h : shiftPeaks off P = some Q) :
    Q = P.map (fun p => (p.1 + off p.2, p.2)) ∧ Q.Pairwise fun a b => a.1 ≤ b.1 := by
  unfold shiftPeaks at h
  simp only at h
  split at h
  · rename_i hc
    cases h
    refine ⟨rfl, ?_⟩
    have : (P.map fun p => (p.1 + off p.2, p.2)).IsChain fun a b => a.1 ≤ b.1 := by
      refine hc.imp ?_
      intro a b hab; exact not_lt.1 hab
    have tr : IsTrans Knot (fun a b => a.1 ≤ b.1) := ⟨fun a b c h1 h2 => le_trans h1 h2⟩
    exact List.isChain_iff_pairwise.1 this
  · cases h

/-- Non-trivial case: a low and a high with offsets of an hour and half an hour. -/
example : Good [((1 : ℚ), false), (7, true)] (-5) 13 := by
  refine ⟨by simp, ?_⟩
  intro k hk
  have : k = 0 ∨ k = 1 ∨ k = 2 := by simp at hk; omega
  rcases this with rfl | rfl | rfl <;> norm_num [knot, typeAt]

example : shiftTimes (fun hi => if hi then 1 else 1 / 2) [(1, false), (7, true)] (-5) 13 none [0, 1, 4, 7, 8]
    = [7 / 12, 3 / 2, 19 / 4, 8, 107 / 12] := by decide +kernel

/-! ## C165 -/

/-- What the corrected height has to be: factor and summand go smoothly (`3 x² - 2 x³`) from those of the turning
point before to those of the turning point after. -/
def Fixed (m a : Bool → ℚ) (Q : List Knot) (z l t v v' : ℚ) : Prop :=
  ∃ k ≤ Q.length, (knot Q z l k).1 ≤ t ∧ t ≤ (knot Q z l (k + 1)).1
    ∧ let x := (t - (knot Q z l k).1) / ((knot Q z l (k + 1)).1 - (knot Q z l k).1)
      let s := 3 * x ^ 2 - 2 * x ^ 3
      v' = v * ((1 - s) * m (knot Q z l k).2 + s * m (knot Q z l (k + 1)).2) + ((1 - s) * a (knot Q z l k).2 + s * a (knot Q z l (k + 1)).2)

/-- Samples in order, never two turning points between two samples, the first sample not after the first turning
point. -/
def Dense (Q : List Knot) : List (ℚ × ℚ) → Prop
  | [] => True
  | p :: rest => p.1 ≤ timeAt Q 0 ∧ (p :: rest).IsChain fun p q => p.1 ≤ q.1 ∧ ∀ j, j + 1 < Q.length → p.1 ≤ timeAt Q j → q.1 ≤ timeAt Q (j + 1)

/-- **C165, as stated**: the height of every sample is corrected. -/
def C165_claim : Prop :=
  ∀ (tol : ℚ) (m a : Bool → ℚ) (Q : List Knot) (z l : ℚ) (ss : List (ℚ × ℚ)), Good Q z l →
    (∀ k ≤ Q.length, tol ≤ (knot Q z l (k + 1)).1 - (knot Q z l k).1) → (∀ p ∈ ss, z ≤ p.1 ∧ p.1 ≤ l) →
    ss.IsChain (fun p q => p.1 ≤ q.1) → (∀ j, j + 1 < Q.length → ss.IsChain fun p q => p.1 ≤ timeAt Q j → q.1 ≤ timeAt Q (j + 1)) →
    (∀ p, ss.head? = some p → p.1 ≤ timeAt Q 0) →
    List.Forall₂ (fun p q => p.1 = q.1 ∧ Fixed m a Q z l p.1 p.2 q.2) ss (fixHeights tol m a Q z l 0 ss)

theorem hermite0_eq (tol v1 t1 v2 t2 t : ℚ) (h : t1 < t2) (htol : tol ≤ t2 - t1) :
    hermite0 tol v1 t1 v2 t2 t
      = (1 - (3 * ((t - t1) / (t2 - t1)) ^ 2 - 2 * ((t - t1) / (t2 - t1)) ^ 3)) * v1
        + (3 * ((t - t1) / (t2 - t1)) ^ 2 - 2 * ((t - t1) / (t2 - t1)) ^ 3) * v2 := by
  unfold hermite0
  simp only
  rw [if_neg (by linarith : ¬ t2 - t1 < 0), if_neg (not_lt.2 htol)]
  ring

theorem fix_loop (tol : ℚ) (m a : Bool → ℚ) (Q : List Knot) (z l : ℚ) (hg : Good Q z l)
    (htol : ∀ k ≤ Q.length, tol ≤ (knot Q z l (k + 1)).1 - (knot Q z l k).1) (ss : List (ℚ × ℚ)) (j : Nat) (hj : j < Q.length)
    (hz : ∀ p ∈ ss, (knot Q z l j).1 ≤ p.1 ∧ p.1 ≤ timeAt Q (Q.length - 1))
    (hc : ss.IsChain fun p q => p.1 ≤ q.1 ∧ ∀ j, j + 1 < Q.length → p.1 ≤ timeAt Q j → q.1 ≤ timeAt Q (j + 1))
    (hfirst : ∀ p, ss.head? = some p → j + 1 < Q.length → p.1 ≤ timeAt Q (j + 1)) :
    List.Forall₂ (fun p q => p.1 = q.1 ∧ Fixed m a Q z l p.1 p.2 q.2) ss (fixHeights tol m a Q z l j ss) := by
  induction ss generalizing j with
  | nil => exact .nil
  | cons p rest ih =>
    obtain ⟨t, v⟩ := p
    unfold fixHeights
    rw [if_pos hj]
    simp only
    obtain ⟨hz1, hz2⟩ := hz (t, v) (by simp)
    simp only at hz1 hz2
    -- the new index
    obtain ⟨j', hj', hlt, hk1, hk2⟩ : ∃ j', (if t > timeAt Q j then j + 1 else j) = j' ∧ j' < Q.length
        ∧ (knot Q z l j').1 ≤ t ∧ t ≤ timeAt Q j' := by
      by_cases hgt : t > timeAt Q j
      · have hjl : j + 1 < Q.length := by
          by_contra hcon
          have : j = Q.length - 1 := by omega
          rw [this] at hgt
          linarith
        refine ⟨j + 1, if_pos hgt, hjl, ?_, hfirst (t, v) rfl hjl⟩
        rw [knot_mid Q z l j hj]; exact le_of_lt hgt
      · exact ⟨j, if_neg hgt, hj, hz1, not_lt.1 hgt⟩
    rw [hj']
    have hnext := knot_mid Q z l j' hlt
    have hgood := hg.2 j' (le_of_lt hlt)
    have htl := htol j' (le_of_lt hlt)
    have hne : ¬ j' = Q.length := by omega
    have hprev : (if j' = 0 then z else timeAt Q (j' - 1)) = (knot Q z l j').1 := by
      by_cases h0 : j' = 0
      · rw [if_pos h0, h0, knot_zero]
      · rw [if_neg h0]
        have := knot_mid Q z l (j' - 1) (by omega)
        rw [show j' - 1 + 1 = j' by omega] at this
        rw [this]
    have hty : (!typeAt Q j') = (knot Q z l j').2 := by
      have := hgood.2
      rw [hnext] at this
      simp only at this
      cases h1 : typeAt Q j' <;> cases h2 : (knot Q z l j').2 <;> simp [h1, h2] at this ⊢
    rw [hprev, if_neg hne, hty]
    rw [hnext] at hgood htl
    simp only at hgood htl
    refine .cons ⟨rfl, j', le_of_lt hlt, hk1, by rw [hnext]; exact hk2, ?_⟩ ?_
    · simp only
      rw [hnext]
      simp only
      rw [hermite0_eq tol _ _ _ _ t hgood.1 htl, hermite0_eq tol _ _ _ _ t hgood.1 htl]
    · apply ih j' hlt
      · intro q hq
        refine ⟨?_, (hz q (List.mem_cons_of_mem _ hq)).2⟩
        have tr : IsTrans (ℚ × ℚ) (fun p q => p.1 ≤ q.1) := ⟨fun a b c h1 h2 => le_trans h1 h2⟩
        have hp : ((t, v) :: rest).Pairwise fun p q => p.1 ≤ q.1 :=
          List.isChain_iff_pairwise.1 (hc.imp fun a b h => h.1)
        exact le_trans hk1 ((List.pairwise_cons.1 hp).1 q hq)
      · cases rest with
        | nil => exact List.IsChain.nil
        | cons q rest => exact (List.isChain_cons_cons.1 hc).2
      · intro q hq hjl
        cases rest with
        | nil => simp at hq
        | cons q' rest =>
          simp at hq
          subst hq
          exact (List.isChain_cons_cons.1 hc).1.2 j' hjl hk2

/-- **C165 (partial)**: up to the last high or low. -/
theorem C165_partial (tol : ℚ) (m a : Bool → ℚ) (Q : List Knot) (z l : ℚ) (ss : List (ℚ × ℚ)) (hg : Good Q z l)
    (htol : ∀ k ≤ Q.length, tol ≤ (knot Q z l (k + 1)).1 - (knot Q z l k).1)
    (hz : ∀ p ∈ ss, z ≤ p.1 ∧ p.1 ≤ timeAt Q (Q.length - 1)) (hd : Dense Q ss) :
    List.Forall₂ (fun p q => p.1 = q.1 ∧ Fixed m a Q z l p.1 p.2 q.2) ss (fixHeights tol m a Q z l 0 ss) := by
  have hpos : 0 < Q.length := List.length_pos_iff.2 hg.1
  cases ss with
  | nil => exact .nil
  | cons p rest =>
    obtain ⟨h1, h2⟩ := hd
    refine fix_loop tol m a Q z l hg htol _ 0 hpos ?_ h2 ?_
    · intro q hq
      rw [knot_zero]; exact hz q hq
    · intro q hq hjl
      simp at hq
      subst hq
      have := (hg.2 1 (by omega)).1
      rw [knot_mid Q z l 0 hpos, knot_mid Q z l 1 hjl] at this
      exact le_trans h1 (le_of_lt this)

/-- **C165 fails**: behind the last high or low only the first sample is changed: from the second on, the heights
are those of the reference station. -/
theorem C165_counterexample_end (tol : ℚ) (m a : Bool → ℚ) (Q : List Knot) (z l t v : ℚ) (rest : List (ℚ × ℚ)) (j : Nat)
    (hj : j + 1 = Q.length) (ht : timeAt Q j < t) :
    ∃ v', fixHeights tol m a Q z l j ((t, v) :: rest) = (t, v') :: rest := by
  unfold fixHeights
  rw [if_pos (by omega)]
  simp only
  rw [if_pos ht]
  have hrest : fixHeights tol m a Q z l (j + 1) rest = rest := by
    cases rest with
    | nil => rfl
    | cons p rest =>
      obtain ⟨t', v'⟩ := p
      rw [fixHeights, if_neg (by omega)]
  rw [hrest]
  exact ⟨_, rfl⟩

/-- **C165 fails**: and that first sample behind a low is changed as if it were next to a high (a high of 3 times
the height of the reference station here, a low half as high). -/
theorem C165_counterexample_first :
    fixHeights (1 / 1000000) (fun hi => if hi then 3 else 1 / 2) (fun _ => 0) [(0, true), (6, false)] (-6) 12 0 [(0, 1), (6, 1), (6 + 1 / 10, 1), (7, 1)]
      = [(0, 3), (6, 1 / 2), (6 + 1 / 10, 3 - 5 / 2 * (3 / 3600 - 2 / 216000)), (7, 1)] := by
  decide +kernel

theorem C165_counterexample : ¬ C165_claim := by
  intro h
  have := h 0 (fun _ => 2) (fun _ => 0) [(0, true)] (-6) 6 [(0, 1), (1, 1), (2, 1)] ?_ ?_ ?_ ?_ ?_ ?_
  · have hf : fixHeights 0 (fun _ => 2) (fun _ => 0) [((0 : ℚ), true)] (-6) 6 0 [(0, 1), (1, 1), (2, 1)] = [(0, 2), (1, 2), (2, 1)] := by
      decide +kernel
    rw [hf] at this
    cases this with
    | cons _ h2 => cases h2 with
      | cons _ h3 => cases h3 with
        | cons h4 _ =>
          obtain ⟨_, k, _, _, _, h5⟩ := h4
          simp only at h5
          ring_nf at h5
          norm_num at h5
  · refine ⟨by simp, ?_⟩
    intro k hk
    have : k = 0 ∨ k = 1 := by simp at hk; omega
    rcases this with rfl | rfl <;> norm_num [knot, typeAt]
  · intro k hk
    have : k = 0 ∨ k = 1 := by simp at hk; omega
    rcases this with rfl | rfl <;> norm_num [knot, typeAt]
  · intro p hp
    simp at hp
    rcases hp with rfl | rfl | rfl <;> norm_num
  · norm_num
  · intro j hj
    simp at hj
  · simp [timeAt]

/-- Non-trivial case of the partial claim: between a low and a high. -/
example : fixHeights (1 / 1000000) (fun hi => if hi then 3 else 1) (fun _ => 0) [(0, false), (6, true)] (-6) 12 0 [(0, 1), (3, 1), (6, 1)]
    = [(0, 1), (3, 2), (6, 3)] := by decide +kernel

end Verif.Shio.Offset
