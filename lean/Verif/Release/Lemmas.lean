import Verif.Release.Model
import Mathlib.Tactic.Linarith
import Mathlib.Tactic.FieldSimp
import Mathlib.Tactic.Ring
/-!
# Lemmas: monotone interpolation, the release series
-/
namespace Verif.Release

theorem searchsorted_spec (ts : List ℚ) (t : ℚ) :
    searchsorted ts t ≤ ts.length ∧ (∀ j < searchsorted ts t, ts.getD j 0 < t) ∧
    (searchsorted ts t < ts.length → t ≤ ts.getD (searchsorted ts t) 0) := by
  induction ts with
  | nil => simp [searchsorted]
  | cons a l ih =>
    unfold searchsorted at *
    by_cases h : a < t
    · rw [List.takeWhile_cons_of_pos (by simpa using h)]
      obtain ⟨h1, h2, h3⟩ := ih
      refine ⟨by simpa using h1, ?_, ?_⟩
      · intro j hj
        cases j with
        | zero => simpa using h
        | succ j =>
          simp only [List.getD_cons_succ]
          exact h2 j (by simpa using hj)
      · intro hlt
        simp only [List.length_cons, List.getD_cons_succ] at *
        exact h3 (by omega)
    · rw [List.takeWhile_cons_of_neg (by simpa using h)]
      simp
      linarith

/-- a time axis with values: strictly increasing times, non-decreasing values -/
structure Axis (ts vs : List ℚ) : Prop where
  two : 2 ≤ ts.length
  len : vs.length = ts.length
  inc : ∀ i j, i < j → j < ts.length → ts.getD i 0 < ts.getD j 0
  mono : ∀ i j, i ≤ j → j < ts.length → vs.getD i 0 ≤ vs.getD j 0

/-- value between two neighbouring times -/
theorem seriesAt_mid {ts vs : List ℚ} (h : Axis ts vs) {t : ℚ} (h0 : ts.getD 0 0 < t)
    (h1 : t ≤ ts.getD (ts.length - 1) 0) :
    ∃ i, i + 1 < ts.length ∧ searchsorted ts t = i + 1 ∧ ts.getD i 0 < t ∧ t ≤ ts.getD (i + 1) 0 ∧
      seriesAt ts vs t = vs.getD i 0 + (vs.getD (i + 1) 0 - vs.getD i 0) *
        ((t - ts.getD i 0) / (ts.getD (i + 1) 0 - ts.getD i 0)) := by
  obtain ⟨hs1, hs2, hs3⟩ := searchsorted_spec ts t
  have htwo := h.two
  have hne : searchsorted ts t ≠ 0 := by
    intro he
    rw [he] at hs3
    have := hs3 (by omega)
    linarith
  have hlt : searchsorted ts t < ts.length := by
    rcases Nat.lt_or_ge (searchsorted ts t) ts.length with h' | h'
    · exact h'
    · have := hs2 (ts.length - 1) (by omega)
      linarith
  obtain ⟨i, hi⟩ := Nat.exists_eq_succ_of_ne_zero hne
  refine ⟨i, by omega, hi, hs2 i (by omega), by rw [← Nat.succ_eq_add_one, ← hi]; exact hs3 hlt, ?_⟩
  unfold seriesAt
  rw [if_neg (by omega), if_neg (by linarith), if_neg (by linarith)]
  simp only [hi, Nat.succ_eq_add_one, Nat.add_sub_cancel]

theorem seriesAt_mid_bounds {ts vs : List ℚ} (h : Axis ts vs) {t : ℚ} {i : Nat} (hi : i + 1 < ts.length)
    (h0 : ts.getD i 0 < t) (h1 : t ≤ ts.getD (i + 1) 0) :
    vs.getD i 0 ≤ vs.getD i 0 + (vs.getD (i + 1) 0 - vs.getD i 0) *
        ((t - ts.getD i 0) / (ts.getD (i + 1) 0 - ts.getD i 0)) ∧
    vs.getD i 0 + (vs.getD (i + 1) 0 - vs.getD i 0) *
        ((t - ts.getD i 0) / (ts.getD (i + 1) 0 - ts.getD i 0)) ≤ vs.getD (i + 1) 0 := by
  have hinc := h.inc i (i + 1) (by omega) hi
  have hm := h.mono i (i + 1) (by omega) hi
  have a0 : 0 ≤ (t - ts.getD i 0) / (ts.getD (i + 1) 0 - ts.getD i 0) :=
    div_nonneg (by linarith) (by linarith)
  have a1 : (t - ts.getD i 0) / (ts.getD (i + 1) 0 - ts.getD i 0) ≤ 1 := by
    rw [div_le_one (by linarith)]; linarith
  constructor <;> nlinarith

/-- the interpolation stays between the first and the last value -/
theorem seriesAt_bounds {ts vs : List ℚ} (h : Axis ts vs) (t : ℚ) :
    vs.getD 0 0 ≤ seriesAt ts vs t ∧ seriesAt ts vs t ≤ vs.getD (ts.length - 1) 0 := by
  have htwo := h.two
  by_cases h0 : t ≤ ts.getD 0 0
  · unfold seriesAt
    rw [if_neg (by omega), if_pos h0]
    exact ⟨le_refl _, h.mono 0 _ (by omega) (by omega)⟩
  · by_cases h1 : ts.getD (ts.length - 1) 0 < t
    · unfold seriesAt
      rw [if_neg (by omega), if_neg h0, if_pos h1, h.len]
      exact ⟨h.mono 0 _ (by omega) (by omega), le_refl _⟩
    · obtain ⟨i, hi, _, a, b, e⟩ := seriesAt_mid h (not_le.mp h0) (not_lt.mp h1)
      obtain ⟨c, d⟩ := seriesAt_mid_bounds h hi a b
      rw [e]
      exact ⟨le_trans (h.mono 0 i (by omega) (by omega)) c, le_trans d (h.mono (i + 1) _ (by omega) (by omega))⟩

/-- the interpolation is monotone -/
theorem seriesAt_mono {ts vs : List ℚ} (h : Axis ts vs) {t t' : ℚ} (hle : t ≤ t') :
    seriesAt ts vs t ≤ seriesAt ts vs t' := by
  have htwo := h.two
  by_cases h0 : t ≤ ts.getD 0 0
  · have : seriesAt ts vs t = vs.getD 0 0 := by
      unfold seriesAt; rw [if_neg (by omega), if_pos h0]
    rw [this]; exact (seriesAt_bounds h t').1
  · by_cases h1 : ts.getD (ts.length - 1) 0 < t'
    · have : seriesAt ts vs t' = vs.getD (ts.length - 1) 0 := by
        unfold seriesAt; rw [if_neg (by omega), if_neg (by linarith), if_pos h1, h.len]
      rw [this]; exact (seriesAt_bounds h t).2
    · obtain ⟨i, hi, hsi, a, b, e⟩ := seriesAt_mid h (not_le.mp h0) (by linarith)
      obtain ⟨j, hj, hsj, a', b', e'⟩ := seriesAt_mid h (t := t') (by linarith) (by linarith)
      rcases Nat.lt_trichotomy i j with hij | hij | hij
      · obtain ⟨_, d⟩ := seriesAt_mid_bounds h hi a b
        obtain ⟨c, _⟩ := seriesAt_mid_bounds h hj a' b'
        rw [e, e']
        exact le_trans d (le_trans (h.mono (i + 1) j (by omega) (by omega)) c)
      · subst hij
        rw [e, e']
        have hinc := h.inc i (i + 1) (by omega) hi
        have hm := h.mono i (i + 1) (by omega) hi
        have : (t - ts.getD i 0) / (ts.getD (i + 1) 0 - ts.getD i 0) ≤
            (t' - ts.getD i 0) / (ts.getD (i + 1) 0 - ts.getD i 0) :=
          div_le_div_of_nonneg_right (by linarith) (by linarith)
        nlinarith
      · -- j + 1 ≤ i, so t' ≤ ts[j+1] ≤ ts[i] < t
        exfalso
        rcases Nat.eq_or_lt_of_le (show j + 1 ≤ i by omega) with he | hlt
        · rw [he] at b'; linarith
        · have := h.inc (j + 1) i hlt (by omega); linarith

/-- at and after the last time the value is the last one -/
theorem seriesAt_last {ts vs : List ℚ} (h : Axis ts vs) {t : ℚ} (ht : ts.getD (ts.length - 1) 0 ≤ t) :
    seriesAt ts vs t = vs.getD (ts.length - 1) 0 := by
  have htwo := h.two
  have h01 := h.inc 0 (ts.length - 1) (by omega) (by omega)
  rcases lt_or_eq_of_le ht with hlt | heq
  · unfold seriesAt
    rw [if_neg (by omega), if_neg (by linarith), if_pos hlt, h.len]
  · obtain ⟨i, hi, _, a, b, e⟩ := seriesAt_mid h (t := t) (by linarith) (by linarith)
    have hil : i + 1 = ts.length - 1 := by
      by_contra hne
      have := h.inc (i + 1) (ts.length - 1) (by omega) (by omega)
      linarith
    rw [e, hil, ← heq, ← hil]
    have hinc := h.inc i (i + 1) (by omega) hi
    rw [div_self (by linarith)]
    ring

/-! ## the release series -/

theorem numTs_pos (c : Cfg) (ts : ℚ) : 0 < numTs c ts := by
  unfold numTs; simp only; split <;> omega

/-- the last full step lies strictly before the end of the release, and the end within the next step -/
theorem numTs_bounds (c : Cfg) (ts : ℚ) (hts : 0 < ts) (hd : 0 < c.dur) :
    ts * ((numTs c ts : ℚ) - 1) < c.dur ∧ c.dur ≤ ts * numTs c ts := by
  have hpos : 0 < c.dur / ts := div_pos hd hts
  have hc : 0 < ⌈c.dur / ts⌉ := Int.ceil_pos.mpr hpos
  have hr : ((⌈c.dur / ts⌉.toNat : Nat) : Int) = ⌈c.dur / ts⌉ := Int.toNat_of_nonneg (le_of_lt hc)
  have hn : numTs c ts = ⌈c.dur / ts⌉.toNat := by
    unfold numTs; simp only; rw [if_neg (by omega)]
  have hq : ((numTs c ts : Nat) : ℚ) = ((⌈c.dur / ts⌉ : Int) : ℚ) := by
    rw [hn, ← hr]; push_cast; rfl
  have h1 := Int.le_ceil (c.dur / ts)
  have h2 := Int.ceil_lt_add_one (c.dur / ts)
  rw [hq]
  constructor
  · have : (⌈c.dur / ts⌉ : ℚ) - 1 < c.dur / ts := by linarith
    rw [lt_div_iff₀ hts] at this
    linarith
  · rw [div_le_iff₀ hts] at h1; linarith

theorem numTs_inst (c : Cfg) (ts : ℚ) (hd : c.dur = 0) : numTs c ts = 1 := by
  unfold numTs; simp [hd]

theorem times_length (c : Cfg) (ts : ℚ) : (times c ts).length = numTs c ts + 1 := by
  unfold times
  split
  · rename_i h; rw [h]; split <;> rfl
  · simp

theorem vals_length (c : Cfg) (ts : ℚ) : (vals c ts).length = numTs c ts + 1 := by
  unfold vals
  split
  · rw [List.length_map, times_length]
  · simp [linspace]

theorem times_getD (c : Cfg) (ts : ℚ) (hd : 0 < c.dur) (i : Nat) (hi : i < numTs c ts + 1) :
    (times c ts).getD i 0 = if i = numTs c ts then c.rt + c.dur else c.rt + ts * i := by
  unfold times
  split
  · rename_i h
    rw [if_neg (by linarith), h]
    rw [h] at hi
    have : i = 0 ∨ i = 1 := by omega
    rcases this with rfl | rfl <;> simp
  · by_cases he : i = numTs c ts
    · rw [if_pos he, List.getD_eq_getElem?_getD, List.getElem?_append_right (by simp [he])]
      simp [he]
    · rw [if_neg he, List.getD_eq_getElem?_getD, List.getElem?_append_left (by simp; omega)]
      simp [show i < numTs c ts by omega]

theorem linspace_getD (a b : ℚ) (n i : Nat) (hi : i < n + 1) : (linspace a b n).getD i 0 = a + (b - a) * i / n := by
  simp [linspace, List.getD, hi]

theorem vals_getD (c : Cfg) (ts : ℚ) (hd : c.dur ≠ 0) (i : Nat) (hi : i < numTs c ts + 1) :
    (vals c ts).getD i 0 = ((⌊(maxRelease c ts : ℚ) * i / numTs c ts⌋ : Int) : ℚ) := by
  unfold vals
  rw [if_neg hd]
  simp [linspace, List.getD, hi]

theorem vals_inst (c : Cfg) (ts : ℚ) (hd : c.dur = 0) (i : Nat) (hi : i < 2) :
    (vals c ts).getD i 0 = maxRelease c ts := by
  unfold vals times
  rw [if_pos hd, numTs_inst c ts hd]
  simp only [if_true, hd]
  have : i = 0 ∨ i = 1 := by omega
  rcases this with rfl | rfl <;> simp

/-- the prepared series satisfies the interpolation assumptions -/
theorem axis_series (c : Cfg) (ts : ℚ) (hd : 0 ≤ c.dur) (hts : 0 < ts ∨ c.dur = 0) : Axis (times c ts) (vals c ts) := by
  have hpos := numTs_pos c ts
  refine ⟨by rw [times_length]; omega, by rw [times_length, vals_length], ?_, ?_⟩
  · intro i j hij hj
    rw [times_length] at hj
    rcases eq_or_lt_of_le hd with h0 | h0
    · rw [numTs_inst c ts h0.symm] at hj
      have hi0 : i = 0 := by omega
      have hj1 : j = 1 := by omega
      subst hi0; subst hj1
      unfold times
      rw [if_pos (numTs_inst c ts h0.symm), if_pos h0.symm]
      simp; linarith
    · have hts' : 0 < ts := hts.resolve_right (by linarith)
      rw [times_getD c ts h0 i (by omega), times_getD c ts h0 j (by omega)]
      rw [if_neg (by omega)]
      split
      · rename_i he
        have hb := (numTs_bounds c ts hts' h0).1
        have : (i : ℚ) ≤ (numTs c ts : ℚ) - 1 := by
          have : i + 1 ≤ numTs c ts := by omega
          have : ((i + 1 : Nat) : ℚ) ≤ (numTs c ts : ℚ) := by exact_mod_cast this
          push_cast at this; linarith
        nlinarith
      · have : (i : ℚ) < j := by exact_mod_cast hij
        nlinarith
  · intro i j hij hj
    rw [times_length] at hj
    rcases eq_or_lt_of_le hd with h0 | h0
    · rw [numTs_inst c ts h0.symm] at hj
      rw [vals_inst c ts h0.symm i (by omega), vals_inst c ts h0.symm j (by omega)]
    · rw [vals_getD c ts (by linarith) i (by omega), vals_getD c ts (by linarith) j (by omega)]
      have : ⌊(maxRelease c ts : ℚ) * i / numTs c ts⌋ ≤ ⌊(maxRelease c ts : ℚ) * j / numTs c ts⌋ := by
        apply Int.floor_le_floor
        apply div_le_div_of_nonneg_right _ (by positivity)
        have : (i : ℚ) ≤ j := by exact_mod_cast hij
        have : (0 : ℚ) ≤ maxRelease c ts := by positivity
        nlinarith
      exact_mod_cast this

theorem vals_first (c : Cfg) (ts : ℚ) : 0 ≤ (vals c ts).getD 0 0 := by
  by_cases hd : c.dur = 0
  · rw [vals_inst c ts hd 0 (by omega)]; positivity
  · rw [vals_getD c ts hd 0 (by omega)]; simp

theorem vals_last (c : Cfg) (ts : ℚ) : (vals c ts).getD (numTs c ts) 0 = maxRelease c ts := by
  by_cases hd : c.dur = 0
  · rw [numTs_inst c ts hd, vals_inst c ts hd 1 (by omega)]
  · rw [vals_getD c ts hd _ (by omega)]
    have : (numTs c ts : ℚ) ≠ 0 := by exact_mod_cast (numTs_pos c ts).ne'
    rw [mul_div_assoc, div_self this, mul_one]
    simp

end Verif.Release
