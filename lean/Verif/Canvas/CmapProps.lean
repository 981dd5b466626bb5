import Verif.Canvas.CmapModel
import Mathlib.Tactic.Linarith
import Mathlib.Tactic.FieldSimp
import Mathlib.Tactic.Positivity
import Mathlib.Tactic.NormNum
/-!
# C319: A colour map gives a value the colour of its place in the range

Spec: 256 colours; the low end has colour 0, the high end colour 255, a value between them the colour nearest to its place, a value outside the colour of the end it is beyond.
-/
namespace Verif.Canvas.Cmap

/-- The number of a colour fits a value in a range that is not empty. -/
def Fits (low high v : ℚ) (i : Int) : Prop :=
  0 ≤ i ∧ i ≤ 255 ∧ (v ≤ low → i = 0) ∧ (high ≤ v → i = 255) ∧ (low ≤ v → v ≤ high → |(i : ℚ) / 255 - (v - low) / (high - low)| ≤ 1 / 510)

/-- The claim, for every range and value. -/
def C319_claim : Prop := ∀ (given : Option (ℚ × ℚ)) (v : ℚ), (ends given).1 < (ends given).2 → Fits (ends given).1 (ends given).2 v (index (ends given) v)

/-- C319, false for the range that is used if none is given: 256 has the colour of 0. -/
theorem C319_counterexample : ¬ C319_claim := by
  intro h
  have := (h none 256 (by decide +kernel)).2.2.2.1 (by decide +kernel)
  revert this
  decide +kernel

/-- … and a value just below an integer has the colour of the one before. -/
theorem C319_cut : index (ends none) (2549 / 10) = 254 ∧ index (0, 1) (2549 / 2550) = 255 := by
  decide +kernel

theorem near_close (q : ℚ) : |(near q : ℚ) - q| ≤ 1 / 2 := by
  have h0 := Int.floor_le q
  have h1 := Int.lt_floor_add_one q
  unfold near
  split_ifs with a b c <;> rw [abs_le] <;> push_cast <;> constructor <;> linarith

theorem near_int (n : Int) : near n = n := by
  unfold near
  simp

theorem near_mono {a b : ℚ} (h : a ≤ b) : near a ≤ near b := by
  have hf := Int.floor_le_floor h
  rcases hf.lt_or_eq with hlt | heq
  · unfold near
    have e : ∀ q : ℚ, (if q - ⌊q⌋ < 1 / 2 then ⌊q⌋ else if 1 / 2 < q - ⌊q⌋ then ⌊q⌋ + 1 else if ⌊q⌋ % 2 = 0 then ⌊q⌋ else ⌊q⌋ + 1) = ⌊q⌋ ∨
        (if q - ⌊q⌋ < 1 / 2 then ⌊q⌋ else if 1 / 2 < q - ⌊q⌋ then ⌊q⌋ + 1 else if ⌊q⌋ % 2 = 0 then ⌊q⌋ else ⌊q⌋ + 1) = ⌊q⌋ + 1 := by
      intro q; split_ifs <;> simp
    rcases e a with h1 | h1 <;> rcases e b with h2 | h2 <;> rw [h1, h2] <;> omega
  · unfold near
    rw [heq]
    split_ifs <;> first | omega | linarith

theorem clip_bounds (q : ℚ) : 0 ≤ clip q ∧ clip q ≤ 255 :=
  ⟨le_min (le_max_right _ _) (by norm_num), min_le_right _ _⟩

theorem clip_mono {a b : ℚ} (h : a ≤ b) : clip a ≤ clip b := min_le_min_right _ (max_le_max_right _ h)

theorem near_clip (q : ℚ) : 0 ≤ near (clip q) ∧ near (clip q) ≤ 255 := by
  have h := clip_bounds q
  have h0 := near_mono h.1
  have h1 := near_mono h.2
  rw [show (0 : ℚ) = ((0 : Int) : ℚ) by norm_num, near_int] at h0
  rw [show (255 : ℚ) = ((255 : Int) : ℚ) by norm_num, near_int] at h1
  exact ⟨h0, h1⟩

theorem toByte_int (n : Int) (h0 : 0 ≤ n) (h1 : n ≤ 255) : toByte n = n := by
  unfold toByte
  simp only [Int.floor_intCast, Int.ceil_intCast, ite_self]
  omega

theorem index_eq (r : ℚ × ℚ) (v : ℚ) (hr : r.1 ≠ r.2) (h : ¬ (r.1 = 0 ∧ r.2 = 255)) :
    index r v = near (clip ((v - r.1) / (r.2 - r.1) * 255)) := by
  unfold index
  rw [if_neg (Ne.symm hr)]
  rw [if_neg h]
  exact toByte_int _ (near_clip _).1 (near_clip _).2

/-- C319, for every range but 0-255. -/
theorem C319_partial (low high v : ℚ) (hr : low < high) (h : ¬ (low = 0 ∧ high = 255)) : Fits low high v (index (low, high) v) := by
  rw [index_eq (low, high) v hr.ne h]
  have hp : 0 < high - low := by linarith
  have hn := near_clip ((v - low) / (high - low) * 255)
  refine ⟨hn.1, hn.2, fun hv => ?_, fun hv => ?_, fun h1 h2 => ?_⟩
  · have : (v - low) / (high - low) * 255 ≤ 0 := by
      have := div_nonpos_of_nonpos_of_nonneg (show v - low ≤ 0 by linarith) hp.le
      linarith
    simp only [clip, max_eq_right this]
    decide +kernel
  · have : 255 ≤ (v - low) / (high - low) * 255 := by
      have := (one_le_div hp).2 (show high - low ≤ v - low by linarith)
      linarith
    simp only [clip]
    rw [max_eq_left (by linarith), min_eq_right this]
    decide +kernel
  · have ha : 0 ≤ (v - low) / (high - low) := div_nonneg (by linarith) hp.le
    have hb : (v - low) / (high - low) ≤ 1 := (div_le_one hp).2 (by linarith)
    have hc : clip ((v - low) / (high - low) * 255) = (v - low) / (high - low) * 255 := by
      unfold clip
      rw [max_eq_left (by linarith), min_eq_left (by linarith)]
    simp only [hc]
    have := near_close ((v - low) / (high - low) * 255)
    rw [abs_le] at this ⊢
    constructor <;> linarith

example : Fits 10 20 14 (index (10, 20) 14) ∧ index (10, 20) 14 = 102 ∧ index (10, 20) 5 = 0 ∧ index (10, 20) 25 = 255 :=
  ⟨C319_partial 10 20 14 (by norm_num) (by norm_num), by decide +kernel, by decide +kernel, by decide +kernel⟩

/-- With 0-255 whole values of the range have their own colour; any other whole value has that of its remainder. -/
theorem C319_bytes (n : Int) : index (ends none) n = n % 256 := by
  unfold index ends toByte
  simp

/-- The colours go with the values, in ranges of either direction; of a range of one value those below and above it differ. -/
theorem C319_order (low high v w : ℚ) (h : ¬ (low = 0 ∧ high = 255)) (hd : low ≠ high) (hv : v ≤ w) :
    (low < high → index (low, high) v ≤ index (low, high) w) ∧ (high < low → index (low, high) w ≤ index (low, high) v) := by
  rw [index_eq (low, high) v hd h, index_eq (low, high) w hd h]
  refine ⟨fun hr => near_mono (clip_mono ?_), fun hr => near_mono (clip_mono ?_)⟩ <;> simp only
  · have : (v - low) / (high - low) ≤ (w - low) / (high - low) := div_le_div_of_nonneg_right (by linarith) (by linarith)
    linarith
  · have : (w - low) / (high - low) ≤ (v - low) / (high - low) := div_le_div_of_nonpos_of_le (by linarith) (by linarith)
    linarith

/-- The colours do not depend on the unit: the same values and range in another one have the same colours, if neither range is 0-255. -/
theorem C319_units (low high v a b : ℚ) (ha : a ≠ 0) (h : ¬ (low = 0 ∧ high = 255)) (h' : ¬ (a * low + b = 0 ∧ a * high + b = 255)) (hd : low ≠ high) :
    index (a * low + b, a * high + b) (a * v + b) = index (low, high) v := by
  rw [index_eq (low, high) v hd h, index_eq _ _ (fun e => hd (mul_left_cancel₀ ha (by simpa using e))) h']
  have : (a * v + b - (a * low + b)) / (a * high + b - (a * low + b)) = (v - low) / (high - low) := by
    rw [show a * v + b - (a * low + b) = a * (v - low) by ring, show a * high + b - (a * low + b) = a * (high - low) by ring]
    exact mul_div_mul_left _ _ ha
  simp only [this]

/-- A range of one value: that value has the lowest colour, those below too, one a whole unit above the highest. -/
theorem C319_single (low v : ℚ) (h : low ≠ 0) : (v ≤ low → index (low, low) v = 0) ∧ (low + 1 ≤ v → index (low, low) v = 255) := by
  have e : index (low, low) v = index (low, low + 1) v := by
    unfold index
    simp
  rw [e]
  have := C319_partial low (low + 1) v (by linarith) (fun hh => h hh.1)
  exact ⟨this.2.2.1, this.2.2.2.1⟩

end Verif.Canvas.Cmap
