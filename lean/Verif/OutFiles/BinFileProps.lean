import Verif.OutFiles.BinFileModel
import Verif.Dates.Props
import Mathlib.Tactic.Linarith
import Mathlib.Tactic.NormNum
import Mathlib.Tactic.Ring
import Mathlib.Algebra.Order.Ring.Abs

/-!
# C348: a file for GNOME Analyst holds the elements of its step
-/
namespace Verif.OutFiles.BinFile
open Verif.Dates

/-- What is needed of numbers of four bytes (IEEE 754 binary32, away from overflow and underflow): half a unit in the last of 24 places. -/
def Single (r : ℚ → ℚ) : Prop := ∀ x, |r x - x| ≤ |x| / 2 ^ 24

/-- What a program that reads the file takes an element to be: the longitude in the file counts to the west, the age is the time from the release time to the time of the file,
in seconds. -/
structure Seen where
  lon : ℚ
  lat : ℚ
  age : ℚ
  beached : Bool

def look (h : Header) (x : Rec) : Seen := ⟨-x.lon, x.lat, (h.current - x.release) * 3600, decide (x.beach < 0)⟩

/-- The hours of the header are counted within a period of four years. -/
theorem C348_hours (d : Date) (hv : Valid d) : 0 ≤ current d ∧ current d ≤ 35064 := by
  have hm := monthDay_bounds d.year d.month hv.month
  have h1 := hv.day
  have h2 := hv.hour
  have h3 := hv.minute
  have h4 := hv.second
  have m1 := (monthDays (d.year - d.year % 4)).1
  have hr : d.year % 4 = 0 ∨ d.year % 4 = 1 ∨ d.year % 4 = 2 ∨ d.year % 4 = 3 := by omega
  have e0 := yearDay_extra (d.year - d.year % 4)
  have e1 := yearDay_extra (d.year - d.year % 4 + 1)
  have e2 := yearDay_extra (d.year - d.year % 4 + 2)
  have e3 := yearDay_extra (d.year - d.year % 4 + 3)
  rw [show d.year - d.year % 4 + 1 + 1 = d.year - d.year % 4 + 2 by ring] at e1
  rw [show d.year - d.year % 4 + 2 + 1 = d.year - d.year % 4 + 3 by ring] at e2
  have nl : ∀ y : Int, y % 4 ≠ 0 → extra y = 0 := by
    intro y hy
    unfold extra leap
    have h1 : ¬ y % 400 = 0 := by omega
    simp [hy, h1]
  have x1 : extra (d.year - d.year % 4 + 1) = 0 := nl _ (by omega)
  have x2 : extra (d.year - d.year % 4 + 2) = 0 := nl _ (by omega)
  have x3 : extra (d.year - d.year % 4 + 3) = 0 := nl _ (by omega)
  have x0 := extra_cases (d.year - d.year % 4)
  have key : 0 ≤ secs d - secs (ref d) ∧ secs d - secs (ref d) ≤ 126230400 := by
    simp only [secs, ref, m1]
    generalize hb : d.year - d.year % 4 = b at *
    rcases hr with h | h | h | h
    · have hy : d.year = b := by omega
      rw [hy] at hm h1 ⊢
      omega
    · have hy : d.year = b + 1 := by omega
      rw [hy] at hm h1 ⊢
      omega
    · have hy : d.year = b + 2 := by omega
      rw [hy] at hm h1 ⊢
      omega
    · have hy : d.year = b + 3 := by omega
      rw [hy] at hm h1 ⊢
      omega
  have k1 : (0 : ℚ) ≤ (secs d : ℚ) - secs (ref d) := by exact_mod_cast key.1
  have k2 : (secs d : ℚ) - secs (ref d) ≤ 126230400 := by exact_mod_cast key.2
  unfold current
  constructor
  · linarith
  · linarith

/-- **C348**: the header has the date of the step to the minute and the number of elements, and its time in hours is right to eight seconds. -/
theorem C348_header (r : ℚ → ℚ) (hr : Single r) (d : Date) (hv : Valid d) (els : List El) :
    let h := (write r d els).1
    (h.year, h.month, h.day, h.hour, h.minute) = (d.year, d.month, d.day, d.hour, d.minute) ∧ h.num = els.length ∧ h.num = (write r d els).2.length ∧
    |h.current * 3600 - ((secs d : ℚ) - secs (ref d))| ≤ 8 := by
  refine ⟨rfl, rfl, by simp [write], ?_⟩
  have h0 := C348_hours d hv
  have h1 := hr (current d)
  rw [abs_of_nonneg h0.1] at h1
  have e : (r (current d)) * 3600 - ((secs d : ℚ) - secs (ref d)) = (r (current d) - current d) * 3600 := by
    unfold current; ring
  show |(r (current d)) * 3600 - ((secs d : ℚ) - secs (ref d))| ≤ 8
  rw [e, abs_mul, abs_of_pos (by norm_num : (0 : ℚ) < 3600)]
  have : current d / 2 ^ 24 ≤ 35064 / 2 ^ 24 := by
    apply div_le_div_of_nonneg_right h0.2; positivity
  norm_num at this h1
  linarith

/-- **C348**: there is one record for each element, in the same order; a reader finds each element within the precision of the format at its place (a fraction of
`1/2^24` of the degrees, at most two metres), with its age to within sixteen seconds and a fraction of `1/2^24` of the age, beached exactly if it is on land. -/
theorem C348_elements (r : ℚ → ℚ) (hr : Single r) (d : Date) (hv : Valid d) (els : List El) (i : Nat) (e : El) (hi : els[i]? = some e) (ha : 0 ≤ e.age) :
    ∃ x, (write r d els).2[i]? = some x ∧
      |(look (write r d els).1 x).lon - e.lon| ≤ |e.lon| / 2 ^ 24 ∧
      |(look (write r d els).1 x).lat - e.lat| ≤ |e.lat| / 2 ^ 24 ∧
      |(look (write r d els).1 x).age - e.age| ≤ 16 + e.age / 2 ^ 24 ∧
      ((look (write r d els).1 x).beached = true ↔ e.status = onLand) ∧ x.ageWhenReleased = 0 := by
  refine ⟨record r d e, by simp [write, hi], ?_, ?_, ?_, ?_, ?_⟩
  · have h := hr (-1 * e.lon)
    simp only [look, record]
    rw [show -r (-1 * e.lon) - e.lon = -(r (-1 * e.lon) - -1 * e.lon) by ring, abs_neg]
    rwa [show |-1 * e.lon| = |e.lon| by rw [abs_mul]; norm_num] at h
  · exact hr e.lat
  · have h0 := C348_hours d hv
    have h1 := hr (current d)
    have h2 := hr (release d e)
    have hrel : release d e = current d - e.age / 3600 := by unfold release current; ring
    have haq : (0 : ℚ) ≤ e.age := by exact_mod_cast ha
    have h3 : |release d e| ≤ 35064 + e.age / 3600 := by
      rw [hrel, abs_le]; constructor <;> linarith [h0.1, h0.2]
    rw [abs_of_nonneg h0.1] at h1
    show |(r (current d) - r (release d e)) * 3600 - e.age| ≤ _
    have e1 : (r (current d) - r (release d e)) * 3600 - e.age = ((r (current d) - current d) - (r (release d e) - release d e)) * 3600 := by
      rw [hrel]; ring
    rw [e1, abs_mul, abs_of_pos (by norm_num : (0 : ℚ) < 3600)]
    have h4 := abs_sub (r (current d) - current d) (r (release d e) - release d e)
    have h5 : current d / 2 ^ 24 ≤ 35064 / 2 ^ 24 := by
      apply div_le_div_of_nonneg_right h0.2; positivity
    have h6 : |release d e| / 2 ^ 24 ≤ (35064 + e.age / 3600) / 2 ^ 24 := by
      apply div_le_div_of_nonneg_right h3; positivity
    norm_num at h1 h2 h4 h5 h6 ⊢
    linarith
  · show decide ((record r d e).beach < 0) = true ↔ e.status = onLand
    rw [decide_eq_true_iff]
    simp only [record]
    split
    · rename_i h
      have := hr (-50)
      rw [abs_le] at this
      norm_num at this
      constructor
      · intro _; exact h
      · intro _; linarith [this.2]
    · rename_i h
      simp [h]
  · have h : current d - release d e = e.age / 3600 := by unfold release current; ring
    have haq : (0 : ℚ) ≤ e.age := by exact_mod_cast ha
    have h2 : max (0 - (current d - release d e)) 0 = 0 := by
      apply max_eq_right; rw [h]; linarith [div_nonneg haq (by norm_num : (0 : ℚ) ≤ 3600)]
    have h3 := hr 0
    simp only [sub_zero, abs_zero, zero_div, abs_nonpos_iff] at h3
    simp only [record, h2, h3]

/-- Numbers that are stored exactly are a case of it. -/
example : Single id := by intro x; simp; exact div_nonneg (abs_nonneg x) (by norm_num)

/-- An element on land that was released two hours before noon of 3 January 2023: the hours are counted from the beginning of 2020. -/
example : (write id ⟨2023, 1, 3, 12, 0, 0⟩ [⟨-125, 48, 7200, 3⟩]).1.current = (365 * 3 + 1 + 2) * 24 + 12 ∧
    ((write id ⟨2023, 1, 3, 12, 0, 0⟩ [⟨-125, 48, 7200, 3⟩]).2.map fun x => (x.lat, x.lon, x.release, x.beach)) = [(48, 125, (365 * 3 + 1 + 2) * 24 + 10, -50)] := by
  decide +kernel

example : Valid ⟨2023, 1, 3, 12, 0, 0⟩ := by constructor <;> decide

end Verif.OutFiles.BinFile
