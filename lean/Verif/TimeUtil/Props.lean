import Verif.TimeUtil.Model
import Mathlib.Tactic.Linarith
import Mathlib.Tactic.Ring
import Mathlib.Tactic.NormNum

/-!
# C46: `round_time`; C55: seconds and datetimes
-/

namespace Verif.TimeUtil

/-- Specification: `s` is the day of `t` (both seconds) plus a multiple of `r`. -/
def OnGrid (r t s : Int) : Prop := ∃ k : Int, s = t / 86400 * 86400 + k * r

/-- Specification: `s` is a nearest grid point to the moment `us` (microseconds), the later one if two are equally near. -/
def Nearest (r us s : Int) : Prop :=
  OnGrid r (us / 1000000) s ∧
    (2 * (s * 1000000 - us) ≤ r * 1000000 ∧ 2 * (us - s * 1000000) < r * 1000000)

/-- A nearest point is at least as near as any other point of the grid, and later in case of a tie: the definition above says
what it should. -/
theorem nearest_spec (r us s s' : Int) (hr : 0 < r) (h : Nearest r us s) (h' : OnGrid r (us / 1000000) s') :
    |s * 1000000 - us| ≤ |s' * 1000000 - us| ∧ (|s * 1000000 - us| = |s' * 1000000 - us| → s' ≤ s) := by
  obtain ⟨⟨k, hk⟩, h1, h2⟩ := h
  obtain ⟨k', hk'⟩ := h'
  have key : s' = s ∨ s' ≤ s - r ∨ s + r ≤ s' := by
    rcases lt_trichotomy k' k with hlt | heq | hgt
    · right; left
      have : (k' + 1) * r ≤ k * r := Int.mul_le_mul_of_nonneg_right (by omega) (by omega)
      rw [Int.add_mul, Int.one_mul] at this
      omega
    · left; rw [hk, hk', heq]
    · right; right
      have : (k + 1) * r ≤ k' * r := Int.mul_le_mul_of_nonneg_right (by omega) (by omega)
      rw [Int.add_mul, Int.one_mul] at this
      omega
  rcases key with rfl | h | h
  · exact ⟨le_refl _, fun _ => le_refl _⟩
  · rw [Int.abs_eq_natAbs, Int.abs_eq_natAbs]
    exact ⟨by omega, fun _ => by omega⟩
  · rw [Int.abs_eq_natAbs, Int.abs_eq_natAbs]
    exact ⟨by omega, fun he => by omega⟩

theorem grid_round (r s : Int) (hr : 0 < r) :
    2 * ((2 * s + r) / (2 * r) * r - s) ≤ r ∧ 2 * (s - (2 * s + r) / (2 * r) * r) < r := by
  have h1 := Int.ediv_mul_add_emod (2 * s + r) (2 * r)
  have h2 := Int.emod_nonneg (2 * s + r) (show 2 * r ≠ 0 by omega)
  have h3 := Int.emod_lt_of_pos (2 * s + r) (show 0 < 2 * r by omega)
  have h4 : (2 * s + r) / (2 * r) * (2 * r) = 2 * ((2 * s + r) / (2 * r) * r) := by ring
  omega

/-- **C46**, for whole seconds: the result is the nearest multiple of the interval counted from midnight, ties up. -/
theorem C46_nearest_partial (r us : Int) (hr : 0 < r) (hw : us % 1000000 = 0) : Nearest r us (roundTime r us) := by
  unfold Nearest OnGrid roundTime roundSec toSec
  simp only
  obtain ⟨h1, h2⟩ := grid_round r (us / 1000000 % 86400) hr
  have h3 := Int.ediv_mul_add_emod (us / 1000000) 86400
  have h4 := Int.ediv_mul_add_emod us 1000000
  refine ⟨⟨(2 * (us / 1000000 % 86400) + r) / (2 * r), by omega⟩, by omega, by omega⟩

/-- For any moment the result is on the grid and nearest to the whole second at or before it. -/
theorem C46_nearest_floor (r us : Int) (hr : 0 < r) : Nearest r (us / 1000000 * 1000000) (roundTime r us) := by
  have h := C46_nearest_partial r (us / 1000000 * 1000000) hr (by omega)
  have : roundTime r (us / 1000000 * 1000000) = roundTime r us := by
    unfold roundTime toSec; congr 1; omega
  rwa [this] at h

/-- For an even interval a fraction of a second makes no difference to the bound: still nearest. -/
theorem C46_nearest_even (r us : Int) (hr : 0 < r) (he : r % 2 = 0) : Nearest r us (roundTime r us) := by
  unfold Nearest OnGrid roundTime roundSec toSec
  simp only
  obtain ⟨h1, h2⟩ := grid_round r (us / 1000000 % 86400) hr
  have h3 := Int.ediv_mul_add_emod (us / 1000000) 86400
  have h4 := Int.ediv_mul_add_emod us 1000000
  have h5 := Int.emod_nonneg us (show (1000000 : Int) ≠ 0 by omega)
  have h6 := Int.emod_lt_of_pos us (show (0 : Int) < 1000000 by omega)
  refine ⟨⟨(2 * (us / 1000000 % 86400) + r) / (2 * r), by omega⟩, by omega, by omega⟩

/-- Counterexample to C46 for odd intervals: 0.9 s rounds to 0 with an interval of 1 s. -/
theorem C46_counterexample_fraction : ¬ Nearest 1 900000 (roundTime 1 900000) := by
  rintro ⟨_, _, h⟩
  revert h
  decide

/-- **C46** (idempotent), for intervals that divide the day. -/
theorem C46_idempotent_partial (r us : Int) (hr : 0 < r) (hd : 86400 % r = 0) :
    roundTime r (roundTime r us * 1000000) = roundTime r us := by
  obtain ⟨⟨k, hk⟩, -, -⟩ := C46_nearest_floor r us hr
  obtain ⟨n, hn⟩ := Int.dvd_of_emod_eq_zero hd
  -- the rounded value is a multiple of r
  have hm : roundTime r us = (us / 1000000 * 1000000 / 1000000 / 86400 * n + k) * r := by
    rw [hk, hn]; ring
  generalize hx : us / 1000000 * 1000000 / 1000000 / 86400 * n + k = m at hm
  rw [hm]
  unfold roundTime roundSec toSec
  simp only
  have h1 : m * r * 1000000 / 1000000 = m * r := Int.mul_ediv_cancel _ (by omega)
  rw [h1]
  have h2 := Int.ediv_mul_add_emod (m * r) 86400
  -- the second of the day is a multiple of r as well
  have h3 : m * r % 86400 = (m - m * r / 86400 * n) * r := by
    rw [Int.sub_mul]
    have : m * r / 86400 * n * r = m * r / 86400 * 86400 := by rw [hn]; ring
    omega
  rw [h3]
  generalize m - m * r / 86400 * n = j
  have h4 : (2 * (j * r) + r) / (2 * r) = j := by
    have : 2 * (j * r) + r = r + (2 * r) * j := by ring
    rw [this, Int.add_mul_ediv_left _ _ (by omega), Int.ediv_eq_zero_of_lt (by omega) (by omega)]
    omega
  rw [h4]
  omega

/-- Counterexample to idempotence when the interval does not divide the day. -/
theorem C46_counterexample_idempotent :
    ¬ ∀ r us : Int, 0 < r → us % 1000000 = 0 → roundTime r (roundTime r us * 1000000) = roundTime r us := by
  intro h
  have := h 50000 80000000000 (by decide) (by decide)
  revert this
  decide

/-- The values computed do not depend on the kind of argument, and a list of datetimes is left alone. -/
theorem C46_values (r : Int) (l : List Int) :
    (roundTimeCall r (.array l)).1 = (roundTimeCall r (.dates (l.map (· * 1000000)))).1 ∧
      (roundTimeCall r (.dates l)).2 = .dates l := by
  refine ⟨?_, rfl⟩
  simp only [roundTimeCall, List.map_map]
  apply List.map_congr_left
  intro a _
  simp only [Function.comp, roundTime, toSec]
  rw [Int.mul_ediv_cancel _ (by omega)]

/-- An array of `datetime64[s]` passed by the caller is overwritten by the rounded values. -/
theorem C46_counterexample_mutation : (roundTimeCall 60 (.array [30])).2 ≠ .array [30] := by decide

example : roundTime 3600 (86400 * 1000000 + 5400 * 1000000) = 86400 + 7200 := by decide

/-! ## C55 -/

/-- **C55** (durations).  For whole seconds the difference of the seconds is the difference of the times, in every zone:
daylight saving time does not enter. -/
theorem C55_duration (z : Zone) (a b : Int) (ha : a % 1000000 = 0) (hb : b % 1000000 = 0) :
    (dateToSec z b - dateToSec z a) * 1000000 = b - a := by
  unfold dateToSec epoch
  omega

/-- Conversion to seconds keeps the order of times. -/
theorem C55_monotone (z : Zone) (a b : Int) (h : a ≤ b) : dateToSec z a ≤ dateToSec z b := by
  unfold dateToSec epoch
  omega

/-- **C55** (round trip), for zones whose daylight saving shift is one hour. -/
theorem C55_roundtrip_partial (z : Zone) (hz : z.sh = 3600) (a : Int) (ha : a % 1000000 = 0) :
    secToDatetime z (dateToSec z a) = a := by
  have h : dateToSec z a * 1000000 = a - epoch - z.off * 1000000 := by
    unfold dateToSec epoch
    omega
  have h' : ((dateToSec z a : Int) : Rat) * 1000000 = a - epoch - z.off * 1000000 := by exact_mod_cast h
  unfold secToDatetime
  simp only [hz]
  split
  · push_cast; linarith
  · push_cast; linarith

/-- Going back and forth from a number of seconds. -/
theorem C55_time_plus (z : Zone) (hz : z.sh = 3600) (a : Int) (ha : a % 1000000 = 0) (d : Rat) :
    secToDatetime z (dateToSec z a + d) = a + d * 1000000 := by
  have h : dateToSec z a * 1000000 = a - epoch - z.off * 1000000 := by
    unfold dateToSec epoch
    omega
  have h' : ((dateToSec z a : Int) : Rat) * 1000000 = a - epoch - z.off * 1000000 := by exact_mod_cast h
  unfold secToDatetime
  simp only [hz]
  split
  · push_cast; linarith
  · push_cast; linarith

/-- Zones without daylight saving time need no assumption on the shift. -/
theorem C55_roundtrip_standard (z : Zone) (hz : ∀ s, z.dst s = false) (a : Int) (ha : a % 1000000 = 0) :
    secToDatetime z (dateToSec z a) = a := by
  have h : dateToSec z a * 1000000 = a - epoch - z.off * 1000000 := by
    unfold dateToSec epoch
    omega
  have h' : ((dateToSec z a : Int) : Rat) * 1000000 = a - epoch - z.off * 1000000 := by exact_mod_cast h
  unfold secToDatetime
  simp only [hz]
  norm_num
  linarith

/-- Exactly how far off the round trip is in general. -/
theorem C55_roundtrip_error (z : Zone) (a : Int) (ha : a % 1000000 = 0) :
    secToDatetime z (dateToSec z a) = a + (if z.dst (dateToSec z a) then (z.sh - 3600) * 1000000 else 0) := by
  have h : dateToSec z a * 1000000 = a - epoch - z.off * 1000000 := by
    unfold dateToSec epoch
    omega
  have h' : ((dateToSec z a : Int) : Rat) * 1000000 = a - epoch - z.off * 1000000 := by exact_mod_cast h
  unfold secToDatetime
  cases z.dst (dateToSec z a)
  · simp only [Bool.false_eq_true, if_false]; push_cast; linarith
  · simp only [if_true]; push_cast; linarith

/-- Lord Howe Island: daylight saving shift of half an hour. -/
def lordHowe : Zone := ⟨37800, fun s => decide (0 ≤ s), 1800⟩

/-- Counterexample to the round trip: on a machine in a zone with a half hour shift summer times come back wrong. -/
theorem C55_counterexample_shift : ¬ ∀ (z : Zone) (a : Int), a % 1000000 = 0 → secToDatetime z (dateToSec z a) = a := by
  intro h
  have := h lordHowe (epoch + 86400000000) (by decide)
  revert this
  decide +kernel

/-- The array form of `date_to_sec` keeps the value exactly for times from 1970 to 2106 (as seen in the zone). -/
theorem C55_array (z : Zone) (a : Int) : toU32 (dateToSec z a) = dateToSec z a ↔
    0 ≤ dateToSec z a ∧ dateToSec z a < 4294967296 := by
  unfold toU32
  omega

/-- Counterexample for the array form: one second before the epoch. -/
theorem C55_counterexample_array : toU32 (dateToSec ⟨0, fun _ => false, 3600⟩ (epoch - 1000000)) = 4294967295 := by decide

example : (⟨-28800, fun s => decide (0 ≤ s), 3600⟩ : Zone).sh = 3600 ∧ (epoch + 5000000) % 1000000 = 0 := by
  decide

end Verif.TimeUtil
