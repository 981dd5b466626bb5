import Verif.Shio.DstModel
import Verif.Dates.Props

/-!
# C159, C160: daylight saving time and hours of the year
-/

namespace Verif.Shio

/-- A date of the calendar. -/
def When.Ok (d : When) : Prop :=
  1 ≤ d.month ∧ d.month ≤ 12 ∧ 1 ≤ d.day ∧ d.day ≤ 31 ∧ 1 ≤ d.dow ∧ d.dow ≤ 7 ∧ 0 ≤ d.hour ∧ d.hour ≤ 23

/-- Day `k` of the month of `d` is a Sunday. -/
def When.Sunday (d : When) (k : Int) : Prop := (k - d.day) % 7 = (1 - d.dow) % 7

/-- It is 2 o'clock of day `k` of month `m` or later. -/
def When.from_ (d : When) (m k : Int) : Prop :=
  m < d.month ∨ d.month = m ∧ (k < d.day ∨ d.day = k ∧ 2 ≤ d.hour)

/-- The rule that is written at the top of the function: until 2006 from the first Sunday in April to the last
Sunday in October, since 2007 from the second Sunday in March to the first in November, at 2 o'clock. -/
def When.Summer (d : When) : Prop :=
  if d.year < 2007 then
    (4 < d.month ∨ ∃ k, 1 ≤ k ∧ k ≤ 7 ∧ d.Sunday k ∧ d.from_ 4 k)
    ∧ (d.month < 10 ∨ d.month = 10 ∧ ∃ k, 25 ≤ k ∧ k ≤ 31 ∧ d.Sunday k ∧ ¬ d.from_ 10 k)
  else
    (3 < d.month ∨ ∃ k, 8 ≤ k ∧ k ≤ 14 ∧ d.Sunday k ∧ d.from_ 3 k)
    ∧ (d.month < 11 ∨ d.month = 11 ∧ ∃ k, 1 ≤ k ∧ k ≤ 7 ∧ d.Sunday k ∧ ¬ d.from_ 11 k)

/-- **C159, as stated**: daylight saving time is used exactly when it is in force, and never when switched
off. -/
def C159_claim : Prop :=
  ∀ d : When, d.Ok → (dst false d = true ↔ d.Summer) ∧ dst true d = false

/-- The wrong days: in the first week of November, after the first Sunday, since 2007. -/
def When.AfterNov (d : When) : Prop :=
  2007 ≤ d.year ∧ d.month = 11 ∧ d.day ≤ 7 ∧ ∃ k, 1 ≤ k ∧ k < d.day ∧ d.Sunday k

/-- There is a Sunday in every week. -/
theorem sunday_in (d : When) (a : Int) : ∃ k, a ≤ k ∧ k ≤ a + 6 ∧ d.Sunday k := by
  refine ⟨a + (d.day + 1 - d.dow - a) % 7, by omega, by omega, ?_⟩
  unfold When.Sunday
  omega

theorem sunday_unique {d : When} {a k j : Int} (h1 : a ≤ k) (h2 : k ≤ a + 6) (h3 : d.Sunday k)
    (h4 : a ≤ j) (h5 : j ≤ a + 6) (h6 : d.Sunday j) : k = j := by
  unfold When.Sunday at h3 h6
  omega

theorem exists_sunday {d : When} {a k : Int} {P : Int → Prop} (h1 : a ≤ k) (h2 : k ≤ a + 6)
    (h3 : d.Sunday k) : (∃ j, a ≤ j ∧ j ≤ a + 6 ∧ d.Sunday j ∧ P j) ↔ P k := by
  constructor
  · rintro ⟨j, hj1, hj2, hj3, hj⟩
    rwa [sunday_unique h1 h2 h3 hj1 hj2 hj3]
  · intro h; exact ⟨k, h1, h2, h3, h⟩

/-- **C159 (partial)**: all other days. -/
theorem C159_partial (d : When) (h : d.Ok) : (¬ d.AfterNov → (dst false d = true ↔ d.Summer)) ∧ dst true d = false := by
  refine ⟨fun hn => ?_, by simp [dst]⟩
  obtain ⟨h1, h2, h3, h4, h5, h6, h7, h8⟩ := h
  unfold dst
  rw [if_neg (by simp)]
  unfold When.Summer
  by_cases hy : d.year < 2007
  · rw [if_pos hy, if_pos hy]
    obtain ⟨a, ha1, ha2, ha3⟩ := sunday_in d 1
    obtain ⟨b, hb1, hb2, hb3⟩ := sunday_in d 25
    have ea := exists_sunday (P := fun k => d.from_ 4 k) ha1 ha2 ha3
    have eb := exists_sunday (P := fun k => ¬ d.from_ 10 k) hb1 hb2 hb3
    norm_num only at ea eb
    rw [ea, eb]
    unfold When.from_
    unfold When.Sunday at ha3 hb3
    split
    · simp only [Bool.false_eq_true, false_iff]; omega
    · split
      · split
        · simp only [true_iff]; omega
        · split
          · simp only [decide_eq_true_eq]; omega
          · simp only [decide_eq_true_eq]; omega
      · split
        · split
          · simp only [true_iff]; omega
          · split
            · simp only [Bool.not_eq_true', decide_eq_false_iff_not]; omega
            · simp only [Bool.not_eq_true', decide_eq_false_iff_not]; omega
        · simp only [decide_eq_true_eq]; omega
  · rw [if_neg hy, if_neg hy]
    obtain ⟨a, ha1, ha2, ha3⟩ := sunday_in d 8
    obtain ⟨b, hb1, hb2, hb3⟩ := sunday_in d 1
    have ea := exists_sunday (P := fun k => d.from_ 3 k) ha1 ha2 ha3
    have eb := exists_sunday (P := fun k => ¬ d.from_ 11 k) hb1 hb2 hb3
    norm_num only at ea eb
    rw [ea, eb]
    have hn' : d.month = 11 → d.day ≤ 7 → ¬ b < d.day := by
      intro hm hd hb
      exact hn ⟨by omega, hm, hd, b, hb1, hb, hb3⟩
    unfold When.from_
    unfold When.Sunday at ha3 hb3
    split
    · simp only [Bool.false_eq_true, false_iff]; omega
    · split
      · split
        · simp only [Bool.false_eq_true, false_iff]; omega
        · split
          · simp only [true_iff]; omega
          · split
            · simp only [decide_eq_true_eq]; omega
            · simp only [decide_eq_true_eq]; omega
      · split
        · split
          · simp only [Bool.false_eq_true, false_iff]; omega
          · split
            · simp only [Bool.not_eq_true', decide_eq_false_iff_not]; omega
            · simp only [Bool.not_eq_true', decide_eq_false_iff_not]
              omega
        · simp only [decide_eq_true_eq]; omega

/-- Non-trivial cases: the second Sunday of March 2026 at 1 and at 2 o'clock. -/
example : dst false ⟨2026, 3, 8, 1, 1⟩ = false ∧ dst false ⟨2026, 3, 8, 1, 2⟩ = true
    ∧ ¬ (When.mk 2026 3 8 1 2).AfterNov := by
  refine ⟨by decide, by decide, ?_⟩
  rintro ⟨_, h, _⟩
  revert h; decide

/-- On all of the excluded days the answer is wrong. -/
theorem C159_wrong (d : When) (h : d.Ok) (hn : d.AfterNov) (hs : d.dow ≠ 1) : dst false d = true ∧ ¬ d.Summer := by
  obtain ⟨h1, h2, h3, h4, h5, h6, h7, h8⟩ := h
  obtain ⟨hy, hm, hd, b, hb1, hb2, hb3⟩ := hn
  constructor
  · unfold dst
    simp only [Bool.false_eq_true, if_false, if_neg (show ¬ d.year < 2007 by omega), hm]
    norm_num [hs]
    omega
  · unfold When.Summer
    rw [if_neg (by omega)]
    have eb := exists_sunday (P := fun k => ¬ d.from_ 11 k) hb1 (by omega) hb3
    norm_num only at eb
    rw [eb]
    unfold When.from_
    omega

/-- **C159 fails**: Tuesday 3 November 2026, two days after the switch. -/
theorem C159_counterexample_november : dst false ⟨2026, 11, 3, 3, 12⟩ = true ∧ ¬ (When.mk 2026 11 3 3 12).Summer :=
  C159_wrong _ (by unfold When.Ok; norm_num) ⟨by norm_num, rfl, by norm_num, 1, by norm_num, by norm_num, by
    unfold When.Sunday; norm_num⟩ (by norm_num)

theorem C159_counterexample : ¬ C159_claim := by
  intro h
  have := (h ⟨2026, 11, 3, 3, 12⟩ (by unfold When.Ok; norm_num)).1
  exact C159_counterexample_november.2 (this.1 C159_counterexample_november.1)

/-- The day of the week of a day since 1970, 1 for Sunday (1 January 1970 was a Thursday). -/
def dayOfWeek (n : Int) : Int := (n + 4) % 7 + 1

/-- `Sunday` is what the calendar says: the day of the week of day `k` of the same month is 1. -/
theorem sunday_calendar (d : Dates.Date) (hd : Dates.Valid d) (hour k : Int) :
    (When.mk d.year d.month d.day (dayOfWeek (Dates.secs d / 86400)) hour).Sunday k
      ↔ dayOfWeek (Dates.yearDay d.year + Dates.monthDay d.year d.month + (k - 1)) = 1 := by
  have hn : Dates.secs d / 86400 = Dates.yearDay d.year + Dates.monthDay d.year d.month + (d.day - 1) := by
    have := hd.hour
    have := hd.minute
    have := hd.second
    unfold Dates.secs
    omega
  rw [hn]
  unfold When.Sunday dayOfWeek
  simp only
  omega

/-! ## C160 -/

/-- Seconds from the beginning of the year of a date to the beginning of its day. -/
def intoYear (d : Dates.Date) : Int :=
  Dates.secs { d with hour := 0, minute := 0, second := 0 } - Dates.secs ⟨d.year, 1, 1, 0, 0, 0⟩

/-- **C160, as stated**: the hours computed for a station are those from the beginning of the first day to the
end of the last, counted from the beginning of the year of the first. -/
def C160_claim : Prop :=
  ∀ b e : Dates.Date, Dates.Valid b → Dates.Valid e → b.year ≤ e.year → e.year ≤ b.year + 1 →
    ∃ x y, span b e false = .ok (x, y) ∧ x * 3600 = intoYear b
      ∧ y * 3600 = Dates.secs { e with hour := 0, minute := 0, second := 0 } + 86400 - Dates.secs ⟨b.year, 1, 1, 0, 0, 0⟩

theorem daysBefore_eq (y : Int) : ∀ m : Nat, 1 ≤ m → m ≤ 12 → daysBefore y (m - 1) = Dates.monthDay y m := by
  intro m h1 h2
  obtain rfl | rfl | rfl | rfl | rfl | rfl | rfl | rfl | rfl | rfl | rfl | rfl :
    m = 1 ∨ m = 2 ∨ m = 3 ∨ m = 4 ∨ m = 5 ∨ m = 6 ∨ m = 7 ∨ m = 8 ∨ m = 9 ∨ m = 10 ∨ m = 11 ∨ m = 12 := by omega
  all_goals
    by_cases hl : Dates.leap y = true
    · simp [daysBefore, Dates.dim, Dates.monthDay, hl]
    · simp [daysBefore, Dates.dim, Dates.monthDay, hl]

theorem julianHr_eq (d : Dates.Date) (hd : Dates.Valid d) (h1 : 1904 ≤ d.year) (h2 : d.year ≤ 2035) :
    ∃ h, julianHr d.day d.month d.year = .ok h ∧ h * 3600 = intoYear d := by
  obtain ⟨⟨m1, m2⟩, ⟨d1, d2⟩, _⟩ := hd
  unfold julianHr
  rw [if_neg (by omega), if_neg (by omega), if_neg (by omega)]
  refine ⟨_, rfl, ?_⟩
  have hm : daysBefore d.year (d.month - 1).toNat = Dates.monthDay d.year d.month := by
    have := daysBefore_eq d.year d.month.toNat (by omega) (by omega)
    rw [show d.month.toNat - 1 = (d.month - 1).toNat by omega, show ((d.month.toNat : Nat) : Int) = d.month by omega] at this
    exact this
  rw [hm]
  unfold intoYear Dates.secs
  simp only
  have : Dates.monthDay d.year 1 = 0 := by simp [Dates.monthDay]
  rw [this]
  omega

/-- Days from a new year to the next. -/
theorem year_length (y : Int) : Dates.secs ⟨y, 12, 31, 0, 0, 0⟩ + 86400 = Dates.secs ⟨y + 1, 1, 1, 0, 0, 0⟩ := by
  unfold Dates.secs Dates.monthDay Dates.yearDay
  by_cases hl : Dates.leap y = true
  · simp only [hl]
    norm_num
    unfold Dates.leap at hl
    simp at hl
    omega
  · simp only [hl]
    norm_num
    unfold Dates.leap at hl
    simp at hl
    omega

/-- **C160 (partial)**: from 1904 to 2035, within a year; into the next year the last day is missing.  In
daylight saving time all is an hour earlier. -/
theorem C160_partial (b e : Dates.Date) (hb : Dates.Valid b) (he : Dates.Valid e) (h1 : 1904 ≤ b.year)
    (h2 : e.year ≤ 2035) (h3 : b.year ≤ e.year) (h4 : e.year ≤ b.year + 1) (dst : Bool) :
    ∃ x y, span b e dst = .ok (x, y) ∧ x * 3600 = intoYear b - (if dst then 3600 else 0)
      ∧ y * 3600 = Dates.secs { e with hour := 0, minute := 0, second := 0 } + (if e.year = b.year then 86400 else 0)
          - Dates.secs ⟨b.year, 1, 1, 0, 0, 0⟩ - (if dst then 3600 else 0) := by
  obtain ⟨x, hx, hx'⟩ := julianHr_eq b hb h1 (by omega)
  obtain ⟨y, hy, hy'⟩ := julianHr_eq e he (by omega) h2
  unfold span
  rw [hx, hy]
  simp only
  by_cases hlt : e.year > b.year
  · rw [if_pos hlt]
    obtain ⟨z, hz, hz'⟩ := julianHr_eq ⟨b.year, 12, 31, 0, 0, 0⟩ (by
      constructor <;> norm_num [Dates.dim]) h1 (by simp only; omega)
    simp only at hz
    rw [hz]
    refine ⟨_, _, rfl, ?_, ?_⟩
    · rw [← hx']; cases dst <;> simp <;> omega
    · have hyl := year_length b.year
      unfold intoYear at hy' hz'
      simp only at hz'
      rw [show b.year + 1 = e.year by omega] at hyl
      rw [if_neg (show ¬ e.year = b.year by omega)]
      cases dst <;> simp <;> omega
  · rw [if_neg hlt]
    have hee : e.year = b.year := by omega
    refine ⟨_, _, rfl, ?_, ?_⟩
    · rw [← hx']; cases dst <;> simp <;> omega
    · unfold intoYear at hy'
      rw [if_pos hee]
      rw [hee] at hy' ⊢
      cases dst <;> simp <;> omega

/-- Non-trivial case: from 28 February to 2 March 2024. -/
example : span ⟨2024, 2, 28, 0, 0, 0⟩ ⟨2024, 3, 2, 0, 0, 0⟩ false = .ok (1392, 1488) := rfl

/-- **C160 fails** at the end of a year: from 30 December 2023 to 2 January 2024 there are four days, of which
three are computed. -/
theorem C160_counterexample_newyear : span ⟨2023, 12, 30, 0, 0, 0⟩ ⟨2024, 1, 2, 0, 0, 0⟩ false = .ok (8712, 8712 + 3 * 24) := rfl

/-- **C160 fails** from 2036 on: no tide can be computed. -/
theorem C160_counterexample_2036 (b e : Dates.Date) (h : 2035 < b.year) (hb : Dates.Valid b) (dst : Bool) :
    span b e dst = .error 5 := by
  obtain ⟨⟨m1, m2⟩, ⟨d1, d2⟩, _⟩ := hb
  unfold span julianHr
  rw [if_neg (by omega), if_neg (by omega), if_pos (by omega)]

theorem C160_counterexample : ¬ C160_claim := by
  intro h
  obtain ⟨x, y, hxy, _⟩ := h ⟨2036, 1, 1, 0, 0, 0⟩ ⟨2036, 1, 4, 0, 0, 0⟩ (by constructor <;> norm_num [Dates.dim])
    (by constructor <;> norm_num [Dates.dim]) (by norm_num) (by norm_num)
  rw [C160_counterexample_2036 _ _ (by norm_num) (by constructor <;> norm_num [Dates.dim])] at hxy
  cases hxy

end Verif.Shio
