import Verif.Dates.Model
import Mathlib.Tactic.Ring
import Mathlib.Tactic.Linarith

/-!
# C149, C150: dates, seconds and whole minutes

The trusted part is the C library (`Model.lean`).  What is proved about the calendar below is
there to show that the model of it is a calendar: every second has exactly one valid date.
-/

namespace Verif.Dates

/-- A date that can be found in a calendar, independent of `civil`: fields in their ranges. -/
structure Valid (d : Date) : Prop where
  month : 1 ≤ d.month ∧ d.month ≤ 12
  day : 1 ≤ d.day ∧ d.day ≤ dim d.year d.month
  hour : 0 ≤ d.hour ∧ d.hour < 24
  minute : 0 ≤ d.minute ∧ d.minute < 60
  second : 0 ≤ d.second ∧ d.second < 60

theorem yearDay_succ (y : Int) : yearDay (y + 1) = yearDay y + if leap y then 366 else 365 := by
  unfold yearDay leap
  by_cases h4 : y % 4 = 0 <;> by_cases h100 : y % 100 = 0 <;> by_cases h400 : y % 400 = 0 <;>
    simp [h4, h100, h400] <;> omega

theorem yearDay_lt (y : Int) : yearDay y < yearDay (y + 1) := by
  rw [yearDay_succ]; split <;> omega

theorem yearDay_mono {a b : Int} (h : a ≤ b) : yearDay a ≤ yearDay b := by
  unfold yearDay; omega

theorem yearOf_spec (n : Int) : yearDay (yearOf n) ≤ n ∧ n < yearDay (yearOf n + 1) := by
  unfold yearOf
  simp only
  generalize hg : 1970 + (400 * n) / 146097 = g
  split
  · rename_i h
    refine ⟨?_, by simpa using h⟩
    unfold yearDay at h ⊢; omega
  · rename_i h
    split
    · rename_i h2
      refine ⟨h2, ?_⟩
      unfold yearDay at h h2 ⊢; omega
    · rename_i h2
      exact ⟨by omega, by omega⟩

theorem yearOf_unique {n y : Int} (h1 : yearDay y ≤ n) (h2 : n < yearDay (y + 1)) :
    yearOf n = y := by
  obtain ⟨a, b⟩ := yearOf_spec n
  rcases lt_trichotomy (yearOf n) y with h | h | h
  · have := yearDay_mono (show yearOf n + 1 ≤ y by omega); omega
  · exact h
  · have := yearDay_mono (show y + 1 ≤ yearOf n by omega); omega

theorem monthDay_succ (y m : Int) (h : 1 ≤ m) (h2 : m < 12) :
    monthDay y (m + 1) = monthDay y m + dim y m := by
  have : m = 1 ∨ m = 2 ∨ m = 3 ∨ m = 4 ∨ m = 5 ∨ m = 6 ∨ m = 7 ∨ m = 8 ∨ m = 9 ∨ m = 10
    ∨ m = 11 := by omega
  rcases this with h | h | h | h | h | h | h | h | h | h | h <;> subst h <;>
    cases hl : leap y <;> simp [monthDay, dim, hl]

/-- One for a leap year. -/
def extra (y : Int) : Int := if leap y then 1 else 0

theorem extra_cases (y : Int) : extra y = 0 ∨ extra y = 1 := by unfold extra; split <;> simp

theorem monthDays (y : Int) : monthDay y 1 = 0 ∧ monthDay y 2 = 31 ∧ monthDay y 3 = 59 + extra y
    ∧ monthDay y 4 = 90 + extra y ∧ monthDay y 5 = 120 + extra y ∧ monthDay y 6 = 151 + extra y
    ∧ monthDay y 7 = 181 + extra y ∧ monthDay y 8 = 212 + extra y ∧ monthDay y 9 = 243 + extra y
    ∧ monthDay y 10 = 273 + extra y ∧ monthDay y 11 = 304 + extra y
    ∧ monthDay y 12 = 334 + extra y := by
  simp [monthDay, extra]

theorem dims (y : Int) : dim y 1 = 31 ∧ dim y 2 = 28 + extra y ∧ dim y 3 = 31 ∧ dim y 4 = 30
    ∧ dim y 5 = 31 ∧ dim y 6 = 30 ∧ dim y 7 = 31 ∧ dim y 8 = 31 ∧ dim y 9 = 30 ∧ dim y 10 = 31
    ∧ dim y 11 = 30 ∧ dim y 12 = 31 := by
  simp only [dim, extra]
  cases leap y <;> simp

theorem monthFrom_spec (y k : Int) (h1 : k < 365 + extra y) (f : Nat) :
    ∀ m : Int, 1 ≤ m → m + f = 12 → monthDay y m ≤ k →
    1 ≤ monthFrom y k f m ∧ monthFrom y k f m ≤ 12 ∧ monthDay y (monthFrom y k f m) ≤ k
      ∧ k < monthDay y (monthFrom y k f m) + dim y (monthFrom y k f m) := by
  induction f with
  | zero =>
    intro m h hm hk
    have : m = 12 := by simpa using hm
    subst this
    have hd := (dims y).2.2.2.2.2.2.2.2.2.2.2
    have hmd := (monthDays y).2.2.2.2.2.2.2.2.2.2.2
    simp only [monthFrom]
    refine ⟨by norm_num, by norm_num, hk, ?_⟩
    rw [hd, hmd]; linarith
  | succ f ih =>
    intro m h hm hk
    have hs := monthDay_succ y m h (by omega)
    simp only [monthFrom]
    split
    · rename_i hlt
      exact ⟨h, by omega, hk, by omega⟩
    · rename_i hge
      exact ih (m + 1) (by omega) (by push_cast at hm; omega) (by omega)

theorem monthOf_spec (y k : Int) (h0 : 0 ≤ k) (h1 : k < 365 + extra y) :
    1 ≤ monthOf y k ∧ monthOf y k ≤ 12 ∧ monthDay y (monthOf y k) ≤ k
      ∧ k < monthDay y (monthOf y k) + dim y (monthOf y k) :=
  monthFrom_spec y k h1 11 1 (by norm_num) (by norm_num) (by rw [(monthDays y).1]; exact h0)

theorem yearDay_extra (y : Int) : yearDay (y + 1) = yearDay y + 365 + extra y := by
  rw [yearDay_succ]; unfold extra; split <;> ring

/-- Every second has a valid date. -/
theorem civil_valid (s : Int) : Valid (civil s) := by
  have hy := yearOf_spec (s / 86400)
  have hk := monthOf_spec (yearOf (s / 86400)) (s / 86400 - yearDay (yearOf (s / 86400)))
    (by omega) (by have := yearDay_extra (yearOf (s / 86400)); omega)
  constructor <;> simp only [civil] <;> omega

/-- The seconds of the date of a second are the second. -/
theorem secs_civil (s : Int) : secs (civil s) = s := by
  simp only [secs, civil]
  ring_nf
  omega

theorem months {m : Int} (h : 1 ≤ m ∧ m ≤ 12) : m = 1 ∨ m = 2 ∨ m = 3 ∨ m = 4 ∨ m = 5 ∨ m = 6
    ∨ m = 7 ∨ m = 8 ∨ m = 9 ∨ m = 10 ∨ m = 11 ∨ m = 12 := by omega

theorem monthDay_bounds (y m : Int) (h : 1 ≤ m ∧ m ≤ 12) :
    0 ≤ monthDay y m ∧ monthDay y m + dim y m ≤ 365 + extra y := by
  obtain ⟨m1, m2, m3, m4, m5, m6, m7, m8, m9, m10, m11, m12⟩ := monthDays y
  obtain ⟨d1, d2, d3, d4, d5, d6, d7, d8, d9, d10, d11, d12⟩ := dims y
  have he := extra_cases y
  generalize extra y = e at *
  rcases months h with h | h | h | h | h | h | h | h | h | h | h | h <;> subst h <;>
    simp only [m1, m2, m3, m4, m5, m6, m7, m8, m9, m10, m11, m12, d1, d2, d3, d4, d5, d6, d7, d8, d9, d10, d11, d12] <;> clear m1 m2 m3 m4 m5 m6 m7 m8 m9 m10 m11 m12 d1 d2 d3 d4 d5 d6 d7 d8 d9 d10 d11 d12 <;> omega

theorem monthDay_le (y : Int) (m : Int) (j : Nat) (h : 1 ≤ m) (h2 : m + (j + 1 : Nat) ≤ 12) :
    monthDay y m + dim y m ≤ monthDay y (m + (j + 1 : Nat)) := by
  induction j with
  | zero => rw [show m + ((0 + 1 : Nat) : Int) = m + 1 by simp, monthDay_succ y m h (by omega)]
  | succ j ih =>
    have := ih (by omega)
    rw [show m + ((j + 1 + 1 : Nat) : Int) = m + ((j + 1 : Nat) : Int) + 1 by push_cast; ring,
      monthDay_succ y _ (by omega) (by omega)]
    have hd : 0 ≤ dim y (m + ((j + 1 : Nat) : Int)) := by unfold dim; split_ifs <;> norm_num
    omega

theorem monthDay_lt (y m m' : Int) (h : 1 ≤ m) (h2 : m < m') (h3 : m' ≤ 12) :
    monthDay y m + dim y m ≤ monthDay y m' := by
  obtain ⟨j, hj⟩ : ∃ j : Nat, m' = m + ((j + 1 : Nat) : Int) := ⟨(m' - m - 1).toNat, by omega⟩
  subst hj
  exact monthDay_le y m j h h3

theorem monthOf_unique (y m k : Int) (h : 1 ≤ m ∧ m ≤ 12) (h1 : monthDay y m ≤ k)
    (h2 : k < monthDay y m + dim y m) : monthOf y k = m := by
  have hb := monthDay_bounds y m h
  obtain ⟨a, b, c, d⟩ := monthOf_spec y k (by omega) (by omega)
  rcases lt_trichotomy (monthOf y k) m with hc | hc | hc
  · have := monthDay_lt y _ _ a hc h.2; omega
  · exact hc
  · have := monthDay_lt y _ _ h.1 hc b; omega

/-- And the only valid date with these seconds. -/
theorem civil_secs (d : Date) (h : Valid d) : civil (secs d) = d := by
  obtain ⟨y, m, dd, hh, mi, ss⟩ := d
  obtain ⟨h1, h2, h3, h4, h5⟩ := h
  simp only at h1 h2 h3 h4 h5
  have hb := monthDay_bounds y m h1
  have hdiv : secs ⟨y, m, dd, hh, mi, ss⟩ / 86400 = yearDay y + monthDay y m + (dd - 1) := by
    simp only [secs]; omega
  have hmod : secs ⟨y, m, dd, hh, mi, ss⟩ % 86400 = hh * 3600 + mi * 60 + ss := by
    simp only [secs]; omega
  have hy : yearOf (yearDay y + monthDay y m + (dd - 1)) = y := by
    apply yearOf_unique
    · omega
    · rw [yearDay_extra]; omega
  have hm : monthOf y (yearDay y + monthDay y m + (dd - 1) - yearDay y) = m := by
    apply monthOf_unique _ _ _ h1 <;> omega
  simp only [civil, hdiv, hmod, hy, hm, Date.mk.injEq, true_and]
  refine ⟨by omega, by omega, by omega, by omega⟩

theorem year_bounds {x a b : Int} (h1 : yearDay a * 86400 ≤ x) (h2 : x < yearDay b * 86400) :
    a ≤ (civil x).year ∧ (civil x).year < b := by
  obtain ⟨h3, h4⟩ := yearOf_spec (x / 86400)
  show a ≤ yearOf (x / 86400) ∧ yearOf (x / 86400) < b
  constructor
  · by_contra hc
    have := yearDay_mono (show yearOf (x / 86400) + 1 ≤ a by omega); omega
  · by_contra hc
    have := yearDay_mono (show b ≤ yearOf (x / 86400) by omega); omega

/-! ## C149 -/

/-- The date of a second in the standard time of a zone, the specification of `SecondsToDate`:
the calendar date of the shifted second. -/
def StandardDate (z : Zone) (s : Int) (d : Date) : Prop := Valid d ∧ secs d = s + z.std

/-- **C149, as stated**: from 1970 on, the date of a second is its date in standard time, and
gives the second back. -/
def C149_claim : Prop :=
  ∀ (z : Zone) (s : Int), z.std % 60 = 0 → 0 ≤ s → 0 ≤ s + z.std →
    StandardDate z s (secondsToDate z s) ∧ dateToSeconds z (secondsToDate z s) = s

theorem civil_hour (x : Int) (h : (civil (x + 3600)).hour > 0) :
    { civil (x + 3600) with hour := (civil (x + 3600)).hour - 1 } = civil x := by
  have hr : (x + 3600) % 86400 / 3600 > 0 := h
  have hd : (x + 3600) / 86400 = x / 86400 := by omega
  simp only [civil, hd, Date.mk.injEq, true_and]
  refine ⟨by omega, by omega, by omega⟩

/-- What `SecondsToDate` gives outside of the first hour of a day in daylight saving time. -/
theorem secondsToDate_eq (z : Zone) (s : Int) (h1 : 1940 ≤ (civil (s + z.std)).year)
    (h2 : (civil (s + z.std)).year < 2100)
    (hd : z.dst s = true → (localtime z s).hour ≠ 0) :
    secondsToDate z s = civil (s + z.std) := by
  unfold secondsToDate
  cases hdst : z.dst s
  · have hl : localtime z s = civil (s + z.std) := by simp [localtime, hdst]
    simp only [hl, Bool.false_eq_true, if_false]
    have : century ((civil (s + z.std)).year - 1900) = (civil (s + z.std)).year := by
      unfold century; split_ifs <;> omega
    rw [this]
  · have hl : localtime z s = civil (s + z.std + 3600) := by simp [localtime, hdst]
    have hh := hd hdst
    rw [hl] at hh
    have hv := (civil_valid (s + z.std + 3600)).hour
    have hpos : (civil (s + z.std + 3600)).hour > 0 := by omega
    have hc := civil_hour (s + z.std) hpos
    have hy : (civil (s + z.std + 3600)).year = (civil (s + z.std)).year := by
      have := congrArg Date.year hc; simpa using this
    simp only [hl, if_true, hpos, hy]
    have : century ((civil (s + z.std)).year - 1900) = (civil (s + z.std)).year := by
      unfold century; split_ifs <;> omega
    rw [this, ← hc]

theorem dateToSeconds_eq (z : Zone) (d : Date) (hz : z.std % 60 = 0) (h1 : 1940 ≤ d.year) :
    dateToSeconds z d = secs d - z.std := by
  unfold dateToSeconds dateString2Secs
  have hy : ¬ d.year < 40 := by omega
  have hy' : ¬ d.year < 200 := by omega
  simp only [hy, hy', if_false, Int.sub_add_cancel]
  have : ¬ (secs ⟨d.year, d.month, d.day, 0, 0, 0⟩ - z.std = -1) := by
    simp only [secs]; omega
  simp only [this, if_false]
  simp only [secs]; ring

/-- **C149 (partial)**: between 1970 and 2099, outside of the first hour of a day in daylight
saving time. -/
theorem C149_partial (z : Zone) (s : Int) (hz : z.std % 60 = 0) (h1 : 0 ≤ s + z.std)
    (h2 : s + z.std < 4102444800) (hd : z.dst s = true → (localtime z s).hour ≠ 0) :
    StandardDate z s (secondsToDate z s) ∧ dateToSeconds z (secondsToDate z s) = s := by
  have hy := year_bounds (x := s + z.std) (a := 1970) (b := 2100)
    (by norm_num [yearDay]; omega) (by norm_num [yearDay]; omega)
  rw [secondsToDate_eq z s (by omega) (by omega) hd]
  refine ⟨⟨civil_valid _, secs_civil _⟩, ?_⟩
  rw [dateToSeconds_eq z _ hz (by omega), secs_civil]
  omega

/-- Pacific time with daylight saving time in July 2026 (a part of the true rule). -/
def pacific : Zone := ⟨-28800, fun s => decide (1782889200 ≤ s ∧ s < 1785567600)⟩

/-- Non-trivial case: 1 July 2026, 12:34:56 in Seattle is 11:34:56 standard time. -/
example : secondsToDate pacific 1782934496 = ⟨2026, 7, 1, 11, 34, 56⟩
    ∧ (pacific.dst 1782934496 = true → (localtime pacific 1782934496).hour ≠ 0)
    ∧ (0 : Int) ≤ 1782934496 + pacific.std := by decide

/-- **C149 fails**: half past midnight of 1 July 2026 in Seattle is 23:30 of 30 June in standard
time, but half past midnight of 1 July is returned, and the seconds of that are an hour late. -/
theorem C149_counterexample_dst :
    secondsToDate pacific 1782891000 = ⟨2026, 7, 1, 0, 30, 0⟩
    ∧ dateToSeconds pacific (secondsToDate pacific 1782891000) = 1782891000 + 3600 := by decide

/-- **C149 fails**: in 2100 the date says the year 200, and the seconds are 1900 years off. -/
theorem C149_counterexample_2100 :
    (secondsToDate ⟨0, fun _ => false⟩ 4102444800).year = 200
    ∧ dateToSeconds ⟨0, fun _ => false⟩ (secondsToDate ⟨0, fun _ => false⟩ 4102444800) < 0 := by
  decide

/-- From 2040 on, the first hour of a day in daylight saving time is a century off. -/
theorem C149_counterexample_2040 :
    (secondsToDate ⟨0, fun _ => true⟩ (2224700000 - 2224700000 % 86400 - 3600)).year = 1940 := by
  decide

theorem C149_counterexample : ¬ C149_claim := by
  intro h
  have := (h pacific 1782891000 (by decide) (by decide) (by decide)).2
  revert this; decide

/-! ## C150 -/

/-- What rounding to the minute means: a whole minute, at most half a minute away, and a time in
the middle goes down. -/
def NearestMinute (z : Zone) (s r : Int) : Prop :=
  (r + z.std) % 60 = 0 ∧ s - 30 ≤ r ∧ r < s + 30

/-- **C150, as stated**: times of records are rounded to the nearest minute, and keep their
order. -/
def C150_claim : Prop :=
  ∀ (z : Zone), z.std % 60 = 0 →
    (∀ s, 0 ≤ s → 0 ≤ s + z.std → NearestMinute z s (roundDateSeconds z s))
    ∧ (∀ s t, 0 ≤ s → 0 ≤ s + z.std → s ≤ t → roundDateSeconds z s ≤ roundDateSeconds z t)

/-- The times that are rounded well: between 1970 and 2099, outside of the first hour of a day
in daylight saving time, and not in the last half minute of a year before 2020. -/
def Safe (z : Zone) (s : Int) : Prop :=
  0 ≤ s + z.std ∧ s + z.std + 30 < 4102444800
  ∧ (z.dst s = true → (localtime z s).hour ≠ 0)
  ∧ ((civil (s + z.std)).year < 2020 → (civil (s + z.std + 29)).year = (civil (s + z.std)).year)

theorem secs_next (d : Date) (h : Valid d)
    (hy : d.year > 2019 ∨ d.minute < 59 ∨ d.hour < 23 ∨ d.day < dim d.year d.month
      ∨ d.month < 12) :
    secs (nextMinute d) = secs d + 60 := by
  obtain ⟨h1, h2, h3, h4, h5⟩ := h
  unfold nextMinute
  split_ifs with c1 c2 c3 c4 c5
  · simp only [secs]; ring
  · simp only [secs]; have : d.minute = 59 := by omega
    rw [this]; ring
  · simp only [secs]; have : d.minute = 59 := by omega
    have : d.hour = 23 := by omega
    simp only [*]; ring
  · have a : d.minute = 59 := by omega
    have b : d.hour = 23 := by omega
    have c : d.day = dim d.year d.month := by omega
    simp only [secs, monthDay_succ d.year d.month h1.1 c4, a, b, c]; ring
  · have a : d.minute = 59 := by omega
    have b : d.hour = 23 := by omega
    have e : d.month = 12 := by omega
    have c : d.day = 31 := by
      have : d.day = dim d.year d.month := by omega
      rw [this, e]; rfl
    have hm : monthDay d.year 1 = 0 := by simp [monthDay]
    have hm1 : monthDay (d.year + 1) 1 = 0 := by simp [monthDay]
    have hm12 : monthDay d.year 12 = 334 + if leap d.year then 1 else 0 := by simp [monthDay]
    simp only [secs, a, b, c, e, hm1, hm12, yearDay_succ]
    split <;> ring
  · omega

theorem nextMinute_year_ge (d : Date) : d.year ≤ (nextMinute d).year := by
  unfold nextMinute; split_ifs <;> dsimp only <;> omega

theorem nextMinute_second (d : Date) : (nextMinute d).second = d.second := by
  unfold nextMinute; split_ifs <;> rfl

theorem secs_second (d : Date) : secs { d with second := 0 } = secs d - d.second := by
  simp only [secs]; ring

/-- Rounding of a safe time is rounding of the seconds since the start of the day. -/
theorem round_safe (z : Zone) (s : Int) (hz : z.std % 60 = 0) (h : Safe z s) :
    roundDateSeconds z s =
      s - s % 60 + if s % 60 > 30 then 60 else 0 := by
  obtain ⟨h0, h1, hd, hny⟩ := h
  have hy := year_bounds (x := s + z.std) (a := 1970) (b := 2100)
    (by norm_num [yearDay]; omega) (by norm_num [yearDay]; omega)
  have he := secondsToDate_eq z s (by omega) (by omega) hd
  have hv := civil_valid (s + z.std)
  have hs : (civil (s + z.std)).second = s % 60 := by
    show (s + z.std) % 86400 % 60 = s % 60
    omega
  unfold roundDateSeconds
  simp only [he, hs]
  by_cases hz0 : s % 60 = 0
  · simp [hz0]
  · simp only [hz0, if_false]
    by_cases h30 : s % 60 > 30
    · simp only [h30, if_true]
      have hsn := secs_next (civil (s + z.std)) hv (by
        by_contra hc
        simp only [not_or] at hc
        obtain ⟨c1, c2, c3, c4, c5⟩ := hc
        have hyr := hny (by omega)
        -- the last minute of the year: half a minute later another year has begun
        have e1 : (civil (s + z.std)).minute = 59 := by have := hv.minute; omega
        have e2 : (civil (s + z.std)).hour = 23 := by have := hv.hour; omega
        have e4 : (civil (s + z.std)).month = 12 := by have := hv.month; omega
        have e3 : (civil (s + z.std)).day = 31 := by
          have h3 : (civil (s + z.std)).day
              = dim (civil (s + z.std)).year (civil (s + z.std)).month := by
            have := hv.day; omega
          rw [h3, e4]; rfl
        have hsec := secs_civil (s + z.std)
        have hsec2 := yearOf_spec ((s + z.std + 29) / 86400)
        have hsec3 : yearOf ((s + z.std + 29) / 86400) = (civil (s + z.std)).year := hyr
        rw [hsec3] at hsec2
        simp only [secs, e1, e2, e3, e4, hs] at hsec
        have hm12 : monthDay (civil (s + z.std)).year 12
            = 334 + if leap (civil (s + z.std)).year then 1 else 0 := by simp [monthDay]
        rw [hm12] at hsec
        rw [yearDay_succ] at hsec2
        generalize yearDay (civil (s + z.std)).year = q at *
        have hlt := hsec2.2
        split_ifs at hsec hlt <;> omega)
      have hge := nextMinute_year_ge (civil (s + z.std))
      rw [dateToSeconds_eq z _ hz (by simpa using (by omega : 1940 ≤ (nextMinute (civil (s + z.std))).year)),
        secs_second, hsn, nextMinute_second, secs_civil, hs]
      omega
    · simp only [h30, if_false]
      rw [dateToSeconds_eq z _ hz (by simpa using (by omega : 1940 ≤ (civil (s + z.std)).year)),
        secs_second, secs_civil, hs]
      omega

/-- **C150 (partial)**: safe times are rounded to the nearest minute and keep their order. -/
theorem C150_partial (z : Zone) (hz : z.std % 60 = 0) :
    (∀ s, Safe z s → NearestMinute z s (roundDateSeconds z s))
    ∧ (∀ s t, Safe z s → Safe z t → s ≤ t → roundDateSeconds z s ≤ roundDateSeconds z t) := by
  constructor
  · intro s h
    rw [round_safe z s hz h]
    unfold NearestMinute
    split <;> omega
  · intro s t hs ht hst
    rw [round_safe z s hz hs, round_safe z t hz ht]
    split <;> split <;> omega

/-- Non-trivial case: 31 December 2025, 23:59:45 UTC is rounded to midnight of the new year. -/
example : Safe ⟨0, fun _ => false⟩ 1767225585
    ∧ roundDateSeconds ⟨0, fun _ => false⟩ 1767225585 = 1767225600 := by
  refine ⟨⟨by decide, by decide, by decide, by decide⟩, by decide⟩

/-- **C150 fails**: 31 December 2015, 23:59:45 is rounded to 1 January 2017: a year late. -/
theorem C150_counterexample_year :
    civil 1451606385 = ⟨2015, 12, 31, 23, 59, 45⟩
    ∧ civil (roundDateSeconds ⟨0, fun _ => false⟩ 1451606385) = ⟨2017, 1, 1, 0, 0, 0⟩ := by decide

/-- **C150 fails**: with daylight saving time, half a minute past midnight is an hour off. -/
theorem C150_counterexample_dst :
    roundDateSeconds pacific (1782889200 + 15) = 1782889200 + 3600 := by decide

/-- Records of a file in order come out of order: 31 December 2015, 23:59:45 and the next noon. -/
theorem C150_counterexample_order :
    ¬ roundDateSeconds ⟨0, fun _ => false⟩ 1451606385
      ≤ roundDateSeconds ⟨0, fun _ => false⟩ 1451649600 := by decide

theorem C150_counterexample : ¬ C150_claim := by
  intro h
  have := (h ⟨0, fun _ => false⟩ (by decide)).2 1451606385 1451649600 (by decide) (by decide)
    (by decide)
  exact C150_counterexample_order this

/-- Years of two digits are of this century up to 39 and of the last from 40 on. -/
theorem C149_two_digits (z : Zone) (y : Int) (hy : 0 ≤ y) (hy2 : y < 100) (m d : Int) :
    dateString2Secs z y m d = dateString2Secs z (if y < 40 then 2000 + y else 1900 + y) m d := by
  have e : ∀ a : Int, 100 ≤ a → (if a < 40 then a + 100 else a) = a := fun a h => if_neg (by omega)
  unfold dateString2Secs
  by_cases h : y < 40
  · have h1 : (if y + 100 < 200 then y + 100 else y + 100 - 1900) = y + 100 := if_pos (by omega)
    have h2 : (if 2000 + y < 200 then 2000 + y else 2000 + y - 1900) = y + 100 := by rw [if_neg (by omega)]; omega
    simp only [if_pos h, e (2000 + y) (by omega), h1, h2]
  · have h1 : (if y < 200 then y else y - 1900) = y := if_pos (by omega)
    have h2 : (if 1900 + y < 200 then 1900 + y else 1900 + y - 1900) = y := by rw [if_neg (by omega)]; omega
    simp only [if_neg h, e (1900 + y) (by omega), h1, h2]

end Verif.Dates
