import Verif.TSeries.StationModel
import Mathlib.Algebra.Order.Field.Rat
import Mathlib.Data.Rat.Floor
import Mathlib.Tactic.Linarith
import Mathlib.Tactic.Ring
import Mathlib.Tactic.NormNum
import Mathlib.Data.List.Forall2

/-!
# C253, C254: the station of a tide; files of buoys and weather stations
-/
namespace Verif.TSeries.Station

open Verif.Dates Verif.TSeries.TideFile

/-! ## C253: the station -/

/-- Degrees and minutes, with the sign of the degrees. -/
def angle (d m : ℚ) : ℚ := if d < 0 then d - m / 60 else d + m / 60

/-- C253: a header with degrees and minutes north and west, or with degrees north and east, gives that position, to a millionth of a degree. -/
def C253_claim : Prop :=
  ∀ (l : List ℚ) (lat lon : ℚ) (p : ℚ × ℚ),
    ((∃ a b c d, l = [a, b, c, d] ∧ 0 ≤ b ∧ b < 60 ∧ 0 ≤ d ∧ d < 60 ∧ lat = angle a b ∧ lon = -angle c d) ∨ l = [lat, lon]) →
    location (position (0, 0) (.ossm l)) = some p → |p.1 - lon| < 1 / 1000000 ∧ |p.2 - lat| < 1 / 1000000

theorem toLong_near (q : ℚ) : |(toLong q : ℚ) - q| < 1 := by
  unfold toLong
  split
  · have h1 := Int.floor_le q
    have h2 := Int.lt_floor_add_one q
    rw [abs_lt]
    constructor <;> linarith
  · have h1 := Int.floor_le (-q)
    have h2 := Int.lt_floor_add_one (-q)
    push_cast
    rw [abs_lt]
    constructor <;> linarith

theorem micro_near (q : ℚ) : |((toLong (q * 1000000) : Int) : ℚ) / 1000000 - q| < 1 / 1000000 := by
  have h := abs_lt.mp (toLong_near (q * 1000000))
  rw [abs_lt]
  constructor <;> linarith [h.1, h.2]

theorem loc_some (x y : Int) (p : ℚ × ℚ) (h : location (x, y) = some p) : p = ((y : ℚ) / 1000000, (x : ℚ) / 1000000) := by
  unfold location at h
  by_cases e : x = -999
  · rw [if_pos e] at h; cases h
  · rw [if_neg e] at h; exact (Option.some.inj h).symm

/-- C253, as far as it goes: degrees not below 0 in the form with minutes. Missing: degrees below 0, see `C253_south`. -/
theorem C253_partial (l : List ℚ) (lat lon : ℚ) (p : ℚ × ℚ)
    (h : (∃ a b c d, l = [a, b, c, d] ∧ 0 ≤ a ∧ 0 ≤ c ∧ lat = angle a b ∧ lon = -angle c d) ∨ l = [lat, lon])
    (hp : location (position (0, 0) (.ossm l)) = some p) : |p.1 - lon| < 1 / 1000000 ∧ |p.2 - lat| < 1 / 1000000 := by
  rcases h with ⟨a, b, c, d, rfl, ha, hc, rfl, rfl⟩ | rfl
  · obtain rfl := loc_some _ _ p hp
    have e1 : angle a b = a + b / 60 := by unfold angle; rw [if_neg (not_lt.mpr ha)]
    have e2 : angle c d = c + d / 60 := by unfold angle; rw [if_neg (not_lt.mpr hc)]
    rw [e1, e2]
    exact ⟨micro_near _, micro_near _⟩
  · obtain rfl := loc_some _ _ p hp
    exact ⟨micro_near _, micro_near _⟩

example : location (position (0, 0) (.ossm [48, 30, 123, 15])) = some (-493 / 4, 97 / 2) := by decide +kernel

/-- **C253, degrees below 0**: the minutes go the wrong way: the position is off by twice the minutes. -/
theorem C253_south (a b c d : ℚ) (ha : a < 0) (p : ℚ × ℚ) (hp : location (position (0, 0) (.ossm [a, b, c, d])) = some p) :
    |p.2 - (angle a b + b / 30)| < 1 / 1000000 := by
  obtain rfl := loc_some _ _ p hp
  have e1 : angle a b + b / 30 = a + b / 60 := by unfold angle; rw [if_pos ha]; ring
  rw [e1]
  exact micro_near _

/-- 10 degrees 30 minutes south is read as 9.5 degrees south. -/
theorem C253_counterexample : ¬ C253_claim := by
  intro h
  have := (h [-10, 30, 60, 0] (angle (-10) 30) (-angle 60 0) (-60, -19 / 2) (Or.inl ⟨_, _, _, _, rfl, by norm_num, by norm_num, by norm_num, by norm_num, rfl, rfl⟩)
    (by decide +kernel)).2
  unfold angle at this
  rw [abs_lt] at this
  norm_num at this

/-- **C253, other headers**: a line with one number, three, or none (as when a letter for the hemisphere follows the first number, or the line is the text
`Station Location`) is the position 0, 0; a letter after the minutes makes the minutes of latitude the longitude. -/
theorem C253_other (l : List ℚ) (h2 : l.length ≠ 2) (h4 : l.length ≠ 4) : location (position (0, 0) (.ossm l)) = some (0, 0) := by
  have e : ossmPos l = (0, 0) := by
    match l with
    | [] => rfl
    | [_] => rfl
    | [_, _] => exact absurd rfl h2
    | [_, _, _] => rfl
    | [_, _, _, _] => exact absurd rfl h4
    | _ :: _ :: _ :: _ :: _ :: _ => rfl
  have e' : position (0, 0) (.ossm l) = (0, 0) := e
  rw [e']
  decide +kernel

/-- **C253, no header**: files with the headers of winds, buoys and weather stations have no position. -/
theorem C253_none (junk : Micro) : location (position junk .none) = none := rfl

/-- **C253, rivers**: with four numbers or two, as in the headers of tides; a third number is dropped. -/
theorem C253_river (junk : Micro) (a b c d : ℚ) :
    position junk (.hydro [a, b, c, d]) = position junk (.ossm [a, b, c, d]) ∧ position junk (.hydro [a, b]) = position junk (.ossm [a, b]) ∧
    position junk (.hydro [a, b, c]) = position junk (.ossm [a, b]) := ⟨rfl, rfl, rfl⟩

/-! ## C254: buoys and weather stations -/

/-- The wind of a row of a buoy whose numbers are there: direction at most 360, speed not 99 (what stands for a missing value is 999 and 99). -/
def buoyWind (z : Zone) : Line → Option W
  | .row d (some a) (some b) =>
    if b = 99 ∨ 360 < a then none else some ⟨dateToSeconds z ⟨fixYear d.year, d.month, d.day, d.hour, d.minute, 0⟩, a, b⟩
  | _ => none

/-- The wind of a row of a weather station. -/
def stationWind (z : Zone) : NLine → Option W
  | .row d (.num (some a)) (.num (some b)) =>
    if b = 99 ∨ 360 < a then none else some ⟨dateToSeconds z ⟨fixYear d.year, d.month, d.day, d.hour, d.minute, 0⟩, a, b⟩
  | _ => none

/-- C254: the series has the winds of the rows that have one, each at its own time. -/
def C254_claim : Prop :=
  (∀ (z : Zone) (ls : List Line) (out : List W), ndbc z 2 ls none = some out → out = ls.filterMap (buoyWind z)) ∧
  (∀ (z : Zone) (ls : List NLine) (out : List W), ncdc z ls none = some out → out = ls.filterMap (stationWind z))

/-- A row as the code reads it. -/
def NdbcRow (z : Zone) (hdr : Nat) : Line → W → Prop
  | .row d a b, w => w = ⟨dateToSeconds z ⟨fixYear d.year, d.month, d.day, d.hour, if hdr = 1 then 0 else d.minute, 0⟩, a.getD 0, b.getD 0⟩ ∧
      1 ≤ d.day ∧ d.day ≤ 31 ∧ 1 ≤ d.month ∧ d.month ≤ 12
  | _, _ => False

/-- The lines that are not blank. -/
def data (ls : List Line) : List Line := ls.filter fun l => match l with | .blank => false | _ => true

theorem ndbc_iff (z : Zone) (hdr : Nat) (ls : List Line) (prev : Option Int) (out : List W) :
    ndbc z hdr ls prev = some out ↔ List.Forall₂ (NdbcRow z hdr) (data ls) out ∧ (prev.toList ++ out.map (·.time)).IsChain (· ≤ ·) := by
  induction ls generalizing prev out with
  | nil =>
    cases prev <;> cases out <;> simp [ndbc, data]
  | cons l r ih =>
    cases l with
    | blank => rw [ndbc, ih]; rfl
    | broken =>
      rw [ndbc]
      constructor
      · rintro ⟨⟩
      · rintro ⟨h, -⟩
        have : data (.broken :: r) = .broken :: data r := rfl
        rw [this] at h
        cases h with
        | cons h _ => exact h.elim
    | row d a b =>
      have hdat : data (.row d a b :: r) = .row d a b :: data r := rfl
      rw [hdat, ndbc]
      have hd : (if hdr = 1 then noMinutes d else { d with second := 0 }) = ⟨d.year, d.month, d.day, d.hour, if hdr = 1 then 0 else d.minute, 0⟩ := by
        split <;> rfl
      simp only [hd]
      generalize hw : dateToSeconds z ⟨fixYear d.year, d.month, d.day, d.hour, if hdr = 1 then 0 else d.minute, 0⟩ = t
      by_cases hok : dateOk ⟨d.year, d.month, d.day, d.hour, if hdr = 1 then 0 else d.minute, 0⟩ = true
      · rw [if_pos hok]
        have hok' : 1 ≤ d.day ∧ d.day ≤ 31 ∧ 1 ≤ d.month ∧ d.month ≤ 12 := by
          simpa [dateOk, and_assoc] using hok
        by_cases hp : prev.any (fun x => decide (t < x)) = true
        · rw [if_pos hp]
          constructor
          · rintro ⟨⟩
          · rintro ⟨h, hc⟩
            cases h with
            | cons h _ =>
              obtain ⟨rfl, -⟩ := h
              cases prev with
              | none => simp at hp
              | some x =>
                simp only [Option.any_some, decide_eq_true_eq] at hp
                simp only [Option.toList_some, List.map_cons, List.singleton_append, List.isChain_cons_cons, hw] at hc
                omega
        · rw [if_neg hp]
          rw [Option.map_eq_some_iff]
          constructor
          · rintro ⟨o, ho, rfl⟩
            obtain ⟨h1, h2⟩ := (ih _ _).mp ho
            refine ⟨List.Forall₂.cons ⟨by rw [hw], hok'⟩ h1, ?_⟩
            cases prev with
            | none => simpa using h2
            | some x =>
              simp only [Option.any_some, decide_eq_true_eq] at hp
              simp only [Option.toList_some, List.map_cons, List.singleton_append, List.isChain_cons_cons]
              exact ⟨by omega, by simpa using h2⟩
          · rintro ⟨h, hc⟩
            cases h with
            | cons h h' =>
              rename_i w o
              obtain ⟨rfl, -⟩ := h
              refine ⟨o, (ih _ _).mpr ⟨h', ?_⟩, by rw [hw]⟩
              cases prev with
              | none => simpa [hw] using hc
              | some x =>
                simp only [Option.toList_some, List.map_cons, List.singleton_append, List.isChain_cons_cons, hw] at hc
                simpa using hc.2
      · rw [if_neg hok]
        constructor
        · rintro ⟨⟩
        · rintro ⟨h, -⟩
          cases h with
          | cons h _ =>
            obtain ⟨-, h⟩ := h
            exact absurd (by simpa [dateOk, and_assoc] using h) hok

/-- **C254, buoys**: exactly what is read: each row that is not blank gives one wind, in order, at its time (without its minutes when the header has one line),
with 0 for what is not a number; 99 and 999 are taken as they are. Otherwise there is an error: a row that cannot be split, a date that is not one, or times going back. -/
theorem C254_buoys (z : Zone) (hdr : Nat) (ls : List Line) (out : List W) :
    ndbc z hdr ls none = some out ↔ List.Forall₂ (NdbcRow z hdr) (data ls) out ∧ (out.map (·.time)).IsChain (· ≤ ·) := by
  rw [ndbc_iff]; simp

/-- C254, buoys whose rows all have a wind, in files with minutes. Missing: missing values, files without minutes; see `C254_buoys`. -/
theorem C254_partial (z : Zone) (ls : List Line) (out : List W) (h : ndbc z 2 ls none = some out) (hw : ∀ l ∈ data ls, (buoyWind z l).isSome) :
    out = ls.filterMap (buoyWind z) := by
  obtain ⟨h1, -⟩ := (C254_buoys z 2 ls out).mp h
  have e : ls.filterMap (buoyWind z) = (data ls).filterMap (buoyWind z) := by
    unfold data
    rw [List.filterMap_filter]
    apply List.filterMap_congr
    intro l _
    cases l <;> simp [buoyWind]
  rw [e]
  clear h e
  generalize data ls = dl at h1 hw
  induction h1 with
  | nil => rfl
  | cons hr _ ih =>
    rename_i l w ls' out' _
    have hs := hw l (by simp)
    have hl : buoyWind z l = some w := by
      cases l with
      | blank => exact hr.elim
      | broken => exact hr.elim
      | row d a b =>
        obtain ⟨rfl, -⟩ := hr
        cases a with
        | none => simp [buoyWind] at hs
        | some a =>
          cases b with
          | none => simp [buoyWind] at hs
          | some b =>
            by_cases hc : b = 99 ∨ 360 < a
            · simp [buoyWind, hc] at hs
            · simp [buoyWind, hc]
    rw [List.filterMap_cons_some hl, ← ih (fun l hl => hw l (by simp [hl]))]

example : ∀ l ∈ data [.row ⟨2020, 1, 2, 3, 50, 0⟩ (some 270) (some 5)], (buoyWind ⟨0, fun _ => false⟩ l).isSome := by
  intro l hl
  simp only [data, List.filter_cons, List.filter_nil, if_true, List.mem_singleton] at hl
  subst hl
  simp [buoyWind]
  norm_num

/-- A missing wind of a buoy is read as one of 99 metres per second. -/
theorem C254_counterexample : ¬ C254_claim := by
  rintro ⟨h, -⟩
  have := h ⟨0, fun _ => false⟩ [.row ⟨2020, 1, 2, 3, 50, 0⟩ (some 999) (some 99)] _ rfl
  simp [buoyWind] at this

/-- The minutes of a weather station are dropped. -/
theorem C254_counterexample_minutes : ∃ ls, ncdc ⟨0, fun _ => false⟩ ls none ≠ some (ls.filterMap (stationWind ⟨0, fun _ => false⟩)) ∧
    (ncdc ⟨0, fun _ => false⟩ ls none).map (·.map (·.speed)) = some [5] := by
  refine ⟨[.row ⟨2020, 1, 2, 3, 53, 0⟩ (.num (some 270)) (.num (some 5))], ?_, ?_⟩
  · decide +kernel
  · decide +kernel

/-- The wind of a row of a weather station, at the begin of its hour. -/
def hourly (z : Zone) : NLine → Option W
  | .row d (.num a) (.num b) =>
    if b.getD 0 = 99 ∨ 360 < a.getD 0 then none else some ⟨dateToSeconds z ⟨fixYear d.year, d.month, d.day, d.hour, 0, 0⟩, a.getD 0, b.getD 0⟩
  | _ => none

theorem ncdc_out (z : Zone) (ls : List NLine) (prev : Option Int) (out : List W) (h : ncdc z ls prev = some out) :
    out = ls.filterMap (hourly z) ∧ (prev.toList ++ out.map (·.time)).IsChain (· ≤ ·) := by
  induction ls generalizing prev out with
  | nil =>
    simp only [ncdc, Option.some.injEq] at h
    subst h
    cases prev <;> simp
  | cons l r ih =>
    match l with
    | .blank => rw [ncdc] at h; rw [List.filterMap_cons_none (by rfl)]; exact ih _ _ h
    | .broken => simp [ncdc] at h
    | .row d .stars b => rw [ncdc] at h; rw [List.filterMap_cons_none (by rfl)]; exact ih _ _ h
    | .row d (.num a) .stars => rw [ncdc] at h; rw [List.filterMap_cons_none (by rfl)]; exact ih _ _ h
    | .row d (.num a) (.num b) =>
      rw [ncdc] at h
      split at h
      · split at h
        · rename_i hc
          rw [List.filterMap_cons_none (by simp only [hourly, if_pos hc])]
          exact ih _ _ h
        · rename_i hc
          simp only at h
          split at h
          · cases h
          · rename_i hp
            obtain ⟨o, ho, rfl⟩ := Option.map_eq_some_iff.mp h
            obtain ⟨i1, i2⟩ := ih _ _ ho
            rw [List.filterMap_cons_some (by simp only [hourly, if_neg hc]; rfl), ← i1]
            refine ⟨rfl, ?_⟩
            cases prev with
            | none => simpa using i2
            | some x =>
              simp only [Option.any_some, decide_eq_true_eq] at hp
              simp only [Option.toList_some, List.map_cons, List.singleton_append, List.isChain_cons_cons]
              exact ⟨by omega, by simpa using i2⟩
      · cases h

/-- **C254, weather stations**: when a series is read, it has the winds of the rows without stars, 99 and directions above 360, in order, each at the begin of the
hour of its row; times do not go back. -/
theorem C254_stations (z : Zone) (ls : List NLine) (out : List W) (h : ncdc z ls none = some out) :
    out = ls.filterMap (hourly z) ∧ (out.map (·.time)).IsChain (· ≤ ·) := by
  have := ncdc_out z ls none out h
  simpa using this

example : (ncdc ⟨0, fun _ => false⟩ [.row ⟨2020, 1, 2, 3, 53, 0⟩ (.num (some 270)) (.num (some 5)), .row ⟨2020, 1, 2, 4, 53, 0⟩ .stars .stars,
    .row ⟨2020, 1, 2, 5, 53, 0⟩ (.num (some 990)) (.num (some 3))] none).map List.length = some 1 := by decide +kernel

end Verif.TSeries.Station
