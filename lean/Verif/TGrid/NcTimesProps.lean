import Mathlib.Tactic.NormNum
import Mathlib.Tactic.Linarith
import Mathlib.Tactic.Ring
import Mathlib.Tactic.Positivity
import Verif.Dates.Props
import Verif.TSeries.TideFileProps
import Verif.TGrid.NcTimesModel

/-!
# The times of a netCDF file are the instants its units tell

The attribute `units` of the times is `<unit> since <year>-<month>-<day> <hour>:<minute>:<second>`, perhaps with a time zone after it.
-/
namespace Verif.TGrid.NcTimes

open Verif.Dates
open Verif.TSeries.TideFile (Str scanWord scanShort sameText isSpace Digits value Blank Word scanShort_digits scanWord_word digit_ne digit_not_space)

/-- Names of units of time in full. -/
inductive Full : String → ℚ → Prop
  | day : Full "DAY" 86400
  | days : Full "DAYS" 86400
  | hour : Full "HOUR" 3600
  | hours : Full "HOURS" 3600
  | minute : Full "MINUTE" 60
  | minutes : Full "MINUTES" 60
  | second : Full "SECOND" 1
  | seconds : Full "SECONDS" 1

/-- Names of units of time, in upper or lower case; udunits also knows `d`, `h`, `hr`, `min`, `sec`, `s`. -/
def Names (u : Str) (f : ℚ) : Prop :=
  (∃ s, Full s f ∧ u.map Char.toUpper = s.toList) ∨
  (u ∈ ["d".toList] ∧ f = 86400) ∨ (u ∈ ["h".toList, "hr".toList] ∧ f = 3600) ∨ (u ∈ ["min".toList] ∧ f = 60) ∨
  (u ∈ ["s".toList, "sec".toList] ∧ f = 1)

/-- The text of the units and the date that is in it. -/
def Text (units u : Str) (d : Date) (zone : Str) : Prop :=
  ∃ yy mm dd hh nn ss sep, Digits yy ∧ Digits mm ∧ Digits dd ∧ Digits hh ∧ Digits nn ∧ Digits ss ∧ (sep = ' ' ∨ sep = 'T') ∧
    d = ⟨value yy, value mm, value dd, value hh, value nn, value ss⟩ ∧
    units = u ++ (" since ".toList ++ (yy ++ ('-' :: (mm ++ ('-' :: (dd ++ (sep :: (hh ++ (':' :: (nn ++ (':' :: (ss ++ zone))))))))))))

/-- The instant of a record, in seconds that are zero at the beginning of 1970 by the clock of the computer at standard time. -/
def At (z : Zone) (d : Date) (f v : ℚ) (t : Int) : Prop := (t : ℚ) = secs d - z.std + v * f

/-- On a whole minute. -/
def Whole (z : Zone) (t : Int) : Prop := (t + z.std) % 60 = 0

/-- Every reader has the instants that the units tell, for records on whole minutes. -/
def C326_claim : Prop :=
  ∀ (r : Reader) (z : Zone) (junk : Int) (units u : Str) (d : Date) (f v : ℚ) (t : Int), z.std % 60 = 0 → Names u f → Valid d → Text units u d [] →
    At z d f v t → Whole z t → instant r z junk units v = some t

theorem clean_digits (ds : Str) (h : Digits ds) : clean ds = ds := by
  unfold clean
  conv_rhs => rw [← List.map_id ds]
  apply List.map_congr_left
  intro c hc
  have hd := h.2.1 c hc
  rw [if_neg]
  · rfl
  · simp [digit_ne c ':' hd (by decide), digit_ne c '-' hd (by decide), digit_ne c 'T' hd (by decide), digit_ne c 'Z' hd (by decide)]

theorem clean_append (a b : Str) : clean (a ++ b) = clean a ++ clean b := by simp [clean]

theorem clean_cons (c : Char) (b : Str) (h : c = ' ' ∨ c = ':' ∨ c = '-' ∨ c = 'T') : clean (c :: b) = ' ' :: clean b := by
  rcases h with rfl | rfl | rfl | rfl <;> rfl

theorem clean_zone (zone : Str) (hz : ∀ c r, zone = c :: r → c.isDigit = false) : ∀ c r, clean zone = c :: r → c.isDigit = false := by
  intro c r h
  rcases zone with _ | ⟨a, b⟩
  · cases h
  · simp only [clean, List.map_cons, List.cons.injEq] at h
    obtain ⟨rfl, -⟩ := h
    split
    · decide
    · exact hz a b rfl

theorem scan_next (n : Nat) (ds t : Str) (hd : Digits ds) (ht : ∀ c r, t = c :: r → c.isDigit = false) :
    scanInts (n + 1) (' ' :: (ds ++ t)) = (value ds : Int) :: scanInts n t := by
  have := scanShort_digits [' '] ds t (by intro c h; simp only [List.mem_singleton] at h; subst h; decide) hd ht
  simp only [List.cons_append, List.nil_append] at this
  simp only [scanInts, this]

theorem blank_next (b : Str) : ∀ c r, ' ' :: b = c :: r → c.isDigit = false := by
  intro c r h; cases h; decide

/-- What is read of the text: the unit, and the numbers of the date. Nothing that comes after the seconds matters. -/
theorem scan_text {units u : Str} {d : Date} {zone : Str} (hw : Word u) (hu : clean u = u) (hz : ∀ c r, zone = c :: r → c.isDigit = false)
    (h : Text units u d zone) (r : Reader) (z : Zone) (junk : Int) (v : ℚ) : instant r z junk units v = some (timeOf r z d (factor u) v) := by
  obtain ⟨yy, mm, dd, hh, nn, ss, sep, hy, hm, hd, hh', hn, hs, hsep, rfl, rfl⟩ := h
  have hc : clean (u ++ (" since ".toList ++ (yy ++ ('-' :: (mm ++ ('-' :: (dd ++ (sep :: (hh ++ (':' :: (nn ++ (':' :: (ss ++ zone))))))))))))) =
      u ++ (' ' :: ("since".toList ++ (' ' :: (yy ++ (' ' :: (mm ++ (' ' :: (dd ++ (' ' :: (hh ++ (' ' :: (nn ++ (' ' :: (ss ++ clean zone)))))))))))))) := by
    have e : clean " since ".toList = ' ' :: "since".toList ++ [' '] := by decide
    have h1 : sep = ' ' ∨ sep = ':' ∨ sep = '-' ∨ sep = 'T' := by rcases hsep with h | h <;> simp [h]
    simp only [clean_append, hu, clean_digits _ hy, clean_digits _ hm, clean_digits _ hd, clean_digits _ hh', clean_digits _ hn, clean_digits _ hs, e,
      clean_cons '-' _ (by simp), clean_cons ':' _ (by simp), clean_cons sep _ h1, List.cons_append, List.append_assoc, List.nil_append]
  have w1 := scanWord_word [] u (' ' :: ("since".toList ++ (' ' :: (yy ++ (' ' :: (mm ++ (' ' :: (dd ++ (' ' :: (hh ++ (' ' :: (nn ++ (' ' :: (ss ++ clean zone))))))))))))))
    (by intro c h; cases h) hw (by intro c r h; cases h; decide)
  have w2 := scanWord_word [' '] "since".toList (' ' :: (yy ++ (' ' :: (mm ++ (' ' :: (dd ++ (' ' :: (hh ++ (' ' :: (nn ++ (' ' :: (ss ++ clean zone))))))))))))
    (by intro c h; simp only [List.mem_singleton] at h; subst h; decide) ⟨by decide, by decide⟩ (by intro c r h; cases h; decide)
  simp only [List.nil_append] at w1
  simp only [List.cons_append, List.nil_append] at w2
  simp only [instant, hc, w1]
  simp only [w2]
  rw [scan_next _ _ _ hy (blank_next _), scan_next _ _ _ hm (blank_next _), scan_next _ _ _ hd (blank_next _), scan_next _ _ _ hh' (blank_next _),
    scan_next _ _ _ hn (blank_next _), scan_next _ _ _ hs (clean_zone _ hz)]
  rfl

/-- A name in full without a capital T is a word that stays as it is, and has its factor. -/
theorem full_name {u : Str} {s : String} {f : ℚ} (h : Full s f) (hu : u.map Char.toUpper = s.toList) (hT : 'T' ∉ u) :
    Word u ∧ clean u = u ∧ factor u = f := by
  have hn : ∀ c ∈ u, c.toUpper ∈ s.toList := by
    intro c hc; rw [← hu]; exact List.mem_map_of_mem hc
  have ha : ∀ c : Char, c.toUpper ∈ s.toList → c ≠ ' ' ∧ c ≠ '\t' ∧ c ≠ '\n' ∧ c ≠ '\x0b' ∧ c ≠ '\x0c' ∧ c ≠ '\r' ∧ c ≠ ',' ∧ c ≠ ':' ∧ c ≠ '-' ∧ c ≠ 'Z' := by
    intro c hc
    refine ⟨?_, ?_, ?_, ?_, ?_, ?_, ?_, ?_, ?_, ?_⟩ <;> rintro rfl <;> revert hc <;> cases h <;> decide
  refine ⟨⟨?_, ?_⟩, ?_, ?_⟩
  · rintro rfl; cases h <;> revert hu <;> decide
  · intro c hc
    obtain ⟨h1, h2, h3, h4, h5, h6, h7, -, -, -⟩ := ha c (hn c hc)
    exact ⟨by simp [isSpace, h1, h2, h3, h4, h5, h6], h7⟩
  · unfold clean
    conv_rhs => rw [← List.map_id u]
    apply List.map_congr_left
    intro c hc
    obtain ⟨-, -, -, -, -, -, -, h8, h9, h10⟩ := ha c (hn c hc)
    have h11 : c ≠ 'T' := fun e => hT (e ▸ hc)
    simp [h8, h9, h10, h11]
  · cases h <;> simp only [factor, sameText, hu] <;> decide +kernel

theorem roundAway_int (n : Int) : roundAway n = n := by
  unfold roundAway
  split
  · rw [Int.floor_eq_iff]; constructor <;> linarith
  · rw [Int.ceil_eq_iff]; constructor <;> linarith

theorem trunc_int (n : Int) : trunc n = n := by
  unfold trunc
  split <;> simp

/-- A `float` holds whole numbers of up to 24 binary digits. -/
theorem single_int (n : Int) (h : |n| < 2 ^ 24) : single n = n := by
  unfold single
  split
  · next h0 => rw [h0]
  · next h0 =>
    have hpos : (0 : ℚ) < |(n : ℚ)| := abs_pos.2 h0
    have hl : Int.log 2 |(n : ℚ)| ≤ 23 := by
      by_contra hc
      have h1 : ((2 : ℕ) : ℚ) ^ (24 : ℤ) ≤ |(n : ℚ)| :=
        le_trans (zpow_le_zpow_right₀ (by norm_num) (by omega)) (Int.zpow_log_le_self (by norm_num) hpos)
      have h2 : |(n : ℚ)| < 2 ^ 24 := by exact_mod_cast h
      norm_num at h1 h2
      linarith
    obtain ⟨k, hk⟩ : ∃ k : ℕ, Int.log 2 |(n : ℚ)| - 23 = -(k : ℤ) := ⟨(23 - Int.log 2 |(n : ℚ)|).toNat, by omega⟩
    rw [hk, zpow_neg, zpow_natCast, div_inv_eq_mul]
    have e : ((n : ℚ) * 2 ^ k) = ((n * 2 ^ k : Int) : ℚ) := by push_cast; ring
    have hf : ⌊(n : ℚ) * 2 ^ k + 1 / 2⌋ = n * 2 ^ k := by
      rw [e, Int.floor_eq_iff]; constructor <;> linarith
    rw [hf]
    push_cast
    field_simp

theorem seconds_eq (z : Zone) (d : Date) (hz : z.std % 60 = 0) (h1 : 200 ≤ d.year) : dateToSeconds z d = secs d - z.std := by
  unfold dateToSeconds dateString2Secs
  have hy : ¬ d.year < 40 := by omega
  have hy' : ¬ d.year < 200 := by omega
  simp only [hy, hy', if_false, Int.sub_add_cancel]
  have : ¬ (secs ⟨d.year, d.month, d.day, 0, 0, 0⟩ - z.std = -1) := by
    simp only [secs]; omega
  simp only [this, if_false]
  simp only [secs]; ring

theorem round_whole (z : Zone) (t : Int) (h : Whole z t) : roundDateSeconds z t = t := by
  have hs : (secondsToDate z t).second = 0 := by
    unfold Whole at h
    simp only [secondsToDate, localtime, civil]
    split
    · split <;> simp only <;> omega
    · simp only; omega
  unfold roundDateSeconds
  simp only [hs, if_true]

theorem plain_eq (z : Zone) (d : Date) (f v : ℚ) (t : Int) (hz : z.std % 60 = 0) (hy : 200 ≤ d.year) (ha : At z d f v t) (hw : Whole z t) :
    plain z d f v = t := by
  unfold plain
  rw [seconds_eq z d hz hy]
  unfold At at ha
  push_cast
  rw [← ha, roundAway_int, round_whole z t hw]

/-- What a reader can do: dates from the year 200 on; in the year 1900 of curvilinear grids, January and February; in a file of triangles, values that a `float` holds. -/
def Able (r : Reader) (d : Date) (v : ℚ) : Prop :=
  200 ≤ d.year ∧ (r = .curv ∨ r = .windCurv → d.year = 1900 → d.month ≤ 2) ∧ (r = .tri → single v = v)

theorem shifted (d : Date) (h : d.year = 1900) (hm : d.month ≤ 2) : secs { d with year := 1940, day := d.day + 1 } = secs d + 1262304000 := by
  obtain ⟨y, m, dd, hh, mi, ss⟩ := d
  simp only at h hm
  subst h
  have e1 : yearDay 1940 = yearDay 1900 + 14609 := by decide
  have e2 : monthDay 1940 m = monthDay 1900 m := by
    unfold monthDay
    by_cases h1 : m ≤ 1
    · simp [h1]
    · have : m = 2 := by omega
      simp [this]
  simp only [secs, e1, e2]
  ring

/-- **C326 (partial)**: with the name of the unit in full and no capital T in it, whatever the time zone that follows (it is not looked at). Dates before 200, the year 1900 from
March on in curvilinear grids and values that are no `float` in triangular grids are left out, see the counterexamples. -/
theorem C326_partial (r : Reader) (z : Zone) (junk : Int) (units u : Str) (s : String) (d : Date) (f v : ℚ) (t : Int) (hz : z.std % 60 = 0)
    (hf : Full s f) (hu : u.map Char.toUpper = s.toList) (hT : 'T' ∉ u) (h : Text units u d []) (ha : At z d f v t) (hw : Whole z t) (hr : Able r d v) :
    instant r z junk units v = some t := by
  obtain ⟨w1, w2, w3⟩ := full_name hf hu hT
  rw [scan_text w1 w2 (by intro c r h; cases h) h, w3]
  obtain ⟨h1, h2, h3⟩ := hr
  have hp := plain_eq z d f v t hz h1 ha hw
  have hs : d.year = 1900 → d.month ≤ 2 → plain z { d with year := 1940, day := d.day + 1 } f v - 1262304000 = t := by
    intro hy hm
    rw [plain_eq z { d with year := 1940, day := d.day + 1 } f v (t + 1262304000) hz (by simp)]
    · omega
    · unfold At at ha ⊢
      rw [shifted d hy hm]; push_cast; rw [ha]; ring
    · unfold Whole at hw ⊢; omega
  cases r with
  | rect =>
    have : d.year ≠ 1 := by omega
    simp only [timeOf, this, if_false, hp]
  | curv =>
    simp only [timeOf]
    split
    · next hy => rw [hs hy (h2 (by simp) hy)]
    · rw [hp]
  | windCurv =>
    simp only [timeOf]
    split
    · next hy => rw [hs hy (h2 (by simp) hy)]
    · rw [hp]
  | tri => simp only [timeOf, h3 rfl, hp]
  | windRect =>
    simp only [timeOf]
    rw [seconds_eq z d hz h1]
    unfold At at ha
    have e : v * f = ((t - (secs d - z.std) : Int) : ℚ) := by push_cast; linarith
    rw [e, trunc_int]
    congr 1; omega
  | scan => simp only [timeOf, hp]

/-- UTC. -/
def utc : Zone := ⟨0, fun _ => false⟩

/-- Non-trivial case: 6.5 hours since 2026-11-15T12:00:00, in a file of triangles. -/
theorem case_text : Text "hours since 2026-11-15T12:00:00".toList "hours".toList ⟨2026, 11, 15, 12, 0, 0⟩ [] :=
  ⟨"2026".toList, "11".toList, "15".toList, "12".toList, "00".toList, "00".toList, 'T', ⟨by decide, by decide, by decide⟩, ⟨by decide, by decide, by decide⟩,
    ⟨by decide, by decide, by decide⟩, ⟨by decide, by decide, by decide⟩, ⟨by decide, by decide, by decide⟩, ⟨by decide, by decide, by decide⟩, Or.inr rfl,
    by decide, by decide⟩

example : instant .rect utc 0 "hours since 2026-11-15T12:00:00".toList (13 / 2) = some 1794767400 :=
  C326_partial .rect utc 0 _ "hours".toList "HOURS" ⟨2026, 11, 15, 12, 0, 0⟩ 3600 (13 / 2) 1794767400 (by decide) .hours (by decide) (by decide) case_text
    (show ((1794767400 : Int) : ℚ) = (secs ⟨2026, 11, 15, 12, 0, 0⟩ : Int) - (0 : Int) + 13 / 2 * 3600 by
      rw [show secs ⟨2026, 11, 15, 12, 0, 0⟩ = 1794744000 by decide]; norm_num)
    (show (1794767400 + 0 : Int) % 60 = 0 by decide) ⟨by decide, by simp, by simp⟩

/-- The zone after the seconds is not looked at: with it, the same instant. -/
theorem C326_zone (r : Reader) (z : Zone) (junk : Int) (units units' u zone : Str) (s : String) (d : Date) (f v : ℚ) (hf : Full s f)
    (hu : u.map Char.toUpper = s.toList) (hT : 'T' ∉ u) (h : Text units u d []) (h' : Text units' u d zone) (hz : ∀ c r, zone = c :: r → c.isDigit = false) :
    instant r z junk units' v = instant r z junk units v := by
  obtain ⟨w1, w2, _⟩ := full_name hf hu hT
  rw [scan_text w1 w2 hz h', scan_text w1 w2 (by intro c r h; cases h) h]

/-- A value in a file of triangles is one that a `float` holds if it is whole and below 2^24. -/
theorem C326_float (n : Int) (h : |n| < 2 ^ 24) (d : Date) (hd : 200 ≤ d.year) : Able .tri d n :=
  ⟨hd, by simp, fun _ => single_int n h⟩

/-- **C326 fails**: "h" is taken as seconds. -/
theorem C326_counterexample : ¬ C326_claim := by
  intro h
  have := h .rect utc 0 "h since 2026-11-15T12:00:00".toList "h".toList ⟨2026, 11, 15, 12, 0, 0⟩ 3600 6 1794765600 (by decide)
    (.inr (.inr (.inl ⟨by decide, rfl⟩))) ⟨by decide, by decide, by decide, by decide, by decide⟩
    ⟨"2026".toList, "11".toList, "15".toList, "12".toList, "00".toList, "00".toList, 'T', ⟨by decide, by decide, by decide⟩, ⟨by decide, by decide, by decide⟩,
    ⟨by decide, by decide, by decide⟩, ⟨by decide, by decide, by decide⟩, ⟨by decide, by decide, by decide⟩, ⟨by decide, by decide, by decide⟩, Or.inr rfl,
    by decide, by decide⟩
    (show ((1794765600 : Int) : ℚ) = (secs ⟨2026, 11, 15, 12, 0, 0⟩ : Int) - (0 : Int) + 6 * 3600 by
      rw [show secs ⟨2026, 11, 15, 12, 0, 0⟩ = 1794744000 by decide]; norm_num)
    (show (1794765600 + 0 : Int) % 60 = 0 by decide)
  revert this
  decide +kernel

/-- "MINUTES" is not read at all: its T is taken out. -/
theorem C326_capital : instant .rect utc 0 "MINUTES since 2026-11-15 12:00:00".toList 60 = none ∧
    instant .rect utc 0 "minutes since 2026-11-15 12:00:00".toList 60 = some 1794747600 := by decide +kernel

/-- Nor is a date with only the hour after it. -/
theorem C326_hour : instant .rect utc 0 "hours since 2026-11-15 00".toList 6 = none := by decide +kernel

/-- In 1900, from March on, a curvilinear grid is a day late. -/
theorem C326_year1900 : instant .curv utc 0 "days since 1900-03-01 00:00:00".toList 46280 = some (1794700800 + 86400) ∧
    instant .rect utc 0 "days since 1900-03-01 00:00:00".toList 46280 = some 1794700800 := by decide +kernel

/-- Seconds since 1970 in a file of triangles: 48 seconds late, and then rounded to a whole minute late. -/
theorem C326_single : instant .tri utc 0 "seconds since 1970-01-01 00:00:00".toList 1794747600 = some (1794747600 + 60) := by decide +kernel

/-! ## Reported times -/

/-- The first and last instants of the data: of the list of files if there is one, otherwise of the records. -/
def Data (g : Grid) (first last : Int) : Prop :=
  (1 < g.files.length ∧ (∃ e, g.files.head? = some (first, e)) ∧ ∃ s, g.files.getLast? = some (s, last)) ∨
  (g.files.length ≤ 1 ∧ g.times.head? = some first ∧ g.times.getLast? = some last ∧ (g.inFile = none ∨ g.inFile = some (first, last)))

/-- `data_start` and `data_stop` are the first and last instants at which the mover has data, moved by `time_offset` as its data are. -/
def C327_claim : Prop := ∀ (g : Grid) (first last : Int), Data g first last → dataStart g = first + g.shift ∧ dataStop g = last + g.shift

/-- **C327 (partial)**: for a list of files, or a file that is not netCDF, or no offset. -/
theorem C327_partial (g : Grid) (first last : Int) (h : Data g first last) (ho : 1 < g.files.length ∨ g.inFile = none ∨ g.shift = 0) :
    dataStart g = first + g.shift ∧ dataStop g = last + g.shift := by
  obtain ⟨files, inFile, times, shift⟩ := g
  simp only [Data] at h
  simp only at ho
  rcases h with ⟨h1, ⟨e, h2⟩, s, h3⟩ | ⟨h1, h2, h3, h4⟩
  · simp only [dataStart, dataStop, h1, if_true, List.headD_eq_head?_getD, List.getLastD_eq_getLast?, h2, h3, Option.getD_some, and_self]
  · have hl : 0 < times.length := by
      rcases times with _ | ⟨a, b⟩
      · cases h2
      · simp
    have hn : ¬ 1 < files.length := by omega
    simp only [dataStart, dataStop, hn, hl, if_true, if_false, List.headD_eq_head?_getD, List.getLastD_eq_getLast?, h2, h3, Option.getD_some]
    rcases h4 with rfl | rfl
    · simp
    · rcases ho with h | h | h
      · exact absurd h hn
      · cases h
      · simp [h]

/-- With one netCDF file the offset is left out of both. -/
theorem C327_offset (g : Grid) (first last : Int) (h1 : g.files.length ≤ 1) (h2 : g.inFile = some (first, last)) (h3 : g.times ≠ []) :
    dataStart g = first ∧ dataStop g = last := by
  obtain ⟨files, inFile, times, shift⟩ := g
  simp only at h1 h2 h3
  have hl : 0 < times.length := List.length_pos_of_ne_nil h3
  have hn : ¬ 1 < files.length := by omega
  simp only [dataStart, dataStop, hn, hl, if_true, if_false, h2, and_self]

/-- Non-trivial case: two files, an offset of an hour. -/
example : Data ⟨[(0, 3600), (7200, 10800)], some (0, 3600), [0, 3600], 3600⟩ 0 10800 ∧ dataStop ⟨[(0, 3600), (7200, 10800)], some (0, 3600), [0, 3600], 3600⟩ = 14400 :=
  ⟨.inl ⟨by decide, ⟨3600, rfl⟩, 7200, rfl⟩, rfl⟩

/-- **C327 fails**: one netCDF file from 0 to 7200 with an offset of an hour. -/
theorem C327_counterexample : ¬ C327_claim := by
  intro h
  have := (h ⟨[], some (0, 7200), [0, 3600, 7200], 3600⟩ 0 7200 (.inr ⟨by decide, rfl, rfl, .inr rfl⟩)).1
  revert this
  decide

end Verif.TGrid.NcTimes
