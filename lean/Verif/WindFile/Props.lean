import Verif.WindFile.Model

/-!
# C78: a wind file means what it says

A file with a header of three, four or five lines, in whatever way it was loaded, gives the
place, the units, the time zone and every row that are in it.
-/

namespace Verif.WindFile

/-- A header: what comes between the units and the data. -/
inductive Zone where
  /-- nothing -/
  | none
  /-- a line with the time zone -/
  | line (offset : ℚ) (title : Line)
  /-- a line with the time zone and one more -/
  | lines (offset : ℚ) (title : Line) (extra : Line)

/-- The lines of it. -/
def Zone.lines' : Zone → List Line
  | .none => []
  | .line o t => [.num o :: t]
  | .lines o t x => [.num o :: t, x]

/-- The offset it states. -/
def Zone.offset : Zone → Option ℚ
  | .none => Option.none
  | .line o _ => some o
  | .lines o _ _ => some o

/-- A line with more or fewer than seven fields. -/
def NotSeven (l : Line) : Prop := l.length ≠ 7

/-- What may stand between the header lines: lines that do not look like data. -/
def Zone.ok : Zone → Prop
  | .none => True
  | .line o t => NotSeven (.num o :: t)
  | .lines o t x => NotSeven (.num o :: t) ∧ NotSeven x

/-- The points of the compass, clockwise from north. -/
def points : List String :=
  ["N", "NNE", "NE", "ENE", "E", "ESE", "SE", "SSE", "S", "SSW", "SW", "WSW", "W", "WNW", "NW", "NNW"]

/-- Each point stands for its direction in degrees, and nothing else is a point. -/
theorem C78_points :
    points.map cardinal = (List.range 16).map (fun (k : Nat) => some ((k : ℚ) * 360 / 16)) ∧
    ∀ s, (cardinal s).isSome → s ∈ points := by
  refine ⟨by decide +kernel, ?_⟩
  intro s h
  unfold cardinal at h
  split at h <;> first | (simp [points]; done) | (simp at h)

/-- Days before the first of January of a year, counted from the year 1. -/
def daysBefore (y : Int) : Int := 365 * (y - 1) + (y - 1) / 4 - (y - 1) / 100 + (y - 1) / 400

/-- The months make up the years of the Gregorian calendar. -/
theorem C78_calendar (y : Int) :
    daysIn y 1 + daysIn y 2 + daysIn y 3 + daysIn y 4 + daysIn y 5 + daysIn y 6 + daysIn y 7 +
      daysIn y 8 + daysIn y 9 + daysIn y 10 + daysIn y 11 + daysIn y 12 =
      daysBefore (y + 1) - daysBefore y ∧
    ∀ m, m ≠ 2 → daysIn y m = if m = 4 ∨ m = 6 ∨ m = 9 ∨ m = 11 then 30 else 31 := by
  constructor
  · simp [daysIn, daysBefore]
    split <;> omega
  · intro m hm
    unfold daysIn
    rw [if_neg hm]

/-- How a row may be written: with a full or a two digit year, the direction as a number or
by name. -/
inductive Writes : Datum → Line → Prop where
  | full (d : Datum) (hy : 100 ≤ d.time.year) :
      Writes d [.int d.time.day, .int d.time.month, .int d.time.year, .int d.time.hour,
        .int d.time.minute, .num d.speed, .num d.dir]
  | named (d : Datum) (k : Nat) (s : String) (hy : 100 ≤ d.time.year) (hs : points[k]? = some s)
      (hk : d.dir = (k : ℚ) * 360 / 16) :
      Writes d [.int d.time.day, .int d.time.month, .int d.time.year, .int d.time.hour,
        .int d.time.minute, .num d.speed, .word s]
  | short (d : Datum) (hy : 1970 ≤ d.time.year ∧ d.time.year < 2070) :
      Writes d [.int d.time.day, .int d.time.month, .int (d.time.year % 100), .int d.time.hour,
        .int d.time.minute, .num d.speed, .num d.dir]

/-- The lines of data: the rows in order, blank lines anywhere after the first. -/
inductive Body : List Datum → List Line → Prop where
  | nil : Body [] []
  | row {d l ds ls} : d.time.valid = true → Writes d l → Body ds ls → Body (d :: ds) (l :: ls)
  | blank {ds ls} : Body ds ls → Body ds (blank :: ls)

theorem readData_writes {d : Datum} {l : Line} (hv : d.time.valid = true) (h : Writes d l) :
    readData l = .row d := by
  cases h with
  | full hy =>
    have hfix : fixYear d.time.year = d.time.year := by unfold fixYear; rw [if_neg (by omega)]
    simp only [readData, Tok.toInt?, Tok.toNum?, direction, hfix]
    rw [if_pos hv]
  | named k s hy hp hk =>
    have hs : cardinal s = some d.dir := by
      have h1 := congrArg (fun l => l[k]?) C78_points.1
      have hlt : k < 16 := by
        by_contra hge
        rw [List.getElem?_eq_none (by simp [points]; omega)] at hp
        cases hp
      simp only [List.getElem?_map, hp, List.getElem?_range hlt, Option.map_some,
        Option.some.injEq] at h1
      rw [h1, hk]
    have hfix : fixYear d.time.year = d.time.year := by unfold fixYear; rw [if_neg (by omega)]
    simp only [readData, Tok.toInt?, Tok.toNum?, direction, hfix, hs]
    rw [if_pos hv]
  | short hy =>
    have hfix : fixYear (d.time.year % 100) = d.time.year := by
      unfold fixYear
      split
      · split <;> omega
      · omega
    simp only [readData, Tok.toInt?, Tok.toNum?, direction, hfix]
    rw [if_pos hv]

theorem readData_notSeven {l : Line} (h : NotSeven l) : readData l = .no := by
  unfold readData
  split
  · exact absurd rfl h
  · rfl

theorem writes_ne_blank {d : Datum} {l : Line} (h : Writes d l) : l ≠ blank := by
  cases h <;> simp [blank]

theorem readRows_body {ds : List Datum} {ls : List Line} (h : Body ds ls) :
    readRows ls = some ds := by
  induction h with
  | nil => rfl
  | row hv hw _ ih =>
    rw [readRows, if_neg (writes_ne_blank hw), readData_writes hv hw]
    simp [ih]
  | blank _ ih => rw [readRows, if_pos rfl]; exact ih

/-- What a file says: latitude and longitude in that order on the second line. -/
structure Meaning where
  name : Line
  lat : ℚ
  lon : ℚ
  units : String
  zone : Zone
  rows : List Datum

/-- The lines of a file that says it. -/
def Says (m : Meaning) (ls : List Line) : Prop :=
  ∃ d ds first rest, m.rows = d :: ds ∧ d.time.valid = true ∧ Writes d first ∧ Body ds rest ∧
    ls = m.name :: [.num m.lat, .num m.lon] :: [.word m.units] :: (m.zone.lines' ++ first :: rest)

/-- The file is read as what it says, with any of the three headers. -/
theorem C78_read (m : Meaning) (ls : List Line) (h : Says m ls) (hn : m.name ≠ blank)
    (hu : m.units ≠ "") (hum : m.units.toLower ≠ "mps") (hz : m.zone.ok) :
    fromFile ls = some ⟨some m.lon, some m.lat, [.word m.units], m.zone.offset, m.rows⟩ := by
  obtain ⟨d, ds, first, rest, hr, hv, hw, hb, rfl⟩ := h
  have h1 := readData_writes hv hw
  have h2 := readRows_body hb
  have hub : ([.word m.units] : Line) ≠ blank := by simp [blank, hu]
  have hru : readUnits [.word m.units] = [.word m.units] := by
    unfold readUnits; simp [hum]
  unfold fromFile readFile
  cases hzone : m.zone with
  | none =>
    simp [Zone.lines', readline, hn, hub, h1, h2, readCoords, Tok.toNum?, hru, Zone.offset, hr]
  | line o t =>
    rw [hzone] at hz
    have h4 := readData_notSeven hz
    simp [Zone.lines', readline, hn, hub, h1, h2, h4, readCoords, Tok.toNum?, hru, Zone.offset, hr,
      readZone]
  | lines o t x =>
    rw [hzone] at hz
    have h4 := readData_notSeven hz.1
    have h5 := readData_notSeven hz.2
    simp [Zone.lines', readline, hn, hub, h1, h2, h4, h5, readCoords, Tok.toNum?, hru, Zone.offset,
      hr, readZone]

example : fromFile [[.word "buoy"], [.num 45, .num (-70)], [.word "knots"], [.num (-5), .word "EST"],
    [.int 1, .int 2, .int 99, .int 3, .int 30, .num 10, .word "NE"], blank,
    [.int 1, .int 2, .int 1999, .int 4, .int 30, .num 12, .num 90]] =
    some ⟨some (-70), some 45, [.word "knots"], some (-5),
      [⟨⟨1999, 2, 1, 3, 30⟩, 10, 45⟩, ⟨⟨1999, 2, 1, 4, 30⟩, 12, 90⟩]⟩ := by decide +kernel

/-- Full C78: the two ways of loading agree. -/
def C78_claim : Prop := ∀ ls, fromConstructor ls = fromFile ls

/-- They do not: the constructor exchanges latitude and longitude. -/
theorem C78_counterexample : ¬ C78_claim := by
  intro h
  have := h [[.word "buoy"], [.num 45, .num (-70)], [.word "knots"],
    [.int 1, .int 2, .int 1999, .int 3, .int 30, .num 10, .num 45]]
  revert this
  decide +kernel

/-- They agree on everything else, including on which files they refuse. -/
theorem C78_loaders_partial (ls : List Line) :
    (fromConstructor ls = none ↔ fromFile ls = none) ∧
    ∀ a b, fromConstructor ls = some a → fromFile ls = some b →
      a.units = b.units ∧ a.tz = b.tz ∧ a.rows = b.rows ∧
      (b.longitude = none → a = b) ∧ a.longitude = b.latitude ∧ a.latitude = b.longitude := by
  unfold fromConstructor fromFile
  constructor
  · simp
  · intro a b ha hb
    cases hc : readFile ls with
    | none => rw [hc] at ha; cases ha
    | some c =>
      rw [hc] at ha hb
      simp only [Option.map_some, Option.some.injEq] at ha hb
      subst hb
      cases hco : c.coords with
      | none =>
        simp only [hco] at ha
        subst ha
        simp
      | some xy =>
        simp only [hco] at ha
        subst ha
        simp

/-- A row with a mistake is refused, wherever it stands. -/
def C78_refused_claim : Prop :=
  ∀ (m : Meaning) (ls : List Line) (bad : Line) (k : Nat), Says m ls → m.zone.ok → bad ≠ blank →
    bad.length = 7 → (∀ d, readData bad ≠ .row d) → 3 + m.zone.lines'.length ≤ k → k ≤ ls.length →
    fromFile (ls.take k ++ bad :: ls.drop k) = none

/-- It is not: as the first row it is taken for the time zone, so that the day of the month becomes
the offset and the row is lost. -/
theorem C78_counterexample_lost : ¬ C78_refused_claim := by
  intro h
  have := h ⟨[.word "buoy"], 45, -70, "knots", .none, [⟨⟨1999, 2, 8, 3, 30⟩, 10, 45⟩]⟩
    ([.word "buoy"] :: [.num 45, .num (-70)] :: [.word "knots"] ::
      ([] ++ [.int 8, .int 2, .int 1999, .int 3, .int 30, .num 10, .num 45] :: []))
    [.int 7, .int 2, .int 1999, .int 3, .int 30, .word "x", .num 45] 3
    ⟨_, _, _, _, rfl, by decide +kernel, Writes.full _ (by decide), Body.nil, rfl⟩
    trivial (by decide) rfl (by
      have : readData [.int 7, .int 2, .int 1999, .int 3, .int 30, .word "x", .num 45] = .no := by
        decide +kernel
      intro d hd
      rw [this] at hd
      cases hd) (by decide) (by decide)
  revert this
  decide +kernel

/-- After the first row it is refused. -/
theorem C78_refused_partial (m : Meaning) (ls : List Line) (bad : Line) (k : Nat) (h : Says m ls)
    (hz : m.zone.ok) (hb : bad ≠ blank) (hbad : ∀ d, readData bad ≠ .row d)
    (hk : 4 + m.zone.lines'.length ≤ k) (hk' : k ≤ ls.length) :
    fromFile (ls.take k ++ bad :: ls.drop k) = none := by
  obtain ⟨d, ds, first, rest, hr, hv, hw, hbo, rfl⟩ := h
  have h1 := readData_writes hv hw
  have key : ∀ a b : List Line, readRows (a ++ bad :: b) = none := by
    intro a b
    induction a with
    | nil =>
      rw [List.nil_append, readRows, if_neg hb]
      cases hx : readData bad with
      | row d => exact absurd hx (hbad d)
      | no => rfl
      | bad => rfl
    | cons l a ih =>
      rw [List.cons_append, readRows, ih]
      split
      · rfl
      · split <;> rfl
  have hcut : ∀ j (hj : 4 + m.zone.lines'.length + j = k),
      (m.name :: [.num m.lat, .num m.lon] :: [.word m.units] ::
        (m.zone.lines' ++ first :: rest)).take k =
      m.name :: [.num m.lat, .num m.lon] :: [.word m.units] ::
        (m.zone.lines' ++ first :: rest.take j) := by
    intro j hj
    have e : k = (m.zone.lines'.length + (j + 1)) + 1 + 1 + 1 := by omega
    rw [e, List.take_succ_cons, List.take_succ_cons, List.take_succ_cons,
      List.take_length_add_append, List.take_succ_cons]
  obtain ⟨j, hj⟩ := Nat.exists_eq_add_of_le hk
  rw [hcut j hj.symm]
  generalize hD : List.drop k _ = rest'
  have hrows := key (rest.take j) rest'
  unfold fromFile readFile
  cases hzone : m.zone with
  | none => simp [Zone.lines', readline, h1, hrows]
  | line o t =>
    rw [hzone] at hz
    have h4 := readData_notSeven hz
    simp [Zone.lines', readline, h1, h4, hrows]
  | lines o t x =>
    rw [hzone] at hz
    have h4 := readData_notSeven hz.1
    have h5 := readData_notSeven hz.2
    simp [Zone.lines', readline, h1, h4, h5, hrows]

/-- Nothing is made up and nothing is dropped: in any file that is read, every line after the header
is blank or one row, in order. -/
theorem C78_rows (ls : List Line) (ds : List Datum) (h : readRows ls = some ds) :
    List.Forall₂ (fun l d => readData l = .row d) (ls.filter (fun l => l ≠ blank)) ds := by
  induction ls generalizing ds with
  | nil => injection h with h; subst h; exact List.Forall₂.nil
  | cons l ls ih =>
    rw [readRows] at h
    split at h
    · rename_i hb
      rw [List.filter_cons_of_neg (by simp [hb])]
      exact ih ds h
    · rename_i hb
      rw [List.filter_cons_of_pos (by simpa using hb)]
      split at h
      · rename_i d hd
        cases hr : readRows ls with
        | none => rw [hr] at h; cases h
        | some ds' =>
          rw [hr] at h
          injection h with h
          subst h
          exact List.Forall₂.cons hd (ih ds' hr)
      · cases h

/-- A whole number is as good a speed as a decimal one. -/
theorem C78_number (t : Tok) (q : ℚ) : t.toNum? = some q ↔ (∃ n : Int, t = .int n ∧ q = n) ∨ t = .num q := by
  cases t with
  | int n =>
    simp only [Tok.toNum?, Option.some.injEq, Tok.int.injEq, reduceCtorEq, or_false]
    constructor
    · intro h; exact ⟨n, rfl, h.symm⟩
    · rintro ⟨m, rfl, h⟩; exact h.symm
  | num r => simp [Tok.toNum?]
  | word s => simp [Tok.toNum?]

/-- A row that is read has a date that exists, and the numbers of its line. -/
theorem C78_row_valid (l : Line) (d : Datum) (h : readData l = .row d) :
    d.time.valid = true ∧ ∃ a b c e f sp di, l = [.int a, .int b, .int c, .int e, .int f, sp, di] ∧
      d.time = ⟨fixYear c, b, a, e, f⟩ ∧ sp.toNum? = some d.speed ∧ direction di = some d.dir := by
  unfold readData at h
  split at h
  · rename_i t1 t2 t3 t4 t5 sp di
    split at h
    · rename_i a b c e f h1 h2 h3 h4 h5
      split at h
      · rename_i s r hs hd
        simp only at h
        split at h
        · rename_i hv
          injection h with h
          subst h
          have key : ∀ (t : Tok) (n : Int), t.toInt? = some n → t = .int n := by
            intro t n ht
            cases t with
            | int m => simp [Tok.toInt?] at ht; rw [ht]
            | num q => cases ht
            | word s => cases ht
          refine ⟨hv, a, b, c, e, f, sp, di, ?_, rfl, hs, hd⟩
          rw [key _ _ h1, key _ _ h2, key _ _ h3, key _ _ h4, key _ _ h5]
        · cases h
      · cases h
    · cases h
  · cases h

example : readData [.int 30, .int 2, .int 2000, .int 3, .int 30, .num 10, .num 45] = .bad := by
  decide +kernel

end Verif.WindFile
