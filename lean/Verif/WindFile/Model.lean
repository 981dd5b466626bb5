import Mathlib.Data.Rat.Floor

/-!
# Reading point winds from OSSM files

Source: `py_gnome/gnome/environment/wind.py` 829-960 (`read_ossm_format`, `_read_ossm_header`,
`_read_ossm_data_line`), 194-222 (`Wind.__init__` with a file name), 248-297 (`Wind.from_file`).

Simplifications: a line is the list of its comma separated fields, each already told apart as an
integer, another number, or a word (Python's `int` and `float` on text are not modelled; `nan` and
`inf` are words); a blank line is one empty word.
-/

namespace Verif.WindFile

/-- A field between commas. -/
inductive Tok where
  | int (n : Int)
  | num (q : ℚ)
  | word (s : String)
  deriving DecidableEq, Repr

/-- A line of the file. -/
abbrev Line := List Tok

/-- The line that is empty after `strip()`; also what `readline` gives at the end of the file. -/
def blank : Line := [.word ""]

/-- `int(f)`. -/
def Tok.toInt? : Tok → Option Int
  | .int n => some n
  | _ => none

/-- `float(f)`. -/
def Tok.toNum? : Tok → Option ℚ
  | .int n => some n
  | .num q => some q
  | .word _ => none

/-- `cardinal_directions` (`wind.py:810-827`). -/
def cardinal : String → Option ℚ
  | "N" => some 0
  | "NNE" => some (45 / 2)
  | "NE" => some 45
  | "ENE" => some (135 / 2)
  | "E" => some 90
  | "ESE" => some (225 / 2)
  | "SE" => some 135
  | "SSE" => some (315 / 2)
  | "S" => some 180
  | "SSW" => some (405 / 2)
  | "SW" => some 225
  | "WSW" => some (495 / 2)
  | "W" => some 270
  | "WNW" => some (585 / 2)
  | "NW" => some 315
  | "NNW" => some (675 / 2)
  | _ => none

/-- A date and time, as given to `datetime.datetime`. -/
structure Date where
  year : Int
  month : Int
  day : Int
  hour : Int
  minute : Int
  deriving DecidableEq, Repr

/-- Days of a month. -/
def daysIn (y m : Int) : Int :=
  if m = 2 then (if y % 4 = 0 ∧ (y % 100 ≠ 0 ∨ y % 400 = 0) then 29 else 28)
  else if m = 4 ∨ m = 6 ∨ m = 9 ∨ m = 11 then 30 else 31

/-- What `datetime.datetime` accepts; anything else raises ValueError. -/
def Date.valid (d : Date) : Bool :=
  decide (1 ≤ d.year ∧ d.year ≤ 9999 ∧ 1 ≤ d.month ∧ d.month ≤ 12 ∧ 1 ≤ d.day ∧
    d.day ≤ daysIn d.year d.month ∧ 0 ≤ d.hour ∧ d.hour ≤ 23 ∧ 0 ≤ d.minute ∧ d.minute ≤ 59)

/-- A row of wind data. -/
structure Datum where
  time : Date
  speed : ℚ
  dir : ℚ
  deriving DecidableEq, Repr

/-- `_read_ossm_data_line` (`wind.py:933-966`): not a line of data (`None`), an exception, or
a row. -/
inductive Read where
  | no
  | bad
  | row (d : Datum)
  deriving DecidableEq, Repr

/-- Two digit years (`wind.py:962-963`). -/
def fixYear (y : Int) : Int := if y < 100 then y + (if y < 70 then 2000 else 1900) else y

/-- The direction: a number, or one of the sixteen names (`wind.py:951-961`). -/
def direction (t : Tok) : Option ℚ :=
  match t with
  | .int n => some n
  | .num q => some q
  | .word s => cardinal s

/-- `_read_ossm_data_line` (`wind.py:933-966`). -/
def readData (l : Line) : Read :=
  match l with
  | [d, m, y, h, mi, sp, di] =>
    match d.toInt?, m.toInt?, y.toInt?, h.toInt?, mi.toInt? with
    | some d, some m, some y, some h, some mi =>
      match sp.toNum?, direction di with
      | some sp, some di =>
        let t : Date := ⟨fixYear y, m, d, h, mi⟩
        if t.valid then .row ⟨t, sp, di⟩ else .bad
      | _, _ => .no
    | _, _, _, _, _ => .no
  | _ => .no

/-- What a file gives. `coords` are (longitude, latitude) as in the code (`wind.py:879-883`). -/
structure Content where
  name : Line
  coords : Option (ℚ × ℚ)
  units : Line
  tz : Option ℚ
  tzName : Line
  rows : List Datum
  deriving DecidableEq, Repr

/-- `infile.readline().strip()`. -/
def readline (ls : List Line) : Line × List Line := (ls.headD blank, ls.tail)

/-- The second line (`wind.py:879-884`): two numbers, latitude first, or nothing. -/
def readCoords (l : Line) : Option (ℚ × ℚ) :=
  match l with
  | [a, b] =>
    match a.toNum?, b.toNum? with
    | some lat, some lon => some (lon, lat)
    | _, _ => none
  | _ => none

/-- `units.lower() == 'mps'` becomes `'m/s'` (`wind.py:889`). -/
def readUnits (l : Line) : Line :=
  match l with
  | [.word s] => if s.toLower = "mps" then [.word "m/s"] else l
  | _ => l

/-- The time zone line (`wind.py:899-914`). -/
def readZone (l : Line) : Option ℚ × Line :=
  match l with
  | [.word s] => if s.toLower = "gmt" ∨ s.toLower = "utc" then (some 0, l) else (none, [])
  | t :: rest => (t.toNum?, rest)
  | [] => (none, [])

/-- The rest of the file (`wind.py:847-855`): blank lines are skipped, anything else must be data. -/
def readRows : List Line → Option (List Datum)
  | [] => some []
  | l :: ls =>
    if l = blank then readRows ls
    else
      match readData l with
      | .row d => (readRows ls).map (d :: ·)
      | _ => none

/-- `read_ossm_format` (`wind.py:829-930`); `none`: ValueError. A missing name raises NameError in
`_read_ossm_header` (`filename` is not defined there, `wind.py:875`), which the caller turns into
ValueError. -/
def readFile (ls : List Line) : Option Content :=
  let (name, ls) := readline ls
  let (c, ls) := readline ls
  let (u, ls) := readline ls
  if name = blank then none
  else if u = blank then none
  else
    let (l4, ls) := readline ls
    let done (tz : Option ℚ × Line) (d : Datum) (ls : List Line) : Option Content :=
      (readRows ls).map fun ds => ⟨name, readCoords c, readUnits u, tz.1, tz.2, d :: ds⟩
    match readData l4 with
    | .bad => none
    | .row d => done (none, []) d ls
    | .no =>
      let tz := readZone l4
      let (l5, ls) := readline ls
      match readData l5 with
      | .bad => none
      | .row d => done tz d ls
      | .no =>
        let (l6, ls) := readline ls
        match readData l6 with
        | .row d => done tz d ls
        | _ => none

/-- What a loaded wind knows of its place, and its data. -/
structure Loaded where
  longitude : Option ℚ
  latitude : Option ℚ
  units : Line
  tz : Option ℚ
  rows : List Datum
  deriving DecidableEq, Repr

/-- `Wind.from_file` (`wind.py:264-297`). -/
def fromFile (ls : List Line) : Option Loaded :=
  (readFile ls).map fun c =>
    ⟨c.coords.map Prod.fst, c.coords.map Prod.snd, c.units, c.tz, c.rows⟩

/-- `Wind(filename=…)` (`wind.py:194-222`). -/
def fromConstructor (ls : List Line) : Option Loaded :=
  (readFile ls).map fun c =>
    match c.coords with
    | some xy => ⟨some xy.2, some xy.1, c.units, c.tz, c.rows⟩
    | none => ⟨none, none, c.units, c.tz, c.rows⟩

end Verif.WindFile
