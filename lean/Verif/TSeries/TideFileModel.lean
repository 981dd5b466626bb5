import Mathlib.Data.Rat.Defs
import Verif.Dates.Model

/-!
# Reading a file of a tide or of another series of values with times

Sources: `py_gnome/lib_gnome/OSSMTimeValue_c.cpp` `ReadTimeValues` (867-1133), `ConvertRowValuesToUV` (1303-1353), `DateValuesAreZero`,
`DateIsValid`, `CorrectTwoDigitYear` (1356-1386); `py_gnome/lib_gnome/TimeValuesIO.cpp` (56-323, 388-403); `py_gnome/lib_gnome/StringFunctions.cpp`
`trim`, `rtrim_empty_lines` (198-231), `ParseLine` (563-613), `strcmpnocase` (962-1004); `py_gnome/lib_gnome/OUTILS.cpp` `ConvertToUV`,
`ConvertToDegrees` (7-61), `StrToSpeedUnits` (226-242); `py_gnome/gnome/cy_gnome/cy_ossm_time.pyx` `_read_time_values` (272-328);
`py_gnome/gnome/environment/tide.py` `_obj_to_create` (146-179).

Simplifications: a file is the list of its lines without line ends. `num` is what `istringstream >> double` makes of the beginning of a word (C library), `none`
when it is not a number (then C++11 sets the value to 0). For the check of a file of river flows a word is a number as a whole or not at all. Reading the
files of NDBC and NCDC is left out, only their recognition is here. Numbers are exact. Values are read as components (`uv`, what `Tide` asks for).
-/
namespace Verif.TSeries.TideFile

open Verif.Dates

abbrev Str := List Char

/-- `isspace` of the C library. -/
def isSpace (c : Char) : Bool := c = ' ' || c = '\t' || c = '\n' || c = '\x0b' || c = '\x0c' || c = '\r'

/-- `trim` (`StringFunctions.cpp:198-215`). -/
def trim (s : Str) : Str := ((s.reverse.dropWhile isSpace).reverse).dropWhile isSpace

/-- `std::replace(…, ',', ' ')` (`OSSMTimeValue_c.cpp:1058`). -/
def commas (s : Str) : Str := s.map fun c => if c = ',' then ' ' else c

/-- The number that decimal digits stand for (C library). -/
def value (ds : Str) : Nat := ds.foldl (fun n c => 10 * n + (c.toNat - 48)) 0

/-- The sign before a number (C library). -/
def sign : Str → Bool × Str
  | '-' :: r => (true, r)
  | '+' :: r => (false, r)
  | s => (false, s)

/-- `stream >> short` (C++ library; the fields of `DateTimeRec` are `short`, `Basics.h:64-73`): white space, a sign, digits up to the first
other character; no digits, or a number that does not fit, is a failure. -/
def scanShort (s : Str) : Option (Int × Str) :=
  let g := sign (s.dropWhile isSpace)
  let ds := g.2.takeWhile Char.isDigit
  let n : Int := if g.1 then -(value ds : Int) else value ds
  if ds = [] then none
  else if -32768 ≤ n ∧ n ≤ 32767 then some (n, g.2.dropWhile Char.isDigit) else none

/-- `stream >> string` (C++ library). -/
def scanWord (s : Str) : Option (Str × Str) :=
  let r := s.dropWhile isSpace
  let w := r.takeWhile fun c => !isSpace c
  if w = [] then none else some (w, r.dropWhile fun c => !isSpace c)

/-- `lineStream >> time.day >> time.month >> time.year >> time.hour >> time.minute` (`OSSMTimeValue_c.cpp:1060-1062`). -/
def scanDate (s : Str) : Option (Date × Str) :=
  (scanShort s).bind fun d => (scanShort d.2).bind fun m => (scanShort m.2).bind fun y => (scanShort y.2).bind fun h =>
    (scanShort h.2).map fun n => (⟨y.1, m.1, d.1, h.1, n.1, 0⟩, n.2)

/-- The two words after the date (`OSSMTimeValue_c.cpp:1086`). -/
def scanValues (s : Str) : Option (Str × Str) := (scanWord s).bind fun a => (scanWord a.2).map fun b => (a.1, b.1)

/-- `ParseLine` of a date and two words (`StringFunctions.cpp:590-613`). -/
def parseLine (s : Str) : Option (Date × Str × Str) := (scanDate s).bind fun d => (scanValues d.2).map fun v => (d.1, v)

/-- `DateValuesAreZero` (`OSSMTimeValue_c.cpp:1356-1360`). -/
def zeros (d : Date) : Bool := d.day = 0 && d.month = 0 && d.year = 0 && d.hour = 0 && d.minute = 0

/-- `DateIsValid` (`OSSMTimeValue_c.cpp:1371-1375`). -/
def dateOk (d : Date) : Bool := 1 ≤ d.day && d.day ≤ 31 && 1 ≤ d.month && d.month ≤ 12

/-- `CorrectTwoDigitYear` (`OSSMTimeValue_c.cpp:1378-1386`). -/
def fixYear (y : Int) : Int := if y < 1900 then (if 40 ≤ y ∧ y ≤ 99 then y + 1900 else y + 2000) else y

/-- A value with its time, in seconds and metres per second. -/
structure Pair where
  time : Int
  u : ℚ
  v : ℚ
  deriving DecidableEq

/-- `istringstream >> double` on a word (`OSSMTimeValue_c.cpp:1313-1314`). -/
def readNum (num : Str → Option ℚ) (w : Str) : ℚ := (num w).getD 0

/-- The loop over the lines after the header (`OSSMTimeValue_c.cpp:1042-1113`); `prev` is the time of the last value so far. `none` is `err = -1`. -/
def rows (z : Zone) (k : ℚ) (num : Str → Option ℚ) : List Str → Option Int → Option (List Pair)
  | [], _ => some []
  | l :: rest, prev =>
    if trim l = [] then rows z k num rest prev
    else match scanDate (commas (trim l)) with
      | none => none
      | some (d, s) =>
        if rest = [] ∧ zeros d then some []
        else if dateOk d then
          match scanValues s with
          | none => none
          | some (a, b) =>
            let t := dateToSeconds z { d with year := fixYear d.year }
            if prev.any (t < ·) then none
            else (rows z k num rest (some t)).map (⟨t, readNum num a * k, readNum num b * k⟩ :: ·)
        else none

/-- Units of speed (`OUTILS.cpp:226-242`). -/
inductive Speed | knots | mps | mph | kmh
  deriving DecidableEq

/-- `strcmpnocase(…) == 0` (`StringFunctions.cpp:962-981`). -/
def sameText (s : Str) (t : String) : Bool := s.map Char.toUpper = t.toList.map Char.toUpper

/-- `strncmpnocase(s, t, strlen(t)) == 0` (`StringFunctions.cpp:984-1004`). -/
def beginsText (s : Str) (t : String) : Bool := (s.map Char.toUpper).take t.length = t.toList.map Char.toUpper

/-- `StrToSpeedUnits` (`OUTILS.cpp:226-242`). -/
def speed (s : Str) : Option Speed :=
  if sameText s "knots" then some .knots
  else if beginsText s "MetersPerSec" || sameText s "MPS" || sameText s "m/s" then some .mps
  else if sameText s "MilesPerHour" || sameText s "MPH" then some .mph
  else if sameText s "kilometer per hour" || sameText s "kph" || sameText s "km/h" then some .kmh
  else if sameText s "miles per hour" then some .mph
  else if sameText s "meters per second" then some .mps
  else none

/-- The factors (`OSSMTimeValue_c.cpp:999-1015`, `OUTILS.H:5-7`). -/
def factor : Speed → ℚ
  | .knots => 5144 / 10000
  | .mph => 44704 / 100000
  | .kmh => 277777 / 1000000
  | .mps => 1

/-- `rtrim_empty_lines` (`StringFunctions.cpp:217-232`): the first line stays. -/
def dropEmpty : List Str → List Str
  | [] => []
  | a :: r => a :: (r.reverse.dropWhile fun l => l = []).reverse

/-- What is read from the file; `.beyond` is a look at a line that the file does not have. -/
inductive Out
  | series (l : List Pair)
  | ioError
  | noUnits
  | badFormat
  | ndbc
  | ncdc
  | beyond
  deriving DecidableEq

/-- `IsNDBCWindFile` (`TimeValuesIO.cpp:171-193`). -/
def isNdbc (ls : List Str) : Bool :=
  match ls with
  | [] => false
  | l :: _ => trim l = "#YY".toList || trim l = "YYYY".toList || trim l = "YY".toList

/-- `IsNCDCWindFile` (`TimeValuesIO.cpp:209-219`, `ParseKeyedLine`, `StringFunctions.cpp`): the first word, when there is a second. -/
def isNcdc (ls : List Str) : Bool :=
  match ls with
  | [] => false
  | l :: _ => match scanValues l with
    | none => false
    | some (a, _) => a = "USAF".toList

/-- A line as the recognition of files looks at it: spaces cut off, commas made spaces, then a date and two words. -/
def dataLine (l : Str) : Option (Date × Str × Str) := parseLine (commas (trim l))

/-- What the recognition of a kind of file says. -/
inductive Is (α : Type) | yes (a : α) | no | beyond

/-- `IsLongWindFile` (`TimeValuesIO.cpp:56-157`): the units and the number of lines of the header. -/
def isLong (ls : List Str) : Is (Speed × Nat) :=
  match ls with
  | _ :: _ :: l3 :: l4 :: l5 :: rest =>
    match speed (trim l3) with
    | none => .no
    | some sp =>
      let zone := (trim l4).map Char.toLower
      if zone ≠ "ltime".toList ∧ zone ≠ "gmt".toList ∧ zone ≠ "utc".toList ∧ (parseLine (commas zone)).isSome then .no
      else if (dataLine l5).any (fun p => decide (¬ (p.1.month = 0 ∨ p.1.day = 0))) then .yes (sp, 4)
      else match rest with
        | [] => .beyond
        | l6 :: _ => if (dataLine l6).isSome then .yes (sp, 5) else .no
  | _ => .no

/-- `IsOSSMTimeFile` (`TimeValuesIO.cpp:287-323`): three lines are required, the fourth is looked at. -/
def isOssm (ls : List Str) : Is Speed :=
  match ls with
  | _ :: _ :: l3 :: rest =>
    match speed (trim l3) with
    | none => .no
    | some sp => match rest with
      | [] => .beyond
      | l4 :: _ => if (dataLine l4).isSome then .yes sp else .no
  | _ => .no

/-- `IsHydrologyFile` (`TimeValuesIO.cpp:235-273`). -/
def isHydro (num : Str → Option ℚ) (ls : List Str) : Is Unit :=
  match ls with
  | _ :: _ :: l3 :: rest =>
    let u := (trim l3).map Char.toLower
    if u = "cfs".toList ∨ u = "kcfs".toList ∨ u = "cms".toList ∨ u = "kcms".toList then
      match rest with
      | [] => .beyond
      | l4 :: _ => if (dataLine l4).any (fun p => (num p.2.1).isSome && (num p.2.2).isSome) then .yes () else .no
    else .no
  | _ => .no

/-- From the loop over the lines to the end (`OSSMTimeValue_c.cpp:1042-1133`, `cy_ossm_time.pyx:313-328`): without a value `err = true`, which is the
number of the error for missing units. -/
def finish : Option (List Pair) → Out
  | none => .ioError
  | some [] => .noUnits
  | some (p :: l) => .series (p :: l)

/-- Without units (`OSSMTimeValue_c.cpp:971-978`, `IsTimeFile`, `TimeValuesIO.cpp:388-403`). -/
def noHeader (ls : List Str) : Out :=
  match ls with
  | [] => .badFormat
  | l :: _ => if (parseLine (commas l)).isSome then .noUnits else .badFormat

/-- `ReadTimeValues` (`OSSMTimeValue_c.cpp:867-1133`), `CyTimeseries(filename, 'uv')`. -/
def readFile (z : Zone) (num : Str → Option ℚ) (file : List Str) : Out :=
  let ls := dropEmpty file
  if isNdbc ls then .ndbc
  else if isNcdc ls then .ncdc
  else match isLong ls with
    | .beyond => .beyond
    | .yes (sp, n) => finish (rows z (factor sp) num (ls.drop n) none)
    | .no => match isOssm ls with
      | .beyond => .beyond
      | .yes sp => finish (rows z (factor sp) num (ls.drop 3) none)
      | .no => match isHydro num ls with
        | .beyond => .beyond
        | .yes () => finish (rows z 1 num (ls.drop 3) none)
        | .no => noHeader ls

/-- `ConvertToDegrees` (`OUTILS.cpp:17-61`) of a word without spaces: a word that begins with a digit is a number (`num`), reduced to a circle; the names of
the sixteen points of the compass; anything else is 0. `val` is not below 0 here, since the word begins with a digit. -/
def toDegrees (num : Str → Option ℚ) (w : Str) : ℚ :=
  let s := String.ofList (w.map Char.toUpper)
  match w with
  | [] => 0
  | c :: _ =>
    if c.isDigit then
      match num w with
      | some x => x - (Rat.floor (x / 360) : ℚ) * 360
      | none => 0
    else if s = "N" then 0 else if s = "E" then 90 else if s = "S" then 180 else if s = "W" then 270
    else if s = "NE" then 45 else if s = "SE" then 135 else if s = "SW" then 225 else if s = "NW" then 315
    else if s = "NNE" then 45 / 2 else if s = "ENE" then 135 / 2 else if s = "ESE" then 225 / 2 else if s = "SSE" then 315 / 2
    else if s = "SSW" then 405 / 2 else if s = "WSW" then 495 / 2 else if s = "WNW" then 585 / 2 else if s = "NNW" then 675 / 2
    else 0

end Verif.TSeries.TideFile
