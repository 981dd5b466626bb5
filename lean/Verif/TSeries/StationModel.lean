import Verif.TSeries.TideFileModel
import Mathlib.Data.Rat.Floor

/-!
# The station of a file of a tide, and files of buoys (NDBC) and weather stations (NCDC)

Sources: `py_gnome/lib_gnome/OSSMTimeValue_c.cpp` `ReadOSSMTimeHeader` (1136-1222), `ReadHydrologyHeader` (1225-1297), `ReadNCDCWind` (511-703),
`ReadNDBCWind` (706-850), constructor (25-45); `py_gnome/gnome/cy_gnome/cy_ossm_time.pyx` `station_location` (142-161).

Simplifications: numbers are exact (the code has `float` for the numbers of the position); the line of the position is the list of the numbers at its
beginning, at most four. A row of a buoy or of a station is already split: fields of the date, then the two words of the wind as numbers (`none` = not a number,
which the C++ library reads as 0); a wind is the direction it comes from and its speed, before the conversion to components.
-/
namespace Verif.TSeries.Station

open Verif.Dates Verif.TSeries.TideFile

/-! ## The position -/

/-- A position in millionths of a degree (latitude, longitude). -/
abbrev Micro := Int × Int

/-- Assignment of a floating point number to a `long`: cut toward zero. -/
def toLong (q : ℚ) : Int := if 0 ≤ q then ⌊q⌋ else -⌊-q⌋

/-- The position of a header with these numbers (1176-1202). -/
def ossmPos : List ℚ → Micro
  | [a, b, c, d] => (toLong ((a + b / 60) * 1000000), toLong (-(c + d / 60) * 1000000))
  | [a, b] => (toLong (a * 1000000), toLong (b * 1000000))
  | _ => (0, 0)

/-- What kind of header a file has: units of speed, units of flow, or none with a position (other kinds of files). -/
inductive Header
  | ossm (line : List ℚ)
  | hydro (line : List ℚ)
  | none

/-- The position after reading (36-37, 1202, 1246-1273): for a file of a river that has not four numbers, the first two; with fewer they are not defined, `junk`. -/
def position (junk : Micro) : Header → Micro
  | .ossm l => ossmPos l
  | .hydro [a, b, c, d] => ossmPos [a, b, c, d]
  | .hydro (a :: b :: _) => ossmPos [a, b]
  | .hydro _ => junk
  | .none => (-999, -999)

/-- `station_location` (142-161): longitude and latitude in degrees. -/
def location (p : Micro) : Option (ℚ × ℚ) := if p.1 = -999 then none else some ((p.2 : ℚ) / 1000000, (p.1 : ℚ) / 1000000)

/-! ## Buoys and weather stations -/

/-- A wind with its time: the direction it comes from in degrees, and its speed in the units of the file. -/
structure W where
  time : Int
  dir : ℚ
  speed : ℚ
  deriving DecidableEq

/-- A line of data. -/
inductive Line
  | blank
  | broken
  | row (date : Date) (dir speed : Option ℚ)

/-- Assignment of a date that lacks its minutes. -/
def noMinutes (d : Date) : Date := { d with minute := 0, second := 0 }

/-- `ReadNDBCWind` (729-823): `hdr` lines of header; with one, the rows have no minutes. -/
def ndbc (z : Zone) (hdr : Nat) : List Line → Option Int → Option (List W)
  | [], _ => some []
  | .blank :: r, prev => ndbc z hdr r prev
  | .broken :: _, _ => none
  | .row d a b :: r, prev =>
    let d := if hdr = 1 then noMinutes d else { d with second := 0 }
    if dateOk d then
      let t := dateToSeconds z { d with year := fixYear d.year }
      if prev.any (t < ·) then none
      else (ndbc z hdr r (some t)).map (⟨t, a.getD 0, b.getD 0⟩ :: ·)
    else none

/-- A word of the wind of a weather station: stars, or a number (`none` = neither). -/
inductive Word
  | stars
  | num (q : Option ℚ)

/-- A line of data of a weather station. -/
inductive NLine
  | blank
  | broken
  | row (date : Date) (dir speed : Word)

/-- `ReadNCDCWind` (563-676): rows with stars are left out before the date is read; the minutes are set to 0 (605); speed 99 and directions above 360 are left out. -/
def ncdc (z : Zone) : List NLine → Option Int → Option (List W)
  | [], _ => some []
  | .blank :: r, prev => ncdc z r prev
  | .broken :: _, _ => none
  | .row _ .stars _ :: r, prev => ncdc z r prev
  | .row _ (.num _) .stars :: r, prev => ncdc z r prev
  | .row d (.num a) (.num b) :: r, prev =>
    let d := noMinutes d
    if dateOk d then
      if b.getD 0 = 99 ∨ 360 < a.getD 0 then ncdc z r prev
      else
        let t := dateToSeconds z { d with year := fixYear d.year }
        if prev.any (t < ·) then none
        else (ncdc z r (some t)).map (⟨t, a.getD 0, b.getD 0⟩ :: ·)
    else none

end Verif.TSeries.Station
