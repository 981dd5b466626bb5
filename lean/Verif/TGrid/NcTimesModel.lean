import Mathlib.Data.Rat.Floor
import Mathlib.Data.Int.Log
import Verif.Dates.Model
import Verif.TSeries.TideFileModel

/-!
# Times of the records of netCDF files, and the times a mover reports

Sources: `py_gnome/lib_gnome/TimeGridVel_c.cpp`: `TimeGridVelRect_c::TextRead` (774-813, 962-980), `TimeGridVelCurv_c::TextRead` (3365-3408, 3625-3641),
`TimeGridVelTri_c::TextRead` (9071, 9120-9177, 9407-9424), `ReadInputFileNames` (590-677), `GetFileStartTime` (1817-1936), `GetFileEndTime` (1939-2059),
`ScanFileForTimes` (11415-11515), `GetDataStartTime`, `GetDataEndTime` (2062-2112); `py_gnome/lib_gnome/TimeGridWind_c.cpp`: `TimeGridWindRect_c::TextRead`
(245-281, 388-400), `TimeGridWindCurv_c::TextRead` (1155-1213, 1380-1398); `py_gnome/gnome/cy_gnome/cy_gridcurrent_mover.pyx` (192-206);
`py_gnome/gnome/movers/c_current_movers.py` (594-600).

Simplifications: numbers are exact, apart from the `float` that the reader of triangles has for a time (rounded to 24 binary digits, halves up). The words of the units
fit their buffers and the numbers of the date fit a `short`. `junk` is what is in memory that was not written. A cycle of currents, which has no date, is left out.
-/
namespace Verif.TGrid.NcTimes

open Verif.Dates
open Verif.TSeries.TideFile (Str scanWord scanShort sameText)

/-- Who reads: `scan` are `GetFileStartTime`, `GetFileEndTime`, `ReadInputFileNames` and `ScanFileForTimes`. -/
inductive Reader | rect | curv | tri | windRect | windCurv | scan
  deriving DecidableEq

/-- `StringSubstitute(timeUnits, …, ' ')` (`TimeGridVel_c.cpp:787-790`). -/
def clean (s : Str) : Str := s.map fun c => if c = ':' || c = '-' || c = 'T' || c = 'Z' then ' ' else c

/-- The numbers of `sscanf(…, "%hd %hd …")`. -/
def scanInts : Nat → Str → List Int
  | 0, _ => []
  | n + 1, s =>
    match scanShort s with
    | none => []
    | some (i, r) => i :: scanInts n r

/-- The date by how many numbers there are (`TimeGridVel_c.cpp:795-802, 3381-3393`): `numScanned` is two more. -/
def baseDate (r : Reader) (junk : Int) : List Int → Option Date
  | [y, m, d] => some ⟨y, m, d, 0, 0, 0⟩
  | [y, m, d, h, n] => some ⟨y, m, d, h, n, 0⟩
  | [y, m, d, h, n, s] => some ⟨y, m, d, h, n, s⟩
  | [y, m] => if r = .curv then some ⟨y, m, junk, 0, 0, 0⟩ else none
  | _ => none

/-- `timeConversion` (`TimeGridVel_c.cpp:748, 805-812`). -/
def factor (u : Str) : ℚ :=
  if sameText u "HOURS" || sameText u "HOUR" then 3600
  else if sameText u "MINUTES" || sameText u "MINUTE" then 60
  else if sameText u "SECONDS" || sameText u "SECOND" then 1
  else if sameText u "DAYS" || sameText u "DAY" then 24 * 3600
  else 1

/-- `round` of the C library: halves away from zero. -/
def roundAway (q : ℚ) : Int := if 0 ≤ q then ⌊q + 1 / 2⌋ else ⌈q - 1 / 2⌉

/-- `(long)` of a `double`. -/
def trunc (q : ℚ) : Int := if 0 ≤ q then ⌊q⌋ else ⌈q⌉

/-- A `float` (`TimeGridVel_c.cpp:9071`). -/
def single (v : ℚ) : ℚ :=
  if v = 0 then 0 else ⌊v / 2 ^ (Int.log 2 |v| - 23) + 1 / 2⌋ * 2 ^ (Int.log 2 |v| - 23)

/-- `RoundDateSeconds(round(startTime2 + timeVal * timeConversion))`. -/
def plain (z : Zone) (d : Date) (f v : ℚ) : Int := roundDateSeconds z (roundAway (dateToSeconds z d + v * f))

/-- The entry of `fTimeHdl`. -/
def timeOf (r : Reader) (z : Zone) (d : Date) (f v : ℚ) : Int :=
  match r with
  | .rect => if d.year = 1 then plain z { d with year := 2001 } f (v - 730487) else plain z d f v
  | .curv | .windCurv =>
    if d.year = 1900 then plain z { d with year := 1940, day := d.day + 1 } f v - 1262304000 else plain z d f v
  | .tri => plain z d f (single v)
  | .windRect => dateToSeconds z d + trunc (v * f)
  | .scan => plain z d f v

/-- The time of a record from the attribute `units` and the value; `none` is an error. -/
def instant (r : Reader) (z : Zone) (junk : Int) (units : Str) (v : ℚ) : Option Int :=
  match scanWord (clean units) with
  | none => none
  | some (u, rest) =>
    match scanWord rest with
    | none => none
    | some (_, rest) => (baseDate r junk (scanInts 6 rest)).map fun d => timeOf r z d (factor u) v

/-- What a grid knows of times: starts and ends of the files of a list, first and last time of the file as `scan` reads it (`none` if it is not netCDF), `fTimeHdl`,
`fTimeShift`. -/
structure Grid where
  files : List (Int × Int)
  inFile : Option (Int × Int)
  times : List Int
  shift : Int

/-- `GetDataStartTime` (`TimeGridVel_c.cpp:2062-2087`); errors are not looked at. -/
def dataStart (g : Grid) : Int :=
  if g.files.length > 1 then (g.files.headD (0, 0)).1 + g.shift
  else if g.times.length > 0 then
    match g.inFile with
    | some t => t.1
    | none => g.times.headD 0 + g.shift
  else 0

/-- `GetDataEndTime` (`TimeGridVel_c.cpp:2089-2112`). -/
def dataStop (g : Grid) : Int :=
  if g.files.length > 1 then (g.files.getLastD (0, 0)).2 + g.shift
  else if g.times.length > 0 then
    match g.inFile with
    | some t => t.2
    | none => g.times.getLastD 0 + g.shift
  else 0

end Verif.TGrid.NcTimes
