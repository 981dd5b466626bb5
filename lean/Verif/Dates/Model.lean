/-!
# Dates and seconds in lib_gnome

Sources: `py_gnome/lib_gnome/StringFunctions.cpp` `DateString2Secs` (1695-1742), `RoundDateSeconds`
(1851-1903), `SecondsToDate` (1923-1985), `DateToSeconds` (1988-2000), as compiled for pyGNOME
(`pyGNOME` defined, `MAC` not).

The C library is the trusted part: `localtime` and `mktime` use the Gregorian calendar, a
standard offset `std` from UTC and, when `dst t` holds, one hour of daylight saving time.
`mktime` with `tm_isdst = 0` takes the fields as standard time.

Simplifications: seconds are integers (`time_t` without overflow), the fields of `DateTimeRec`
are integers (`short` in the code, the values here fit).  Printing with `%02hd/%02hd/%02hd` and
reading back with `%hd/%hd/%hd` gives the same three numbers.
-/

namespace Verif.Dates

/-- Leap years of the Gregorian calendar (the C library; the same test is in
`StringFunctions.cpp:1869`). -/
def leap (y : Int) : Bool := (y % 4 == 0 && y % 100 != 0) || y % 400 == 0

/-- Days from 1 January 1970 to 1 January of year `y` (the C library). -/
def yearDay (y : Int) : Int :=
  365 * (y - 1970) + ((y - 1) / 4 - (y - 1) / 100 + (y - 1) / 400 - 477)

/-- Days of a month (the C library, and the table `DaysInMonth` with the change for leap years
of `StringFunctions.cpp:1853,1869-1870`). -/
def dim (y m : Int) : Int :=
  if m = 2 then (if leap y then 29 else 28)
  else if m = 4 ∨ m = 6 ∨ m = 9 ∨ m = 11 then 30 else 31

/-- Days of the year before the first of month `m` (the C library). -/
def monthDay (y m : Int) : Int :=
  let l : Int := if leap y then 1 else 0
  if m ≤ 1 then 0 else if m = 2 then 31 else if m = 3 then 59 + l else if m = 4 then 90 + l
  else if m = 5 then 120 + l else if m = 6 then 151 + l else if m = 7 then 181 + l
  else if m = 8 then 212 + l else if m = 9 then 243 + l else if m = 10 then 273 + l
  else if m = 11 then 304 + l else 334 + l

/-- The year of a day (the C library): an estimate that is at most one off, and its repair. -/
def yearOf (n : Int) : Int :=
  let g := 1970 + (400 * n) / 146097
  if n < yearDay g then g - 1 else if yearDay (g + 1) ≤ n then g + 1 else g

/-- The last month from `m` on that has begun on day `k` (from 0) of year `y`, among the next
`f` months. -/
def monthFrom (y k : Int) : Nat → Int → Int
  | 0, m => m
  | f + 1, m => if k < monthDay y (m + 1) then m else monthFrom y k f (m + 1)

/-- The month of day `k` (from 0) of year `y` (the C library). -/
def monthOf (y k : Int) : Int := monthFrom y k 11 1

/-- `DateTimeRec` without the day of the week (`TypeDefs.h`). -/
structure Date where
  year : Int
  month : Int
  day : Int
  hour : Int
  minute : Int
  second : Int
  deriving DecidableEq, Repr

/-- Where the computer is: the offset of standard time from UTC in seconds, and when daylight
saving time is in force. -/
structure Zone where
  std : Int
  dst : Int → Bool

/-- The calendar date of a number of seconds (`gmtime` of the C library). -/
def civil (s : Int) : Date :=
  let n := s / 86400
  let r := s % 86400
  let y := yearOf n
  let k := n - yearDay y
  let m := monthOf y k
  ⟨y, m, k - monthDay y m + 1, r / 3600, r % 3600 / 60, r % 60⟩

/-- The seconds of a calendar date (`timegm` of the C library; months from 1 to 12). -/
def secs (d : Date) : Int :=
  (yearDay d.year + monthDay d.year d.month + (d.day - 1)) * 86400
    + d.hour * 3600 + d.minute * 60 + d.second

/-- `localtime` of the C library. -/
def localtime (z : Zone) (s : Int) : Date :=
  civil (s + z.std + if z.dst s then 3600 else 0)

/-- `date->year` from `tm_year` (`StringFunctions.cpp:1956-1962`). -/
def century (tmYear : Int) : Int :=
  if tmYear < 40 then tmYear + 2000 else if tmYear < 200 then tmYear + 1900 else tmYear

/-- `SecondsToDate` (`StringFunctions.cpp:1923-1985`): in daylight saving time the hour is taken
back by one; between 0 and 1 o'clock `seconds` is changed, but `converted_seconds` is what
`localtime` is given again (1943-1944), and the year is cut to two digits (1947). -/
def secondsToDate (z : Zone) (s : Int) : Date :=
  let t := localtime z s
  let tmYear := t.year - 1900
  if z.dst s then
    if t.hour > 0 then { t with hour := t.hour - 1, year := century tmYear }
    else { t with year := century (tmYear % 100) }
  else { t with year := century tmYear }

/-- `DateString2Secs` of the printed date (`StringFunctions.cpp:1711-1742`): midnight of a date
in standard time. -/
def dateString2Secs (z : Zone) (year month day : Int) : Int :=
  let year := if year < 40 then year + 100 else year
  let tmYear := if year < 200 then year else year - 1900
  let t := secs ⟨tmYear + 1900, month, day, 0, 0, 0⟩ - z.std
  if t = -1 then 0 else t

/-- `DateToSeconds` (`StringFunctions.cpp:1988-2000`). -/
def dateToSeconds (z : Zone) (d : Date) : Int :=
  dateString2Secs z d.year d.month d.day + (d.hour * 3600 + d.minute * 60 + d.second)

/-- The next minute of a date (`StringFunctions.cpp:1864-1898`).  In a new year the year is
counted up in the `else` of the check of the range and again after it (1887-1894). -/
def nextMinute (d : Date) : Date :=
  if d.minute < 59 then { d with minute := d.minute + 1 }
  else if d.hour < 23 then { d with minute := 0, hour := d.hour + 1 }
  else if d.day < dim d.year d.month then { d with minute := 0, hour := 0, day := d.day + 1 }
  else if d.month < 12 then
    { d with minute := 0, hour := 0, day := 1, month := d.month + 1 }
  else
    { d with minute := 0, hour := 0, day := 1, month := 1, year := (if d.year > 2019 then d.year else d.year + 1) + 1 }

/-- `RoundDateSeconds` (`StringFunctions.cpp:1851-1903`). -/
def roundDateSeconds (z : Zone) (s : Int) : Int :=
  let d := secondsToDate z s
  if d.second = 0 then s
  else
    let d := if d.second > 30 then nextMinute d else d
    dateToSeconds z { d with second := 0 }

end Verif.Dates
