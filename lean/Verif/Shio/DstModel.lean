import Mathlib.Tactic.NormNum
import Verif.Dates.Model

/-!
# Daylight saving time and hours of the year for tides

Sources: `py_gnome/lib_gnome/ShioTimeValue_c.cpp` `DaylightSavingTimeInEffect` (219-323),
`py_gnome/lib_gnome/ShioHeight.cpp` `GetJulianDayHr` (1107-1146), begin and end of the computed hours in
`GetTideHeight` (74-150).

Simplifications: `short` fields are integers; hours are integers (the code has whole numbers in `double`).
-/

namespace Verif.Shio

/-- The fields of `DateTimeRec` that are read: `dow` is `dayOfWeek`, 1 for Sunday. -/
structure When where
  year : Int
  month : Int
  day : Int
  dow : Int
  hour : Int
  deriving DecidableEq, Repr

/-- `DaylightSavingTimeInEffect` (219-323); `off` is `daylight_savings_off`. -/
def dst (off : Bool) (d : When) : Bool :=
  if off then false
  else if d.year < 2007 then
    if d.month = 1 ∨ d.month = 2 ∨ d.month = 3 ∨ d.month = 11 ∨ d.month = 12 then false
    else if d.month = 4 then
      if d.day > 7 then true
      else if d.dow = 1 then decide (d.hour ≥ 2)
      else decide (d.day - d.dow + 1 ≥ 1)
    else if d.month = 10 then
      if d.day < 25 then true
      else if d.dow = 1 then !decide (d.hour ≥ 2)
      else !decide (d.day - d.dow + 8 > 31)
    else decide (5 ≤ d.month ∧ d.month ≤ 9)
  else
    if d.month = 1 ∨ d.month = 2 ∨ d.month = 12 then false
    else if d.month = 3 then
      if d.day < 8 then false
      else if d.day > 14 then true
      else if d.dow = 1 then decide (d.hour ≥ 2)
      else decide (d.day - d.dow + 1 ≥ 8)
    else if d.month = 11 then
      if d.day > 7 then false
      else if d.dow = 1 then !decide (d.hour ≥ 2)
      else !decide (d.day - d.dow + 8 > 14)
    else decide (4 ≤ d.month ∧ d.month ≤ 10)

/-- The days of the months before `m` (1129-1131), by adding up the table with the change for leap years. -/
def daysBefore (y : Int) : Nat → Int
  | 0 => 0
  | m + 1 => daysBefore y m + Dates.dim y (m + 1)

/-- `GetJulianDayHr` (1107-1146): an error number, or the hours from the beginning of the year. -/
def julianHr (day month year : Int) : Except Nat Int :=
  if month < 1 ∨ month > 12 then .error 3
  else if day < 1 ∨ day > Dates.dim year month then .error 4
  else if year < 1904 ∨ year > 2035 then .error 5
  else .ok (daysBefore year (month - 1).toNat * 24 + 24 * day - 24)

/-- Begin and end of the hours to be computed (74-133), before the offsets: a year later in the end is always
the next one; `dst` puts both an hour earlier. -/
def span (b e : Dates.Date) (dst : Bool) : Except Nat (Int × Int) :=
  match julianHr b.day b.month b.year with
  | .error x => .error x
  | .ok bh =>
    match julianHr e.day e.month e.year with
    | .error x => .error x
    | .ok eh =>
      let c : Int := if dst then 1 else 0
      if e.year > b.year then
        match julianHr 31 12 b.year with
        | .error x => .error x
        | .ok h => .ok (bh - c, h + eh + 24 - c)
      else .ok (bh - c, eh + 24 - c)

end Verif.Shio
