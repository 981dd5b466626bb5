import Verif.Dates.Model
import Mathlib.Data.Rat.Defs
import Mathlib.Algebra.Order.Field.Rat

/-!
# What is in a file for GNOME Analyst

Source: `py_gnome/gnome/outputters/binary.py` (`le_dtype`, `header_dtype` 22-45, `output_to_file` 169-238), `date_to_sec`
(`py_gnome/gnome/utilities/time_utils.py` 150-206).

Simplifications: `date_to_sec` is the number of seconds of the date in standard time; the offset of the time zone cancels as only differences are used.
Numbers are rational; storing a number in a field of four bytes is a function `r` (the theorems say what they need of it). The bytes themselves, the
version and the name in the header, and the fields that are always the same (`nMap` is 1, `pollutant` and `WindKey` are 0) are left out.
-/
namespace Verif.OutFiles.BinFile
open Verif.Dates

/-- An element as the outputter sees it: position in degrees, age in seconds, status code. -/
structure El where
  lon : ℚ
  lat : ℚ
  age : Int
  status : Nat

/-- `oil_status.on_land` (`cy_basic_types.pyx`). -/
def onLand : Nat := 3

/-- The header (`binary.py:34-45`). -/
structure Header where
  day : Int
  month : Int
  year : Int
  hour : Int
  minute : Int
  current : ℚ
  num : Nat

/-- The record of an element (`binary.py:22-31`). -/
structure Rec where
  lat : ℚ
  lon : ℚ
  release : ℚ
  ageWhenReleased : ℚ
  beach : ℚ

/-- The date from which hours are counted: the beginning of the last year that is a multiple of four (`binary.py:183-198`). -/
def ref (d : Date) : Date := ⟨d.year - d.year % 4, 1, 1, 0, 0, 0⟩

/-- `current_time` in hours (`binary.py:197-201`). -/
def current (d : Date) : ℚ := ((secs d : ℚ) - secs (ref d)) / 3600

/-- `release_time` of an element in hours (`binary.py:218-220`). -/
def release (d : Date) (e : El) : ℚ := ((secs d : ℚ) - e.age - secs (ref d)) / 3600

/-- The record of an element (`binary.py:214-232`). -/
def record (r : ℚ → ℚ) (d : Date) (e : El) : Rec where
  lat := r e.lat
  lon := r (-1 * e.lon)
  release := r (release d e)
  ageWhenReleased := r (max (0 - (current d - release d e)) 0)
  beach := if e.status = onLand then r (-50) else 0

/-- `output_to_file` (`binary.py:169-238`). -/
def write (r : ℚ → ℚ) (d : Date) (els : List El) : Header × List Rec :=
  (⟨d.day, d.month, d.year, d.hour, d.minute, r (current d), els.length⟩, els.map (record r d))

end Verif.OutFiles.BinFile
