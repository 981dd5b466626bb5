import Mathlib.Algebra.Order.Field.Rat
import Mathlib.Tactic.NormNum

/-!
# Tide station files

Source: `py_gnome/lib_gnome/ShioTimeValue_c.cpp` `GetKeyedLine` (75-86), `GetKeyedValue` (88-189), `ReadShioValues` (1427-1610);
called by `CyShioTime._read_time_values` (`cy_shio_time.pyx:96-115`), which raises if the result is not 0.

Simplifications: a line is its key (up to and with `=`, or a section header) and the text behind it; keys are
compared as they are (the code ignores case and compares only the length of the key).  What a text stands for
is a parameter (`parse`, with `none` for `StringToDouble` = -1 and the errors -1 to -5 of the other readers).
Values that are not read keep the 0 of `InitInstanceVariables`; for the latitude and longitude the code uses
uninitialised variables.
-/

namespace Verif.Shio.File

/-- A line of the file. -/
structure Line where
  key : String
  text : String
  deriving DecidableEq, Repr

/-- What is expected on a line: a section header or name (checked by `!(p = GetKeyedLine …)`), or a value
(checked by `(err = GetKeyedValue …) > 0`). -/
inductive Item
  | header (key : String)
  | value (key : String)
  deriving DecidableEq, Repr

/-- `GetKeyedLine` (75-86) on line `n`; behind the end of the file the line is empty. -/
def keyedLine (f : List Line) (key : String) (n : Nat) : Option String :=
  match f[n]? with
  | some l => if l.key = key then some l.text else none
  | none => none

/-- `GetKeyedValue` (128-189): the error, 0 or negative, and the value. -/
def keyedValue (parse : String → Option ℚ) (f : List Line) (key : String) (n : Nat) : Int × ℚ :=
  match keyedLine f key n with
  | none => (-1, 0)
  | some s =>
    match parse s with
    | none => (-1, 0)
    | some v => (0, v)

/-- A sequence of lines of `ReadShioValues` from line `n` on: the values read; `none` is `readError`. -/
def readItems (parse : String → Option ℚ) (f : List Line) : Nat → List Item → Option (List (String × ℚ))
  | _, [] => some []
  | n, .header k :: l =>
    match keyedLine f k n with
    | none => none
    | some _ => readItems parse f (n + 1) l
  | n, .value k :: l =>
    let r := keyedValue parse f k n
    if r.1 > 0 then none
    else (readItems parse f (n + 1) l).map ((k, r.2) :: ·)

/-- The lines of a station of heights before the datum (1487-1531; the second line says which type it is). -/
def heightHead : List Item :=
  [.header "[StationInfo]", .header "Type=", .header "Name=", .value "Latitude=", .value "Longitude=", .header "[Constituents]"]

/-- The datum lines (1535-1551). -/
def datumLines : List Item :=
  [.value "DatumControls.datum=", .value "DatumControls.FDir=", .value "DatumControls.EDir=", .value "DatumControls.L2Flag=",
   .value "DatumControls.HFlag=", .value "DatumControls.RotFlag="]

/-- The rest (1553-1558, 1579-1586). -/
def heightTail : List Item :=
  [.value "H=", .value "kPrime=", .header "[Offset]", .value "HighTime=", .value "LowTime=", .value "HighHeight_Mult=",
   .value "HighHeight_Add=", .value "LowHeight_Mult=", .value "LowHeight_Add="]

/-- `ReadShioValues` for a station of heights (1427-1610): the datum lines are left out if the first of them gives an
error (1535-1546), that is, a positive one. -/
def readHeights (parse : String → Option ℚ) (f : List Line) : Option (List (String × ℚ)) :=
  if (keyedValue parse f "DatumControls.datum=" 6).1 > 0 then readItems parse f 0 (heightHead ++ heightTail)
  else readItems parse f 0 (heightHead ++ datumLines ++ heightTail)

end Verif.Shio.File
