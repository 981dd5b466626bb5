import Mathlib.Algebra.Order.Field.Rat

/-!
# Year data of tides

Source: `py_gnome/lib_gnome/ShioTimeValue_c.cpp` `ReadYearData` (1617-1717), `GetTimeValue` (454-460, 521-541);
`py_gnome/gnome/environment/tide.py` `_get_shio_yeardata_limits` (25-31), `data_start`, `data_stop` (110-122), `yeardata` (130-143).

Simplifications: a year file is the list of its pairs (XODE, VPU), and the files do not change. A time is a year and the seconds since the
start of it. The curves that a station has computed before are not modelled (C162).
-/
namespace Verif.Shio.Year

/-- Pairs of a year file -/
abbrev Data := List (ℚ × ℚ)

/-- The files: what is in the file of a year in a folder -/
abbrev Files := String → Int → Option Data

/-- `gYearDataHdl1990Plus2`: the years that are kept by the process -/
abbrev Kept := List (Int × Data)

/-- The years that may be kept: 30 from 1990 (ShioTimeValue_c.h 25) -/
def keeps (year : Int) : Bool := 0 ≤ year - 1990 && year - 1990 < 30

def kept (k : Kept) (year : Int) : Option Data := (k.find? (·.1 = year)).map (·.2)

/-- `ReadYearData`: what is kept for the year, whatever the folder; otherwise at most 128 pairs of the file, which are then kept. -/
def readYear (files : Files) (k : Kept) (path : String) (year : Int) : Option Data × Kept :=
  match (if keeps year then kept k year else none) with
  | some d => (some d, k)
  | none =>
    match files path year with
    | none => (none, k)
    | some d => (some (d.take 128), if keeps year then (year, d.take 128) :: k else k)

/-- A time: year and seconds since its start -/
structure T where
  year : Int
  sec : Nat
  deriving DecidableEq, Repr

/-- The year of `beginDate` (454): the day six hours before -/
def beginYear (t : T) : Int := if 6 * 3600 ≤ t.sec then t.year else t.year - 1

/-- The year data with which a tide answers (521-525); `none`: error. -/
def answer (files : Files) (k : Kept) (path : String) (t : T) : Option Data × Kept := readYear files k path (beginYear t)

/-- Requests to tides of a process, one after the other -/
def answers (files : Files) : Kept → List (String × T) → List (Option Data)
  | _, [] => []
  | k, (p, t) :: r => (answer files k p t).1 :: answers files (answer files k p t).2 r

/-- `data_start` and `data_stop` of a tide, from the years of the files in the folder of the package (25-31, 110-122): the start of the first year, and a
minute before the end of the last one. -/
def dataStart (years : List Int) (y : Int) : T := ⟨years.foldl min y, 0⟩
def dataStop (years : List Int) (y : Int) (secsOfYear : Int → Nat) : T := ⟨years.foldl max y, secsOfYear (years.foldl max y) - 60⟩

/-- Order of times -/
def T.le (a b : T) : Prop := a.year < b.year ∨ (a.year = b.year ∧ a.sec ≤ b.sec)

end Verif.Shio.Year
