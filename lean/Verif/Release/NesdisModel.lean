import Mathlib.Data.Rat.Defs

/-!
# Releases from satellite images (NESDIS shapefiles)

Source: `py_gnome/gnome/spills/release.py` `NESDISRelease` (1209-1303).

Simplifications: of a polygon we have its attributes `DATE`, `TIME` and `OILTYPE`; the date is the number of a day, if it is of the form month/day/year;
times of day are texts of ASCII characters; times are whole seconds. The shapes are those of a polygon release (`Verif.Place`).
-/
namespace Verif.Release.Nesdis

/-- The attribute `DATE`: missing or empty, of another form than `%m/%d/%Y`, or a day. -/
inductive DateAttr
  | missing
  | other
  | day (d : Nat)
  deriving DecidableEq

/-- A polygon of the file. -/
structure Feat where
  date : DateAttr
  time : List Char
  oil : String

/-- The digits of a text (1277: `isdigit`). -/
def digits (t : List Char) : List Nat := (t.filter Char.isDigit).map fun c => c.toNat - 48

/-- The ways in which `%H` of `strptime` matches, in the order in which they are tried: `2[0-3]|[0-1]\d|\d`. -/
def hourWays : List Nat → List (Nat × List Nat)
  | [] => []
  | [a] => [(a, [])]
  | a :: b :: r => (if a = 2 ∧ b ≤ 3 then [(20 + b, r)] else []) ++ ((if a ≤ 1 then [(10 * a + b, r)] else []) ++ [(a, b :: r)])

/-- The same of `%M`: `[0-5]\d|\d`. -/
def minuteWays : List Nat → List (Nat × List Nat)
  | [] => []
  | [a] => [(a, [])]
  | a :: b :: r => (if a ≤ 5 then [(10 * a + b, r)] else []) ++ [(a, b :: r)]

/-- The first match of `%H%M`: hours, minutes and what is left. -/
def firstMatch (l : List Nat) : Option (Nat × Nat × List Nat) :=
  (hourWays l).findSome? fun h => (minuteWays h.2).head?.map fun m => (h.1, m.1, m.2)

/-- `strptime` with `%H%M` (1281): nothing may be left. -/
def clock (l : List Nat) : Option (Nat × Nat) :=
  match firstMatch l with
  | some (h, m, []) => some (h, m)
  | _ => none

/-- The time in the attributes of a polygon (1273-1283), if it can be read. -/
def stamp (f : Feat) : Option Int :=
  match f.date with
  | .day d => if f.time = [] then none else (clock (digits f.time)).map fun c => ((d * 86400 + c.1 * 3600 + c.2 * 60 : Nat) : Int)
  | _ => none

/-- A polygon after loading: its time and its thickness in micrometers. -/
structure Loaded where
  time : Int
  microns : Nat
  deriving DecidableEq

/-- The loop of `load_nesdis` (1270-1288): a time that was read stays for the polygons after it. -/
def loop : Int → List Feat → List Loaded
  | _, [] => []
  | t, f :: r =>
    let t' := (stamp f).getD t
    ⟨t', if f.oil.toLower = "thick" then 50 else 5⟩ :: loop t' r

/-- `load_nesdis` (1257-1290). -/
def loadNesdis (now : Int) (given : Option Int) (fs : List Feat) : List Loaded := loop (given.getD now) fs

/-- The release of a file (1244-1255): its begin, its end and its polygons; `none` = an exception (`features[0]`). -/
def fromFile (now : Int) (given : Option Int) (fs : List Feat) : Option (Int × Int × List Loaded) :=
  match loadNesdis now given fs with
  | [] => none
  | a :: r => some (a.time, a.time, a :: r)

end Verif.Release.Nesdis
