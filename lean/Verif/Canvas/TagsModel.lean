import Verif.Canvas.Model
/-!
# Model of the labels of grid lines

Source: `/repo/py_gnome/gnome/utilities/map_canvas.py` `GridLines.get_tags` 690-739 (lines: `Verif.Canvas.Model`).

Simplifications: numbers are rational, so a decimal exactly between two hundredths goes to the even one and a line at 60 minutes is at 60 minutes.
`LatLongConverter.ToDegMinSec` (package `nucos`, not in the repository) is taken as whole degrees and minutes of the absolute value and the rest in seconds; only
its absolute degrees are used. A label is the numbers that are printed in it; a negative number that is rounded to nothing is printed as `-0.00`.
-/
namespace Verif.Canvas.Tags

inductive Hemi
  | E | W | N | S
deriving DecidableEq, Repr

/-- the label of a line: hundredths of a degree with a sign, or degrees, minutes and seconds with a letter -/
inductive Label
  | dec (neg : Bool) (hundredths : Nat)
  | dms (d m s : Int) (h : Hemi)
deriving DecidableEq, Repr

/-- `"{0:.2f}".format(value)` 711 -/
def dec (v : ℚ) : Label := .dec (decide (v < 0)) (pyRound (100 * v)).natAbs

/-- `ToDegMinSec` of the absolute value -/
def degOf (v : ℚ) : Int := ⌊|v|⌋
def minOf (v : ℚ) : Int := ⌊(|v| - degOf v) * 60⌋
def secOf (v : ℚ) : ℚ := ((|v| - degOf v) * 60 - minOf v) * 60

/-- 716-722: whole seconds; 60 of them are carried to the minutes -/
def dms (v : ℚ) (h : Hemi) : Label :=
  if pyRound (secOf v) = 60 then .dms (degOf v) (minOf v + 1) 0 h else .dms (degOf v) (minOf v) (pyRound (secOf v)) h

/-- 703-713: the letter of a vertical or horizontal line -/
def hemi (vert : Bool) (v : ℚ) : Hemi := if vert then (if 0 < v then .E else .W) else (if 0 < v then .N else .S)

/-- the label and the point where it is put 711-737 -/
def tag (isDms : Bool) (im : Image) (vert : Bool) (v : ℚ) : Label × Pt :=
  (if isDms then dms v (hemi vert v) else dec v,
    if hemi vert v = .E ∨ hemi vert v = .W then (v, im.hi.2) else (im.lo.1, v))

/-- `get_tags` 690-739, lines as returned by `get_lines`: the vertical ones first. `max_lines = 0` gives none. -/
def tags (isDms : Bool) (maxLines : Nat) (im : Image) : List (Label × Pt) :=
  if maxLines = 0 then []
  else
    let s := refresh (if isDms then dmsSteps else degSteps) maxLines im
    (vertical s im).map (fun l => tag isDms im true l.1) ++ (horizontal s im).map (fun l => tag isDms im false l.1)

end Verif.Canvas.Tags
