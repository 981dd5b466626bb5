import Verif.Shio.HarmModel
import Mathlib.Analysis.SpecialFunctions.Trigonometric.Arctan

/-!
# Currents of rotary stations

Source: `py_gnome/lib_gnome/ShioCurrent2.cpp` `RStatCurrentRot` (2486-2862), `GetVelDir` (1335-1375), `getVector` (1295-1331),
`rotateVector` (2085-2106); `py_gnome/lib_gnome/ShioCurrent1.cpp` `FixAngle` (1729-1753), `GetCDirec` (2154-2175).

Simplifications: real numbers; the factor 0.017453293 from degrees to radians of `getVector` is taken as π / 180.
-/
namespace Verif.Shio.Rotary

open Verif.Shio.Harm

/-- `FixAngle`: from degrees clockwise from north to degrees counterclockwise from east -/
def fixAngle (a : Int) : Int :=
  if 0 ≤ a ∧ a ≤ 90 then 90 - a
  else if 90 < a ∧ a ≤ 180 then 450 - a
  else if 180 < a ∧ a ≤ 270 then 450 - a
  else if 270 < a ∧ a ≤ 360 then 450 - a
  else 0

/-- `GetCDirec`: flood and ebb directions of the file, as angles; `none`: error 33 -/
def cDirec (fdir edir : Int) : Option (Int × Int) :=
  if fixAngle fdir < 0 ∨ fixAngle fdir > 360 then none
  else if fixAngle edir < 0 ∨ fixAngle edir > 360 then none
  else if fixAngle fdir = fixAngle edir then none
  else some (fixAngle fdir, fixAngle edir)

/-- `getVector`: the unit vector of an angle -/
noncomputable def vec (a : Int) : ℝ × ℝ := (Real.cos (a * (Real.pi / 180)), Real.sin (a * (Real.pi / 180)))

/-- `GetVelDir`: 1 flood, -1 ebb, 0 undetermined -/
noncomputable def velDir (f e : Int) (u v : ℝ) : Int :=
  if u * (vec f).1 + v * (vec f).2 > 0 ∧ u * (vec e).1 + v * (vec e).2 < 0 then 1
  else if u * (vec f).1 + v * (vec f).2 < 0 ∧ u * (vec e).1 + v * (vec e).2 > 0 then -1
  else 0

/-- `rotateVector` -/
noncomputable def rotate (deg : ℝ) (p : ℝ × ℝ) : ℝ × ℝ :=
  (Real.cos (deg * (Real.pi / 180)) * p.1 + Real.sin (deg * (Real.pi / 180)) * p.2,
   -Real.sin (deg * (Real.pi / 180)) * p.1 + Real.cos (deg * (Real.pi / 180)) * p.2)

/-- The two parts of the constituents: (second half, first half), that is (east, north) or (minor, major), with the datum added to
both (2662-2700). -/
noncomputable def parts (datum : ℝ) (cs : List Con) (t : ℝ) : ℝ × ℝ :=
  (datum + total t (cs.drop (cs.length / 2)), datum + total t (cs.take (cs.length / 2)))

/-- East and north components of the velocity (2708-2743); `mm`: `RotFlag == 2`, major and minor axes. -/
noncomputable def velocity (mm : Bool) (f : Int) (p : ℝ × ℝ) : ℝ × ℝ := if mm then rotate (90 - f) p else p

/-- `*vmajor`: zero for stations with east and north components (2642, 2711) -/
noncomputable def major (mm : Bool) (p : ℝ × ℝ) : ℝ := if mm then p.2 else 0

/-- `absoluteCurrentValue` (2704) -/
noncomputable def speed (p : ℝ × ℝ) : ℝ := Real.sqrt (p.1 * p.1 + p.2 * p.2)

/-- The angle of a vector, between 0 and 360 (2835-2845) -/
noncomputable def angle (u v : ℝ) : ℝ :=
  let a := (if u ≠ 0 then (if u < 0 then Real.arctan (v / u) + Real.pi else Real.arctan (v / u))
    else if v < 0 then Real.pi + Real.pi / 2 else Real.pi / 2) * (180 / Real.pi)
  if a < 0 then 360 + a else a

/-- The sign when the directions do not tell (2801-2859): with the last two values, or else from the major axis or the angles. -/
noncomputable def undetermined (mm : Bool) (f e : Int) (hist : Option (ℝ × ℝ)) (p w : ℝ × ℝ) : ℝ :=
  match hist with
  | some (two, last) =>
    let c := speed p * (if last ≥ 0 then 1 else -1)
    if |last| - |two| ≤ 0 ∧ speed p - |last| ≥ 0 then -c else c
  | none =>
    if mm then (if p.2 ≥ 0 then speed p else -speed p)
    else if |(e : ℝ) - angle w.1 w.2| ≤ |(f : ℝ) - angle w.1 w.2| then -speed p else speed p

/-- `RStatCurrentRot`: the value of the current and the velocity; `hist`: the value before last and the last, if known (not 999). -/
noncomputable def current (mm : Bool) (fdir edir : Int) (hist : Option (ℝ × ℝ)) (p : ℝ × ℝ) : Option (ℝ × (ℝ × ℝ)) :=
  match cDirec fdir edir with
  | none => none
  | some (f, e) =>
    let w := velocity mm f p
    let d := velDir f e w.1 w.2
    some (if d = 1 ∧ major mm p ≥ 0 then speed p
      else if d = -1 ∧ major mm p ≤ 0 then -speed p
      else undetermined mm f e hist p w, w)

end Verif.Shio.Rotary
