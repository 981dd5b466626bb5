import Mathlib.Analysis.SpecialFunctions.Trigonometric.Basic
import Mathlib.Analysis.Real.Sqrt
import Mathlib.Data.Rat.Floor
import Mathlib.Algebra.Order.Floor.Ring

/-!
# Height and current of a reference station from its constituents

Source: `py_gnome/lib_gnome/ShioHeight.cpp` `RStatHeight` (1562-1712), `GetReferenceCurve` (1279-1282, 1335, 1346);
`py_gnome/lib_gnome/ShioCurrent2.cpp` `RStatCurrent` (2317-2480), `GetRefCurrent` (405-407, 541, 585).

Simplifications: real numbers. A station has as many constituents as its arrays (`ReadShioValues` reads numConstituents of them);
`RStatHeight` reads at least 37 of them whether there are so many or not, which is not modelled.
-/
namespace Verif.Shio.Harm

/-- The speeds of the constituents in degrees per hour (ShioHeight.cpp 1575-1688, and the same in ShioCurrent2.cpp 2333-2446). -/
def freq : List ℚ :=
  [28.9841042, 30.0000000, 28.4397295, 15.0410686, 57.9682084, 13.9430356, 86.9523127, 44.0251729, 60.0000000,
   57.4238337, 28.5125831, 90.0000000, 27.9682084, 27.8953548, 16.1391017, 29.4556253, 15.0000000, 14.4966939,
   15.5854433, 0.5443747, 0.0821373, 0.0410686, 1.0158958, 1.0980331, 13.4715145, 13.3986609, 29.9589333,
   30.0410667, 12.8542862, 14.9589314, 31.0158958, 43.4761563, 29.5284789, 42.9271398, 30.0821373, 115.9364169,
   58.9841042, 12.9271398, 14.0251729, 14.5695476, 15.9748272, 16.0569644, 30.5443747, 27.4238337, 28.9019669,
   29.0662415, 26.8794590, 26.9523126, 27.4966873, 31.0980331, 27.8039338, 28.5947204, 29.1483788, 29.3734880,
   30.7086493, 43.9430356, 45.0410686, 42.3827651, 59.0662415, 58.4397295, 57.4966873, 56.9523127, 58.5125831,
   56.8794590, 59.5284789, 71.3668693, 71.9112440, 73.0092770, 74.0251728, 74.1073100, 72.9271398, 71.9933813,
   72.4649023, 88.9841042, 86.4079380, 87.4238337, 87.9682084, 85.3920421, 85.8635632, 88.5125831, 87.4966873,
   89.0662415, 85.9364168, 86.4807916, 88.0503457, 100.3509735, 100.9046318, 101.9112440, 103.0092771, 116.4079380,
   116.9523127, 117.9682084, 114.8476674, 115.3920422, 117.4966873, 115.4648958, 116.4807916, 117.0344500, 118.0503457,
   129.8887360, 130.4331108, 130.9774855, 131.9933813, 144.3761464, 144.9205211, 145.3920422, 145.9364169, 146.4807916,
   146.9523127, 160.9774855, 174.3761464, 174.9205211, 175.4648958, 175.9364169]

/-- A constituent of a station: amplitude `H` and phase `kPrime` of the station, corrections `XODE` and `VPU` of the year. -/
structure Con where
  h : ℝ
  k : ℝ
  x : ℝ
  v : ℝ

/-- `AMPAPtr[i]` (ShioHeight.cpp 1280) -/
noncomputable def Con.amp (c : Con) : ℝ := c.h * c.x

/-- `epochPtr[i]` (1281) -/
noncomputable def Con.epoch (c : Con) : ℝ := c.v - c.k

/-- The part of a number before the point, as C does. -/
noncomputable def trunc (x : ℝ) : Int := if 0 ≤ x then ⌊x⌋ else ⌈x⌉

/-- `fmod(degrees, 360.0)` -/
noncomputable def fmod (d : ℝ) : ℝ := d - 360 * trunc (d / 360)

/-- `DegreesToRadians` (1690) -/
noncomputable def degToRad : ℝ := 0.01745329252

/-- What a constituent adds (1700-1707): nothing when its amplitude is zero. -/
noncomputable def term (t : ℝ) (p : ℚ × Con) : ℝ :=
  if p.2.amp ≠ 0 then p.2.amp * Real.cos (fmod (p.1 * t + p.2.epoch) * degToRad) else 0

/-- The loop over the constituents -/
noncomputable def total (t : ℝ) (cs : List Con) : ℝ := ((freq.zip cs).map (term t)).sum

/-- `RStatHeight`: `ncoeff` is kept between 37 and 114 (1696-1697). -/
noncomputable def height (datum : ℝ) (cs : List Con) (t : ℝ) : ℝ :=
  total t (cs.take (min (max cs.length 37) 114)) + datum

/-- The root of a hydraulic station, with the sign of its argument (2466-2473) -/
noncomputable def root (c : ℝ) : ℝ := if c > 0 then Real.sqrt c else if c < 0 then -Real.sqrt (-c) else c

/-- `RStatCurrent`; `hyd`: `CFlag == 1`. -/
noncomputable def current (hyd : Bool) (ref : ℝ) (cs : List Con) (t : ℝ) : ℝ :=
  ref + if hyd then root (total t cs) else total t cs

end Verif.Shio.Harm
