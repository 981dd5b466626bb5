import Mathlib.Analysis.SpecialFunctions.Trigonometric.Basic
/-!
# Model of maps with a straight shore

Source: `/repo/py_gnome/gnome/maps/map.py` `ParamMap` 472-545 (`__init__`, `build`, `distance`), 724-738 (`update_from_dict`); `/repo/py_gnome/gnome/utilities/projections.py` 356-396 (`meters_to_lonlat`).

Simplifications: real numbers; a unit of length is the number of its metres; whether a point is in the polygon of the land or of the bounds is in `Verif/Geom` and `Verif/MapStep`.
-/
namespace Verif.MapQ.Param

abbrev Pt := ℝ × ℝ

/-- degrees of latitude in a metre (projections.py 394) -/
noncomputable def degPerMetre : ℝ := 0.0000089992801

/-- `np.deg2rad` -/
noncomputable def rad (x : ℝ) : ℝ := x * (Real.pi / 180)

/-- A map: centre, distance in metres, bearing, metres of its unit, polygons of the land and of the bounds. -/
structure PMap where
  center : Pt
  dist : ℝ
  bearing : ℝ
  unit : ℝ
  land : List Pt
  bounds : List Pt

/-- the distance to the east in degrees: `meters_to_lonlat((distance, 0, 0), center)[0][0]` 521-522 -/
noncomputable def degrees (dist lat : ℝ) : ℝ := dist * degPerMetre / Real.cos (rad lat)

/-- a point turned by `ang` and moved to the centre 527-532 -/
noncomputable def put (ang : ℝ) (c p : Pt) : Pt := (p.1 * Real.cos ang - p.2 * Real.sin ang + c.1, p.1 * Real.sin ang + p.2 * Real.cos ang + c.2)

open Classical in
/-- `build` 502-541, `none`: ValueError -/
noncomputable def build (center : Pt) (dist bearing unit : ℝ) : Option PMap :=
  if dist * unit < 30 then none
  else if 360 < |center.1| ∨ 90 < |center.2| then none
  else
    let d := degrees (dist * unit) center.2
    some
      { center := center
        dist := dist * unit
        bearing := bearing
        unit := unit
        land := [(d, -16 * d), (d, 16 * d), (16 * d, 16 * d), (16 * d, -16 * d)].map (put (rad (90 - bearing)) center)
        bounds := [(-16 * d, -16 * d), (-16 * d, 16 * d), (16 * d, 16 * d), (16 * d, -16 * d)].map fun p => (p.1 + center.1, p.2 + center.2) }

/-- the distance in the units of the map 543-545 -/
noncomputable def PMap.distance (m : PMap) : ℝ := m.dist / m.unit

/-- `update_from_dict` with at least one of these given 724-734: the others are as they were -/
noncomputable def PMap.update (m : PMap) (center : Option Pt) (dist bearing unit : Option ℝ) : Option PMap :=
  build (center.getD m.center) (dist.getD m.distance) (bearing.getD m.bearing) (unit.getD m.unit)

end Verif.MapQ.Param
