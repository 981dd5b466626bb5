import Mathlib.Analysis.SpecialFunctions.Trigonometric.Inverse
import Mathlib.Analysis.SpecialFunctions.Complex.Arg
/-!
# Model of the point at a distance and bearing on the sphere

Source: `/repo/py_gnome/gnome/utilities/projections.py` `FlatEarthProjection.geodesic_sphere` 441-484.

Simplifications: real numbers; `np.arctan2(y, x)` is the argument of `x + i y`.
-/
namespace Verif.Geom.Great

/-- the radius of the earth of 464, in metres -/
noncomputable def earthRadius : ℝ := 6366706.989

/-- `np.deg2rad` -/
noncomputable def rad (x : ℝ) : ℝ := x * (Real.pi / 180)

/-- `np.rad2deg` -/
noncomputable def deg (x : ℝ) : ℝ := x * (180 / Real.pi)

/-- `np.arctan2` -/
noncomputable def arctan2 (y x : ℝ) : ℝ := Complex.arg ⟨x, y⟩

/-- the latitude reached, in radians 474-475; all in radians -/
noncomputable def latOut (lat δ β : ℝ) : ℝ := Real.arcsin (Real.sin lat * Real.cos δ + Real.cos lat * Real.sin δ * Real.cos β)

/-- the longitude reached 476-478; all in radians -/
noncomputable def lonOut (lon lat δ β : ℝ) : ℝ :=
  lon + arctan2 (Real.sin β * Real.sin δ * Real.cos lat) (Real.cos δ - Real.sin lat * Real.sin (latOut lat δ β))

/-- `geodesic_sphere(lon, lat, distance, bearing)` 441-484: longitude and latitude in degrees -/
noncomputable def geodesicSphere (lon lat distance bearing : ℝ) : ℝ × ℝ :=
  let δ := distance / earthRadius
  (deg (lonOut (rad lon) (rad lat) δ (rad bearing)), deg (latOut (rad lat) δ (rad bearing)))

end Verif.Geom.Great
