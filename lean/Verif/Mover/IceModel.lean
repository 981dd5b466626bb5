import Verif.Mover.MoveModel

/-!
# Currents and winds in ice

Model of `IceAwareCurrent.at` and `IceAwareWind.at` (`gnome/environment/environment_objects.py` 872-905, 947-984).

Simplifications: exact real arithmetic; the values of the concentration, of the water, of the ice and of the wind at the points are
arguments (they come from the `gridded` library, which is not part of the repository); none is NaN.
-/

namespace Verif.Mover

/-- A point: concentration of ice, velocity of the water (or of the wind), velocity of the ice. -/
structure IcePt where
  c : ℝ
  w : V
  ice : V

/-- `ice_vel_factor` (887-894, 965-972). -/
noncomputable def iceFactor (c : ℝ) : ℝ := if 8 / 10 ≤ c then 1 else if c < 2 / 10 then 0 else ((c - 2 / 10) * 10) / 6

/-- `IceAwareCurrent.at`, 875-905: one velocity for each point. -/
noncomputable def iceCurrent (pts : List IcePt) : List V :=
  haveI := Classical.propDecidable (∃ p ∈ pts, 2 / 10 ≤ p.c)
  if ∃ p ∈ pts, 2 / 10 ≤ p.c then pts.map fun p => p.w + iceFactor p.c • (p.ice - p.w) else pts.map IcePt.w

/-- `wind_v[wind_v < min_val] = min_val`, 961. -/
noncomputable def clampMin (m : ℝ) (v : V) : V :=
  (if v.1 < m then m else v.1, if v.2.1 < m then m else v.2.1, if v.2.2 < m then m else v.2.2)

/-- `IceAwareWind.at`, 956-984. -/
noncomputable def iceWind (minVal : ℝ) (pts : List IcePt) : List V :=
  haveI := Classical.propDecidable (∃ p ∈ pts, 2 / 10 ≤ p.c)
  if ∃ p ∈ pts, 2 / 10 ≤ p.c then
    pts.map fun p => (1 - iceFactor p.c) • (if 8 / 10 ≤ p.c then 0 else clampMin minVal p.w)
  else pts.map fun p => clampMin minVal p.w

end Verif.Mover
