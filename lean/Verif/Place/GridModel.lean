import Mathlib.Analysis.Real.Sqrt
import Mathlib.Data.Rat.Defs
import Mathlib.Algebra.Order.Field.Rat

/-!
# Releases at given positions and on a grid

Model of `Release.initialize_elements` (`gnome/spills/release.py` 446-472) and of `GridRelease` (1027-1165).

Simplifications: rationals instead of floats, real numbers for the resolution; `round` is any function to the integers that is off by at most a half;
the cosine of the latitude is a number given.
-/

namespace Verif.Place

/-- The positions of `n` new elements of a `Release` (`gnome/spills/release.py` 453-466): the custom positions as often as they fit, then some of them at
random; `draws` are the random indices. `none` when there are no positions. -/
def customPositions {α : Type} (pos : List α) (n : Nat) (draws : List Nat) : Option (List α) :=
  if pos = [] then none
  else some ((List.replicate (n / pos.length) pos).flatten ++ draws.filterMap fun i => pos[i]?)

/-- What `np.random.randint(0, len, rem)` can return. -/
def Draws {α : Type} (pos : List α) (n : Nat) (draws : List Nat) : Prop :=
  draws.length = n % pos.length ∧ ∀ i ∈ draws, i < pos.length

/-! ## Grids -/

/-- `np.linspace(a, b, n)`. -/
def linspace (a b : ℚ) (n : Nat) : List ℚ := (List.range n).map fun i : Nat => if n = 1 then a else a + (b - a) / ((n : ℚ) - 1) * (i : ℚ)

/-- Bounds: smallest longitude and latitude, largest longitude and latitude. -/
structure Box where
  x0 : ℚ
  y0 : ℚ
  x1 : ℚ
  y1 : ℚ

/-- `_compute_grid_points` (1147-1155). -/
def gridPoints (b : Box) (rx ry : Nat) : List (ℚ × ℚ × ℚ) :=
  (linspace b.y0 b.y1 ry).flatMap fun y => (linspace b.x0 b.x1 rx).map fun x => (x, y, 0)

/-- `centroid` (1157-1161). -/
def Box.centroid (b : Box) : ℚ × ℚ × ℚ := ((b.x0 + b.x1) / 2, (b.y0 + b.y1) / 2, 0)

/-- `num_elements` (1071-1074). -/
def gridCount (rx ry : Nat) : Nat := rx * ry

/-- `initialize_elements` (1096-1127) without `retain_initial_positions`: the positions of the last `n` elements; numpy refuses to assign other than `n`
positions, unless it is one. -/
def gridInit (b : Box) (rx ry n : Nat) : Option (List (ℚ × ℚ × ℚ)) :=
  let p := gridPoints b rx ry
  if p.length = n then some p else if p.length = 1 then some ((List.replicate n p).flatten) else none

/-- `_compute_resolution` (1131-1145): `width` is already multiplied by the cosine. `none` for a `ZeroDivisionError`. -/
noncomputable def resolution (rnd : ℝ → ℤ) (width height : ℝ) (avg : ℕ) : Option (ℤ × ℤ) :=
  let ry := Real.sqrt (height / width) * avg
  let rx := rnd ((avg : ℝ) ^ 2 / ry)
  if rx = 0 then none else some (rx, rnd ((avg : ℝ) ^ 2 / rx))

end Verif.Place
