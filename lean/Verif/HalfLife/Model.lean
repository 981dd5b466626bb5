import Mathlib.Analysis.SpecialFunctions.Pow.Real

/-!
Half-lives: refloating from land (py_gnome/gnome/maps/map.py 1116-1154, the
same in `ParamMap` 687-722) and `HalfLifeWeatherer`
(py_gnome/gnome/weatherers/core.py 92-97, 159-209).

Real numbers for floats; a zero half-life of the weatherer (0.5 ** inf = 0 in
floats) is left out by `0 < h`.
-/

namespace Verif.HalfLife

/-- `refloat_probability` (map.py 1136-1137, 704-705), half-life in seconds. -/
noncomputable def refloatProb (h dt : ℝ) : ℝ := 1 - (1 / 2) ^ (dt / h)

/-- An element on land with random number `u` is refloated in a step of `dt`
seconds (map.py 1132-1147). -/
def Floats (h dt u : ℝ) : Prop := (0 < h → u ≤ refloatProb h dt) ∧ ¬ h < 0

/-- An element on land is still there after steps `dts` with random numbers
`us`. -/
def Stays (h : ℝ) {n : Nat} (dts us : Fin n → ℝ) : Prop := ∀ i, ¬ Floats h (dts i) (us i)

/-- `_halflife` for one row of mass components (core.py 92-97) with numpy's
broadcasting against `half_lives`, and the assignment to the row (205). `none`:
ValueError. -/
noncomputable def decay (hs : List ℝ) (dt : ℝ) (ms : List ℝ) : Option (List ℝ) :=
  match hs with
  | [h] => some (ms.map (fun m => m * (1 / 2) ^ (dt / h)))
  | _ => if hs.length = ms.length then some (List.zipWith (fun m h => m * (1 / 2) ^ (dt / h)) ms hs) else none

/-- An element: its components and their sum (core.py 205-206). -/
structure El where
  comps : List ℝ
  mass : ℝ

/-- One call of `HalfLifeWeatherer.weather_elements` (core.py 192-209) for one
element of the view. -/
noncomputable def weather (hs : List ℝ) (dt : ℝ) (e : El) : Option El :=
  (decay hs dt e.comps).map (fun c => ⟨c, c.sum⟩)

/-- A sequence of calls. -/
noncomputable def weathers (hs : List ℝ) : List ℝ → El → Option El
  | [], e => some e
  | dt :: dts, e => (weather hs dt e).bind (weathers hs dts)

end Verif.HalfLife
