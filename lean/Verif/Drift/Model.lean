import Mathlib.Algebra.Order.Field.Rat

/-!
# Drifting ships

Source: `py_gnome/gnome/movers/ship_drift_mover.py` `ShipDriftMover.get_move` (193-228), `wind_scale` (109-110), `drift_angle` (77).

Simplifications: displacements in metres (the conversion to degrees comes after); an element is whether it is in water, its
windage and the wind at its place.
-/
namespace Verif.Drift

/-- An element. -/
structure El where
  inWater : Bool
  windage : ℚ
  u : ℚ
  v : ℚ
  deriving DecidableEq

/-- `a[mask] = x` for arrays: raises (`none`) unless there are as many values as places, or one. -/
def maskSet (mask : List Bool) (a x : List ℚ) : Option (List ℚ) :=
  if x.length = mask.countP id then some (go mask a x)
  else match x with
    | [y] => some (go mask a (mask.map fun _ => y))
    | _ => none
where
  go : List Bool → List ℚ → List ℚ → List ℚ
    | true :: m, _ :: a, x :: xs => x :: go m a xs
    | false :: m, b :: a, xs => b :: go m a xs
    | _, a, _ => a

/-- `a[mask]`. -/
def maskGet (mask : List Bool) (a : List ℚ) : List ℚ := ((mask.zip a).filter Prod.fst).map Prod.snd

/-- `a[mask] *= w`: `a[mask]` is multiplied in place, so `w` must have its length, or one. -/
def maskMul (mask : List Bool) (a w : List ℚ) : Option (List ℚ) :=
  let b := maskGet mask a
  if w.length = b.length then maskSet mask a (List.zipWith (· * ·) b w)
  else match w with
    | [y] => maskSet mask a (b.map (· * y))
    | _ => none

/-- `get_move` (193-228). The scale of the wind and the angle of the drift are not used. -/
def getMove (active : Bool) (_scale _angle : ℚ) (dt : ℚ) (es : List El) : Option (List (ℚ × ℚ)) := do
  let zero := es.map fun _ => (0 : ℚ)
  if active ∧ es ≠ [] then
    let mask := es.map El.inWater
    let lat ← maskSet mask zero (es.map fun e => e.v * dt)
    let lon ← maskSet mask zero (es.map fun e => e.u * dt)
    let lat ← maskMul mask lat (es.map El.windage)
    let lon ← maskMul mask lon (es.map El.windage)
    return lon.zip lat
  else return zero.zip zero

end Verif.Drift
