import Verif.PointWind.Model

/-! # What a row of wind data means -/

namespace Verif.PointWind

open Verif.TSeries (TV)

/-- Scaling a speed scales the velocity: true of any change from polar coordinates. -/
def Homog (P : Polar) : Prop :=
  ∀ (k r th : ℚ) (x : ℚ × ℚ), 0 < k → P.toUV (r, th) = some x →
    P.toUV (r * k, th) = some (x.1 * k, x.2 * k)

/-- The velocity `p` is what the row `r`, in the given coordinates (`uv` or speed and
direction) and a unit of factor `f`, says. -/
def Means (P : Polar) (uv : Bool) (f : ℚ) (r : Row) (p : TV) : Prop :=
  p.time = r.time ∧
    ∃ x : ℚ × ℚ, (if uv then x = (r.a, r.b) else P.toUV (r.a, r.b) = some x) ∧
      p.u = x.1 * f ∧ p.v = x.2 * f

/-- All rows, in order. -/
def Describes (P : Polar) (uv : Bool) (f : ℚ) (rows : List Row) (ps : List TV) : Prop :=
  List.Forall₂ (Means P uv f) rows ps

/-- What the wind reports and saves as its `timeseries`, read as speed and direction in its
`units`, is the wind it applies. -/
def Honest (P : Polar) (w : Wind) : Prop := Describes P false w.units w.rows w.ossm

/-- Things a user does to a wind. -/
inductive Op where
  | set (g : Given) (c : CoordArg)
  | data (g : Given) (f : ℚ) (c : CoordArg)
  | units (f : ℚ)
  | tz (o : Option ℚ)

/-- One of them; `none` when it raises. -/
def step (P : Polar) (w : Wind) : Op → Option Wind
  | .set g c => if (newSet P w g c).raised then none else some (newSet P w g c).wind
  | .data g f c => if (setWindData P w g f c).raised then none else some (setWindData P w g f c).wind
  | .units f => some (setUnits w f)
  | .tz o => if (setTimezone P w o).raised then none else some (setTimezone P w o).wind

/-- Several, none of which raises. -/
def run (P : Polar) (w : Wind) : List Op → Option Wind
  | [] => some w
  | op :: rest => (step P w op).bind fun w' => run P w' rest

/-- A change from polar coordinates for the four main directions only, for the examples. -/
def compass : Polar where
  toUV := fun x =>
    if x.1 < 0 then none
    else if x.2 = 0 then some (0, -x.1)
    else if x.2 = 90 then some (-x.1, 0)
    else if x.2 = 180 then some (0, x.1)
    else if x.2 = 270 then some (x.1, 0)
    else none
  toRT := fun x =>
    if x.1 = 0 then (if x.2 ≤ 0 then (-x.2, 0) else (x.2, 180))
    else if x.1 < 0 then (-x.1, 90) else (x.1, 270)

end Verif.PointWind
