import Mathlib.Analysis.Real.Sqrt

/-!
# The CATS mover: a pattern of currents, scaled and driven by a tide

Model of `CatsMover` (`gnome/movers/c_current_movers.py` 184-425), `CyCatsMover` (`gnome/cy_gnome/cy_cats_mover.pyx`) and `CATSMover_c`
(`lib_gnome/CATSMover_c.cpp`).

The pattern is a function from places (longitude and latitude in millionths of a degree) to velocities, zero where there is no grid
(`TDagTree::GetVelocity`, `lib_gnome/DagTree.cpp` 21-35; the search itself is modelled in `Verif.Dag`).  Arithmetic is exact.  Left out:
uncertainty, reading the file, the logarithmic profile (`bApplyLogProfile` is never set), scaling to another grid (not in pyGnome).
-/

namespace Verif.Cats

/-- A place: longitude, latitude (millionths of a degree) and depth. -/
structure Place where
  lon : ℝ
  lat : ℝ
  z : ℝ

abbrev Vel := ℝ × ℝ

abbrev Pattern := ℝ → ℝ → Vel

/-- A tide: from a Shio file or an OSSM file, perhaps with the place of its station, perhaps a hydrology file with its factor; the value at a
time, or none (`GetTimeValue` fails). -/
structure Tide where
  shio : Bool
  station : Option Place
  hydrology : Option ℝ
  value : ℤ → Option ℝ

/-- What `CATSMover_c` keeps (`lib_gnome/CATSMover_c.h` 33-55). -/
structure Mover where
  scaleType : ℕ
  scaleValue : ℝ
  ref : Place
  refScale : ℝ
  tide : Option Tide
  /-- `current_tide_value.u` -/
  current : ℝ

/-- Before anything is set (`lib_gnome/CATSMover_c.cpp` 31-49; `gnome/cy_gnome/cy_cats_mover.pyx` 45-76). -/
noncomputable def fresh : Mover := ⟨0, 1, ⟨-999, -999, 0⟩, 1, none, 1⟩

/-- `GetPatValue` (`lib_gnome/CATSMover_c.cpp` 457-487): nothing below the surface. -/
noncomputable def patValue (P : Pattern) (p : Place) : Vel := if p.z > 0 then (0, 0) else P p.lon p.lat

noncomputable def len (v : Vel) : ℝ := Real.sqrt (v.1 * v.1 + v.2 * v.2)

/-- Errors of a step: the reference point (-2), a scale that is none of those known (-1), no value of the tide. -/
inductive Err where
  | refPoint
  | other
  | noTide
deriving DecidableEq

/-- `ComputeVelocityScale` (`lib_gnome/CATSMover_c.cpp` 104-202): the factor, zero with an error. -/
noncomputable def computeScale (P : Pattern) (m : Mover) : ℝ × Option Err :=
  match m.tide.bind (·.hydrology) with
  | some f => (f, none)
  | none =>
    if m.scaleType = 0 then (1, none)
    else if m.scaleType = 1 then
      let length := len (patValue P m.ref)
      if |m.scaleValue| > length * 1000000 ∨ length < 1 / 100000 then (0, some .refPoint) else (m.scaleValue / length, none)
    else (0, some .other)

/-- `PrepareForModelStep` (`lib_gnome/CATSMover_c.cpp` 287-326) and what the callers make of an error: the step fails
(`gnome/cy_gnome/cy_mover.pyx` 87-97, `gnome/movers/movers.py`, `CyMover.prepare_for_model_step`). -/
noncomputable def prepare (P : Pattern) (m : Mover) (t : ℤ) : Except Err Mover :=
  let s := computeScale P m
  let m' := { m with refScale := s.1 }
  match s.2 with
  | some e => .error e
  | none => match m.tide with
    | none => .ok m'
    | some td => match td.value t with
      | none => .error .noTide
      | some u => .ok { m' with current := u }

/-- `GetScaledPatValue` (`lib_gnome/CATSMover_c.cpp` 412-454). -/
noncomputable def velocity (P : Pattern) (m : Mover) (p : Place) : Vel :=
  let timeValue := if m.tide.isSome then m.current else 1
  let v := patValue P p
  (v.1 * m.refScale * timeValue, v.2 * m.refScale * timeValue)

/-- `METERSPERDEGREELAT` (`lib_gnome/Units.h` 7). -/
noncomputable def metres : ℝ := 11112000024 / 100000

/-- `get_move` for one element of a forecast (`lib_gnome/CATSMover_c.cpp` 337-407): the change of longitude and latitude in degrees.
`ratio` is `LongToLatRatio3`, `metres` is `METERSPERDEGREELAT`, `lib_gnome/Units.h` 7; `inWater` is the status. -/
noncomputable def getMove (P : Pattern) (ratio : ℝ → ℝ) (m : Mover) (inWater : Bool) (dt : ℝ) (p : Place) : ℝ × ℝ × ℝ :=
  if inWater then
    let v := velocity P m p
    (v.1 / metres * dt / ratio p.lat, v.2 / metres * dt, 0)
  else (0, 0, 0)

/-! ## Settings -/

/-- `ref_point`: none when the latitude is about -999 millionths of a degree (`gnome/cy_gnome/cy_cats_mover.pyx` 129-143; `np.isclose`). -/
noncomputable def refPoint (m : Mover) : Option Place := if |m.ref.lat - -999| ≤ 1 / 10 ^ 8 + 1 / 10 ^ 5 * 999 then none else some m.ref

/-- `CatsMover.tide = tide` for a tide of the right type (`gnome/movers/c_current_movers.py` 363-380; `set_shio` and `set_ossm`,
`gnome/cy_gnome/cy_cats_mover.pyx` 198-227). -/
noncomputable def setTide (m : Mover) (t : Tide) : Mover :=
  let m1 := { m with tide := some t }
  let m2 := match t.station, refPoint m with
    | some p, none => { m1 with ref := p }
    | _, _ => m1
  if t.shio then { m2 with scaleType := 1 } else m2

/-- `CatsMover.tide = None` (`gnome/movers/c_current_movers.py` 365-368; `unset_tide`, `gnome/cy_gnome/cy_cats_mover.pyx` 229-238). -/
noncomputable def unsetTide (m : Mover) : Mover := { m with tide := none, scaleType := 0, ref := ⟨-999, -999, -999 / 10 ^ 6⟩ }

/-- `CatsMover.scale = b` (`gnome/movers/c_current_movers.py` 290-293). -/
def setScale (m : Mover) (b : Bool) : Mover := { m with scaleType := if b then 1 else 0 }

/-- `CatsMover.scale_value = x` (295-298). -/
def setScaleValue (m : Mover) (x : ℝ) : Mover := { m with scaleValue := x }

/-- `CatsMover.scale_refpoint = p` in degrees (340-357): the factor is computed at once; a bad point is only warned of. -/
noncomputable def setRefPoint (P : Pattern) (m : Mover) (lon lat z : ℝ) : Mover :=
  let m1 := { m with ref := ⟨lon * 10 ^ 6, lat * 10 ^ 6, z⟩ }
  { m1 with refScale := (computeScale P m1).1 }

/-- `get_scaled_velocities` (`gnome/movers/c_current_movers.py` 407-425): the velocity of a triangle as it is shown at a time.  `w` is the
velocity of the triangle in the file; an error of the tide is ignored, `dflt` being what comes with it. -/
noncomputable def shown (P : Pattern) (m : Mover) (dflt : ℝ) (t : ℤ) (w : Vel) : Vel :=
  let s := (computeScale P m).1
  let tide := match m.tide with
    | none => 1
    | some td => (td.value t).getD dflt
  (w.1 * (s * tide), w.2 * (s * tide))

end Verif.Cats
