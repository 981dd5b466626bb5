import Verif.TSeries.Model

/-!
# Point winds: units, coordinates, stored data, time zones

Source: `py_gnome/gnome/environment/wind.py` (`Wind`), with
`py_gnome/gnome/utilities/timeseries.py` and `py_gnome/gnome/utilities/convert.py`.

Simplifications: a unit is its exact factor to metres per second (`nucos` is not part of the
repository; converting between two names of one unit multiplies by one); the transformation
between speed and direction and `(u, v)` is a parameter; a caller's array has the data type the
wind stores (so `np.asarray` hands back the array itself, `timeseries.py:208-209`); values are
exact rationals.
-/

namespace Verif.PointWind

open Verif.TSeries (TV R isAscending getTimeValue)

/-- One row of a `datetime_value_2d` array: a time and two numbers, whatever they stand for. -/
structure Row where
  time : Int
  a : ℚ
  b : ℚ
  deriving DecidableEq, Repr

/-- `transforms.r_theta_to_uv_wind` on one row (`none` = `ValueError`, negative speed or angle
outside of `[0, 360]`, `transforms.py:56-62`) and `uv_to_r_theta_wind`. -/
structure Polar where
  toUV : ℚ × ℚ → Option (ℚ × ℚ)
  toRT : ℚ × ℚ → ℚ × ℚ

/-- The ways to say which coordinates are meant: the strings `'uv'` and `'r-theta'`, or the
members of the `ts_format` enumeration (`cy_basic_types.pyx:132-135`). -/
inductive CoordArg where
  | strUV
  | strRT
  | enumUV
  | enumRT
  deriving DecidableEq, Repr

/-- `tsformat(coord) == ts_format.uv` (`convert.py:138-166`). -/
def CoordArg.isUV : CoordArg → Bool
  | .strUV => true
  | .enumUV => true
  | _ => false

/-- `coord_sys == ts_format.uv` as written in `_convert_units` (`wind.py:444`): a string is
never equal to a member of an `IntEnum`. -/
def CoordArg.eqEnumUV : CoordArg → Bool
  | .enumUV => true
  | _ => false

/-- `_convert_units` (`wind.py:436-447`), from a unit of factor `f` to one of factor `g`. -/
def convertUnits (c : CoordArg) (f g : ℚ) (rows : List Row) : List Row :=
  rows.map fun r =>
    { r with a := r.a * f / g, b := if c.eqEnumUV then r.b * f / g else r.b }

/-- One row of `to_time_value_pair` (`convert.py:33-57`). -/
def rowToPair (P : Polar) (c : CoordArg) (r : Row) : Option TV :=
  if c.isUV then some ⟨r.time, r.a, r.b⟩
  else (P.toUV (r.a, r.b)).map fun x => ⟨r.time, x.1, x.2⟩

/-- `to_time_value_pair` (`convert.py:12-59`): one bad row fails the lot. -/
def toPairs (P : Polar) (c : CoordArg) (rows : List Row) : Option (List TV) :=
  rows.mapM (rowToPair P c)

/-- One row of `to_datetime_value_2d` (`convert.py:62-103`). -/
def pairToRow (P : Polar) (c : CoordArg) (p : TV) : Row :=
  if c.isUV then ⟨p.time, p.u, p.v⟩
  else ⟨p.time, (P.toRT (p.u, p.v)).1, (P.toRT (p.u, p.v)).2⟩

/-- The state of a `Wind`: `_user_units`, `_timeseries`, the C++ series, the extrapolation flag
and the time zone offset in hours. -/
structure Wind where
  units : ℚ
  rows : List Row
  ossm : List TV
  extrap : Bool
  tz : Option ℚ
  deriving DecidableEq, Repr

/-- What the caller hands over: an array, or a list of pairs. -/
inductive Given where
  | array (rows : List Row)
  | pairs (rows : List Row)
  deriving DecidableEq, Repr

/-- The rows of what is handed over. -/
def Given.rows : Given → List Row
  | .array rows => rows
  | .pairs rows => rows

/-- The result of a call: the wind afterwards, what the caller's own data look like
afterwards, and whether an exception was raised. -/
structure Out where
  wind : Wind
  caller : List Row
  raised : Bool
  deriving DecidableEq, Repr

/-- `_check_timeseries` (`timeseries.py:111-142`): only arrays are checked. -/
def checked : Given → Bool
  | .array rows => isAscending (rows.map fun r => ⟨r.time, r.a, r.b⟩)
  | .pairs _ => true

/-- What becomes of the caller's data when the working array is overwritten with `rows'`: an
array is the working array, a list is not. -/
def callerAfter : Given → List Row → List Row
  | .array _, rows' => rows'
  | .pairs rows, _ => rows

/-- `new_set_timeseries` (`wind.py:370-386`), also the setter of `timeseries`. -/
def newSet (P : Polar) (w : Wind) (g : Given) (c : CoordArg) : Out :=
  if checked g then
    let rows' := convertUnits c w.units 1 g.rows
    let w1 := { w with rows := g.rows }
    match toPairs P c rows' with
    | none => ⟨w1, callerAfter g rows', true⟩
    | some ps => ⟨{ w1 with ossm := ps }, callerAfter g rows', false⟩
  else ⟨w, g.rows, true⟩

/-- `set_wind_data` (`wind.py:556-587`). -/
def setWindData (P : Polar) (w : Wind) (g : Given) (f : ℚ) (c : CoordArg) : Out :=
  if checked g then
    let rows' := convertUnits c f 1 g.rows
    let w1 := { w with units := f }
    match toPairs P c rows' with
    | none => ⟨w1, callerAfter g rows', true⟩
    | some ps => ⟨{ w1 with ossm := ps, rows := rows' }, callerAfter g rows', false⟩
  else ⟨w, g.rows, true⟩

/-- The setter of `units` (`wind.py:424-434`). -/
def setUnits (w : Wind) (f : ℚ) : Wind := { w with units := f }

/-- `get_wind_data()` without a time (`wind.py:514-554`, `timeseries.py:258-260`). -/
def getWindData (P : Polar) (w : Wind) (g : ℚ) (c : CoordArg) : List Row :=
  convertUnits c 1 g (w.ossm.map (pairToRow P c))

/-- `int((new - old) * 3600)` (`wind.py:393`), rounding towards zero. -/
def shiftSecs (old new : ℚ) : Int :=
  ((new - old) * 3600).num.tdiv ((new - old) * 3600).den

/-- `_set_timezone_offset` (`wind.py:388-401`). The new rows are a fresh array, always handed
over as speed and direction. -/
def setTimezone (P : Polar) (w : Wind) (tz : Option ℚ) : Out :=
  match w.tz, tz with
  | some old, some new =>
    let rows' := w.rows.map fun r => { r with time := r.time + shiftSecs old new }
    let o := newSet P w (.array rows') .strRT
    if o.raised then { o with caller := [] }
    else ⟨{ o.wind with tz := tz }, [], false⟩
  | _, _ => ⟨{ w with tz := tz }, [], false⟩

/-- `Wind.__init__` with a timeseries (`wind.py:144-246`): the default object has one calm row
at time zero in metres per second. -/
def newWind (P : Polar) (g : Given) (f : ℚ) (c : CoordArg) (extrap : Bool) (tz : Option ℚ) : Out :=
  let w0 : Wind := ⟨f, [⟨0, 0, 0⟩], [⟨0, 0, 0⟩], false, none⟩
  let o := newSet P w0 g c
  if o.raised then o
  else { o with wind := { o.wind with tz := tz, extrap := extrap } }

/-- `at` for the velocity in m/s at one time (`wind.py:606-686`), with `extrapolate` given or
left out: the flag of the wind is set, the value read, and the flag put back in a `finally`. -/
def velocityAt (w : Wind) (t : Int) (extrapolate : Option Bool) : R (ℚ × ℚ) × Wind :=
  let original := w.extrap
  let w1 := match extrapolate with
    | some e => { w with extrap := e }
    | none => w
  let r := getTimeValue w1.ossm w1.extrap t
  (r, { w1 with extrap := original })

/-- Saving and loading: the schema saves `timeseries`, `units`, `extrapolation_is_allowed` and
`timezone_offset` (`wind.py:82-127`), and loading calls `Wind.__init__` with the rows as an array
in the default coordinates `'r-theta'`. -/
def saveLoad (P : Polar) (w : Wind) : Out :=
  newWind P (.array w.rows) w.units .strRT w.extrap w.tz

end Verif.PointWind
