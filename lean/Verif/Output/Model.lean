import Verif.Py
/-!
# Model of the write decision of `gnome.outputters.outputter.Outputter`

Source: `/repo/py_gnome/gnome/outputters/outputter.py`. Times and time steps are integers in one unit (the resolution
of the clock). Caches, files and surface concentration are left out. A concrete outputter writes a step iff it is on
and `_write_step` is set when its `write_output` returns from the base class (e.g. outputters/shape.py, netcdf.py).
-/
namespace Verif.Output

/-- user settings (lines 69-145); `ots` is `_output_timestep`, `ostart` is `output_start_time` -/
structure Cfg where
  on : Bool := true
  zero : Bool := true
  last : Bool := true
  single : Bool := false
  ots : Option Int := none
  ostart : Option Int := none
  deriving DecidableEq, Repr

/-- The `output_timestep` setter (lines 166-181) for a timedelta of `us` microseconds; result in whole seconds,
`none` = ValueError. -/
def setOts (us : Int) : Option Int := if us ≤ 0 then none else some (Int.tdiv us 1000000)

/-- internal variables -/
structure St where
  mstart : Int
  dt : Int
  write : Bool
  isFirst : Bool
  singleAtStart : Bool
  deriving DecidableEq, Repr

/-- `rewind` (lines 403-419) followed by `prepare_for_model_run` (lines 183-266), the parts about the decision -/
def prepareRun (c : Cfg) (mstart : Int) : St :=
  { mstart, dt := 0, write := true, isFirst := true,
    singleAtStart := c.single && (c.ostart == some mstart || c.ostart == none) }

/-- the tail of `prepare_for_model_step` (lines 313-325) -/
def cadence (c : Cfg) (s : St) (ts : Int) : St :=
  if c.single then { s with write := false }
  else match c.ots with
    | none => s
    | some p =>
      let dt := s.dt + ts
      if dt.natAbs ≥ p.natAbs then { s with write := true, dt := Int.fmod dt p }
      else { s with write := false, dt := dt }

/-- `prepare_for_model_step` (lines 268-325). `mt` is the model time at the beginning of the step. (`_output_timestep`
0, which makes the remainder raise, is excluded by the theorems.) -/
def prepareStep (c : Cfg) (s : St) (ts mt : Int) : St :=
  if !c.on then s else
  match c.ostart with
  | none => cadence c s ts
  | some S =>
    if S ≠ s.mstart then
      if mt + ts < S then { s with write := false }
      else if mt + ts = S then { s with write := true, isFirst := false }
      else if (mt + ts > S ∧ ts > 0) ∨ (mt + ts < S ∧ ts < 0) then
        if s.isFirst then { s with write := true, isFirst := false }
        else cadence c s ts
      else cadence c s ts
    else cadence c s ts

/-- `write_output` (lines 342-365) -/
def writeOutput (c : Cfg) (s : St) (k : Nat) (islast : Bool) : St :=
  let s := if k = 0 then { s with write := c.zero || s.singleAtStart } else s
  if islast && c.last then { s with write := true } else s

/-- The outputter during a run that starts at `t0` with time step `ts` and whose last step is number `L`: state after
`write_output` of step `k` (model.py lines 1159-1226: step 0 only writes, every later step prepares, then writes). -/
def stateAt (c : Cfg) (t0 ts : Int) (L : Nat) : Nat → St
  | 0 => writeOutput c (prepareRun c t0) 0 (decide (0 = L))
  | k + 1 => writeOutput c (prepareStep c (stateAt c t0 ts L k) ts (t0 + k * ts)) (k + 1) (decide (k + 1 = L))

/-- is step `k` written? -/
def written (c : Cfg) (t0 ts : Int) (L k : Nat) : Bool := c.on && (stateAt c t0 ts L k).write

end Verif.Output
