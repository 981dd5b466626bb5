import Verif.Output.Model

/-!
# Output after a run, from the cache

Source: `py_gnome/gnome/outputters/outputter.py` `write_output_post_run` (421-480), `prepare_for_model_run` (183-266).

Simplifications: as in `Verif/Output/Model.lean`; times in whole seconds; the cache holds the time of every step.
-/
namespace Verif.Output

/-- `timedelta.seconds`: what is left of a duration without its whole days. -/
def secondsOf (ts : Int) : Int := Int.fmod ts 86400

/-- `prepare_for_model_run` (183-266) of an outputter in state `s0`, not preceded by `rewind`: `_is_first_output` stays,
and `_write_step` too if there is an `output_timestep`. -/
def postRun (c : Cfg) (mstart : Int) (s0 : St) : St :=
  { mstart, dt := 0, write := if c.ots.isNone then true else s0.write, isFirst := s0.isFirst,
    singleAtStart := c.single && (c.ostart == some mstart || c.ostart == none) }

/-- The loop 460-480: steps 1 to `L - 1` are prepared, with the seconds between the times of two steps. -/
def postAt (c : Cfg) (s0 : St) (t0 ts : Int) (L : Nat) : Nat → St
  | 0 => writeOutput c (postRun c t0 s0) 0 (decide (0 = L))
  | k + 1 =>
    let s := postAt c s0 t0 ts L k
    let s := if k + 1 < L then prepareStep c s (secondsOf ts) (t0 + k * ts) else s
    writeOutput c s (k + 1) (decide (k + 1 = L))

/-- Is step `k` written? -/
def postWritten (c : Cfg) (s0 : St) (t0 ts : Int) (L k : Nat) : Bool := c.on && (postAt c s0 t0 ts L k).write

end Verif.Output
