import Verif.Release.Model
/-!
# Releases of the steps of a run, forwards and backwards

Model of the calls of `release_elements` by `Model.step` (`/repo/py_gnome/gnome/model.py` 1160-1218; `Model.release_elements` 1232-1240, `SpillContainer.release_elements`
`gnome/spill_container.py` 881-905) for one spill that is on.  `run_backwards` makes the time step negative (model.py 318-324, 528-545).

Simplifications: those of `Verif.Release.Model`; the time step is a rational number of seconds.
-/
namespace Verif.Release

/-- The calls up to step `k` of a run from `S` with time step `dt`: at step 0 one for the time itself (1184-1187), afterwards one for each half of the step (1201-1218). -/
def stepCalls (S dt : ℚ) : Nat → List Call
  | 0 => [{ start := S, stop := S }]
  | k + 1 => stepCalls S dt k ++
      [{ start := S + k * dt, stop := S + k * dt + dt / 2 }, { start := S + (k + 1) * dt - dt / 2, stop := S + (k + 1) * dt }]

/-- The number of elements that have been released when step `k` is put out. -/
def releasedAt (p : Prepared) (spec scale S dt : ℚ) (k : Nat) : Int := (runCalls p spec scale fresh (stepCalls S dt k)).1.numReleased

/-- The elements that were released at step `k`. -/
def batchesTo (p : Prepared) (spec scale S dt : ℚ) (k : Nat) : List Batch := (runCalls p spec scale fresh (stepCalls S dt k)).2

end Verif.Release
