import Verif.Output.Model

/-!
# Files for Google Earth

Sources: `py_gnome/gnome/outputters/kmz.py` `KMZOutput` (31-192), `outputter.py` `rewind` (403-419); the calls by
`model.py` `rewind` (398-419), `setup_model_run` (927-935), `step` (1159-1226), `full_run` (1310-1335), `duration` (629-637).

Simplifications: the text of a time step is its number; with uncertainty the two parts of a step are one.  The
outputter is on all the time.  `filename` is valid and nothing else touches the file.
-/
namespace Verif.Output

/-- A part of the document. -/
inductive Part
  | header | step (n : Nat) | footer
  deriving DecidableEq, Repr

/-- `kml`, the file, `cleaned_up`. -/
structure Kmz where
  kml : List Part
  file : Option (List Part)
  cleaned : Bool
  deriving DecidableEq, Repr

/-- Append the footer and write the file (143-151 and 173-182). -/
def Kmz.finish (s : Kmz) : Kmz := ⟨s.kml ++ [.footer], some (s.kml ++ [.footer]), true⟩

/-- `rewind` (185-192, and `outputter.py:416`). -/
def Kmz.rewind (s : Kmz) : Kmz := { s with cleaned := false }

/-- `prepare_for_model_run` (55-106): the file of an earlier run is deleted. -/
def Kmz.prepare (s : Kmz) : Kmz := { s with kml := [.header], file := none }

/-- `write_output` (108-160); `due` is `_write_step` as decided by the base class. -/
def Kmz.write (s : Kmz) (n : Nat) (due last : Bool) : Kmz :=
  let s := if due then { s with kml := s.kml ++ [.step n] } else s
  if last then s.finish else s

/-- `post_model_run` (168-182). -/
def Kmz.post (s : Kmz) : Kmz := if s.cleaned then s else s.finish

/-- Steps `n`, `n + 1`, …, `n + k - 1` of a run whose last step is `L`. -/
def Kmz.steps (due : Nat → Bool) (L : Nat) (s : Kmz) (n : Nat) : Nat → Kmz
  | 0 => s
  | k + 1 => Kmz.steps due L (s.write n (due n) (decide (n = L))) (n + 1) k

/-- `full_run` (1310-1335) with `L + 1` steps: after the last step `post_model_run` is called by `step` (1196) and by `full_run`
(1330). -/
def Kmz.fullRun (due : Nat → Bool) (L : Nat) (s : Kmz) : Kmz :=
  (Kmz.steps due L s.rewind.prepare 0 (L + 1)).post.post

/-- A run in which step `m`, not the first, raises: `step` calls `post_model_run` (1220-1226). -/
def Kmz.failedRun (due : Nat → Bool) (L m : Nat) (s : Kmz) : Kmz := (Kmz.steps due L s.rewind.prepare 0 m).post

/-- A full run, a longer `duration` (which does not rewind, 630-637) with the last step `L'`, and
`full_run(rewind=False)`. -/
def Kmz.continued (due : Nat → Bool) (L L' : Nat) (s : Kmz) : Kmz :=
  (Kmz.steps due L' (s.fullRun due L) (L + 1) (L' - L)).post.post

/-- The time until which a step is shown (122-127): `output_timestep` or the step of the model. -/
def spanEnd (ots : Option Int) (ts t : Int) : Int := match ots with
  | none => t + ts
  | some p => t + p

end Verif.Output
