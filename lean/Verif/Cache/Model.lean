import Verif.Py
import Mathlib.Data.Nat.Digits.Defs
/-!
# Model of `gnome.utilities.cache.ElementCache`

Source: `/repo/py_gnome/gnome/utilities/cache.py`.
`V` is the type of a data array, `M` of a mass-balance value, `T` of a time stamp. `copy.deepcopy`, `np.savez` and
`np.load` are the identity on these (arrays round-trip through a file unchanged; a data array called `file`, which
`np.savez` cannot store, is left out). The directory is a map from file names to contents; a rewind gives a fresh
empty one (lines 118-125, 247-255). Failures of the file system are not modelled.
-/
namespace Verif.Cache
open Verif.Py

/-- digits of `n`, most significant first, as characters -/
def decimal (n : Nat) : List Char := (Nat.digits 10 n).reverse.map Nat.digitChar

/-- pad on the left with '0' to width `w` -/
def padLeft (w : Nat) (l : List Char) : List Char := List.replicate (w - l.length) '0' ++ l

/-- Python's `'%06i' % n`: width 6 includes the sign. (For 0 `decimal` is empty, the padding supplies the digits.) -/
def fmt06 (n : Int) : List Char :=
  if 0 ≤ n then padLeft 6 (decimal n.toNat) else '-' :: padLeft 5 (decimal (-n).toNat)

/-- `_make_filename` (lines 103-116), relative to the cache directory -/
def makeFilename (step : Int) (uncertain : Bool) : List Char :=
  if uncertain then "step_".toList ++ fmt06 step ++ "_uncert.npz".toList
  else "step_".toList ++ fmt06 step ++ ".npz".toList

/-- what is stored under one key of the saved dict -/
inductive Cell (V M T : Type)
  | arr (v : V)
  | mbval (m : M)
  | keys (l : List String)
  | stamp (t : T)
  deriving DecidableEq, Repr

variable {V M T : Type}

abbrev Data (V M T : Type) := Dict String (Cell V M T)

/-- A spill container as far as the cache is concerned: `data_arrays`, `mass_balance`, `current_time_stamp`. -/
structure SC (V M T : Type) where
  arrays : Dict String V
  mb : Dict String M
  stamp : Option T
  deriving DecidableEq, Repr

/-- `_set_weathering_data` (lines 228-236) -/
def setWeathering (sc : SC V M T) (d : Data V M T) : Data V M T :=
  if sc.mb.isEmpty then d
  else sc.mb.foldl (fun d p => d.set p.1 (.mbval p.2)) (d.set "mass_balance" (.keys (sc.mb.map Prod.fst)))

/-- the dict that is stored (lines 135-140) -/
def encode (sc : SC V M T) : Data V M T :=
  let d := setWeathering sc (sc.arrays.map (fun p => (p.1, Cell.arr p.2)))
  match sc.stamp with
  | some t => d.set "current_time_stamp" (.stamp t)
  | none => d

/-- A container as loaded. The arrays are whatever cells remain. -/
structure Loaded (V M T : Type) where
  arrays : Dict String (Cell V M T)
  mb : Dict String M
  stamp : Option T
  deriving DecidableEq, Repr

/-- pop the mass-balance entries one after another (lines 243-244) -/
def popAll (d : Data V M T) : List String → Except Err (Data V M T × Dict String M)
  | [] => .ok (d, [])
  | k :: ks =>
    match d.get? k with
    | some (.mbval m) =>
      match popAll (d.del k) ks with
      | .ok (d', mb) => .ok (d', (k, m) :: mb)
      | .error e => .error e
    | some _ => .error .other
    | none => .error .keyError

/-- lines 199-207 (212-222 for the uncertain one): pop the time stamp, then `_get_weathering_data` (238-245) -/
def decode (d : Data V M T) : Except Err (Loaded V M T) :=
  let fin (d1 : Data V M T) (st : Option T) : Except Err (Loaded V M T) :=
    match d1.get? "mass_balance" with
    | none => .ok ⟨d1, [], st⟩
    | some (.keys ks) =>
      match popAll (d1.del "mass_balance") ks with
      | .ok (d', mb) => .ok ⟨d', mb, st⟩
      | .error e => .error e
    | some _ => .error .other
  match d.get? "current_time_stamp" with
  | none => fin d none
  | some (.stamp t) => fin (d.del "current_time_stamp") (some t)
  | some _ => .error .other

/-- The cache: `recent` is `{}` or `{step: [data, u_data]}` (lines 90, 145-148, 250), the disk, the flag. -/
structure State (V M T : Type) where
  recent : Option (Int × Data V M T × Option (Data V M T))
  disk : Dict (List Char) (Data V M T)
  enabled : Bool

/-- a new cache (lines 75-95) -/
def init (enabled : Bool) : State V M T := ⟨none, [], enabled⟩

/-- body of the loop of `save_timestep` for the certain container -/
def saveCertain (s : State V M T) (n : Int) (c : SC V M T) : State V M T :=
  { s with
    recent := some (n, encode c, none)
    disk := if s.enabled then s.disk.set (makeFilename n false) (encode c) else s.disk }

/-- body of the loop for the uncertain container; `self.recent[step_num]` exists since the certain one comes first -/
def saveUncertain (s : State V M T) (n : Int) (u : SC V M T) : State V M T :=
  { s with
    recent := match s.recent with
      | some (m, d, _) => some (m, d, some (encode u))
      | none => none
    disk := if s.enabled then s.disk.set (makeFilename n true) (encode u) else s.disk }

/-- `save_timestep` (lines 127-155): `items()` lists the certain container first, the uncertain one only if on -/
def save (s : State V M T) (n : Int) (c : SC V M T) (u : Option (SC V M T)) : State V M T :=
  match u with
  | none => saveCertain s n c
  | some u => saveUncertain (saveCertain s n c) n u

/-- first part of `load_timestep` (lines 164-194): in memory, else from disk. The inner KeyError when only the certain
data has a time stamp (lines 177-179, `if u_data_arrays` is false for an empty dict) also leads to the disk. -/
def fetch (s : State V M T) (n : Int) : Except Err (Data V M T × Option (Data V M T)) :=
  let fromDisk : Except Err (Data V M T × Option (Data V M T)) :=
    match s.disk.get? (makeFilename n false) with
    | none => .error (.runtimeError)   -- CacheError
    | some d => .ok (d, s.disk.get? (makeFilename n true))
  match s.recent with
  | some (m, d, u) =>
    if m = n then
      match u with
      | some ud =>
        if (d.get? "current_time_stamp").isSome && !ud.isEmpty && (ud.get? "current_time_stamp").isNone then fromDisk
        else .ok (d, some ud)
      | none => .ok (d, none)
    else fromDisk
  | none => fromDisk

/-- `load_timestep` (lines 157-226). `Err.runtimeError` stands for `CacheError`. -/
def load (s : State V M T) (n : Int) : Except Err (Loaded V M T × Option (Loaded V M T)) :=
  match fetch s n with
  | .error e => .error e
  | .ok (d, u) =>
    match decode d with
    | .error e => .error e
    | .ok c =>
      match u with
      | none => .ok (c, none)
      | some ud =>
        match decode ud with
        | .error e => .error e
        | .ok u => .ok (c, some u)

/-- `rewind` (lines 247-255) -/
def rewind (s : State V M T) : State V M T := { s with recent := none, disk := [] }

/-- a history of calls (`load` does not change the cache) -/
inductive Op (V M T : Type)
  | save (n : Int) (c : SC V M T) (u : Option (SC V M T))
  | rewind
  | setEnabled (b : Bool)

def step (s : State V M T) : Op V M T → State V M T
  | .save n c u => save s n c u
  | .rewind => rewind s
  | .setEnabled b => { s with enabled := b }

def run (s : State V M T) (ops : List (Op V M T)) : State V M T := ops.foldl step s

end Verif.Cache
