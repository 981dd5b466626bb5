/-!
# Model of the sources of gridded objects

Source: `/repo/py_gnome/gnome/environment/gridded_objects_base.py` 542-697 (`Variable.init_from_netCDF`), 944-1100 (`VectorVariable.init_from_netCDF`; the same choice of files), 1315-1362 (`_get_shared_vars`); `/repo/py_gnome/gnome/environment/environment_objects.py` 836-871 (`IceAwareCurrent.init_from_netCDF`), 922-945 (`IceAwareWind.from_netCDF`).

Simplifications: an open data set, a grid and a time axis are named by the file they were read from; arguments that are not given are absent; every file exists and has a grid and times; names of variables are not given, so that a quantity is found in a data set if the set has it.
-/
namespace Verif.Fields.Src

/-- a file -/
abbrev File := Nat

/-- what is looked for -/
inductive Quantity
  | flow | iceConc | iceVel
deriving DecidableEq

/-- arguments of `from_netCDF` -/
structure Req where
  filename : Option File := none
  dataFile : Option File := none
  gridFile : Option File := none
  dataset : Option File := none
  grid : Option File := none
  time : Option File := none
deriving DecidableEq

/-- where an object has its data, grid and times from -/
structure Made where
  data : File
  grid : File
  time : File
deriving DecidableEq

/-- errors: KeyError, a data set that cannot be opened, a quantity that is not in the data -/
inductive Err
  | key | open | name
deriving DecidableEq

/-- `get_dataset` of a file or of None -/
def dset : Option File → Except Err File
  | some f => .ok f
  | none => .error .open

/-- `filename` replaces the other two 617-622, 1001-1006 -/
def byName (r : Req) : Req :=
  match r.filename with
  | some f => { r with dataFile := some f, gridFile := some f }
  | none => r

/-- the data sets of data and grid 623-637, 1007-1021 -/
def sets (r : Req) : Except Err (File × File) :=
  match r.dataset with
  | none => (dset r.dataFile).bind fun ds => (dset r.gridFile).map fun dg => (ds, dg)
  | some d => .ok (d, r.gridFile.getD d)

/-- `init_from_netCDF` of a variable or vector; `has f q`: the file has the quantity -/
def load (has : File → Quantity → Bool) (q : Quantity) (r : Req) : Except Err Made :=
  (sets (byName r)).bind fun s =>
    if has s.1 q then .ok ⟨s.1, r.grid.getD s.2, r.time.getD s.1⟩ else .error .name

/-- `_get_shared_vars` 1323-1353: what the function is called with -/
def shared (r : Req) : Except Err Req :=
  let r1 := byName r
  let s : Except Err (Option File × Option File) :=
    match r1.dataset with
    | none => .ok (match r1.gridFile, r1.dataFile with
        | some g, some d => (some d, some g)
        | _, _ => (none, none))
    | some d => .ok (some d, some (r1.gridFile.getD d))
  s.bind fun (ds, dg) =>
    let r2 := { r1 with dataset := ds }
    let r3 : Except Err Req := match r2.grid with
      | some _ => .ok r2
      | none => match r2.filename with
        | none => .error .key
        | some f => .ok { r2 with grid := some (dg.getD f) }
    r3.bind fun r3 => if r3.dataFile = none then .error .key else .ok r3

/-- an object that is given, or one from a file -/
def orLoad (has : File → Quantity → Bool) (q : Quantity) (r : Req) : Option Made → Except Err Made
  | some m => .ok m
  | none => load has q r

/-- the arguments for the ice 850-866: with an ice file only `filename` is another one -/
def iceReq (k : Req) (cur : Made) : Option File → Except Err Req
  | some i => if k.filename = none then .error .key else .ok { k with filename := some i }
  | none => .ok { k with time := some cur.time, grid := some cur.grid }

/-- `IceAwareCurrent.from_netCDF` 836-871: current, concentration, velocity of the ice; `conc` and `vel` may be given -/
def iceCurrent (has : File → Quantity → Bool) (r : Req) (iceFile : Option File) (conc vel : Option Made) : Except Err (Made × Made × Made) :=
  (shared r).bind fun k =>
  (load has .flow k).bind fun cur =>
  (iceReq k cur iceFile).bind fun k' =>
  (orLoad has .iceConc k' conc).bind fun c =>
  (orLoad has .iceVel k' vel).map fun v => (cur, c, v)

/-- `IceAwareWind.from_netCDF` 929-945 -/
def iceWind (has : File → Quantity → Bool) (r : Req) (conc : Option Made) : Except Err (Made × Made) :=
  (shared r).bind fun k =>
  (load has .flow k).bind fun w =>
  (orLoad has .iceConc { k with time := some w.time, grid := some w.grid } conc).map fun c => (w, c)

end Verif.Fields.Src
