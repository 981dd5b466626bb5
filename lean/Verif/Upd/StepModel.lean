import Verif.Py

/-!
# Bringing save files up to date

Source: `py_gnome/gnome/utilities/save_updater.py` `update_savefile` (57-88), `v0tov1` (91-190), `v1tov2` (193-261),
`v3tov4` (326-369), `all_update_steps` (496-501).

Simplifications: a json file is its kind and the fields that the steps look at; file names are numbers, except in
`Verif.Upd.ExtractModel`. The order of `glob` is the order of the list. Renamings of classes (`v2tov3`, `v4tov5`) only
change the kind and are left out.
-/
namespace Verif.Upd
open Verif.Py

abbrev File := Nat

/-! ## References to files that are removed -/

/-- `for item in l: if item in rm: l.remove(item)` (357-359): the iterator holds an index into the list that changes. -/
def dropLoop (rm : List File) (l : List File) (i : Nat) : List File :=
  if h : i < l.length then
    if rm.contains l[i] then dropLoop rm (l.erase l[i]) (i + 1) else dropLoop rm l (i + 1)
  else l
termination_by l.length - i
decreasing_by
  · have := List.length_erase_of_mem (List.getElem_mem h)
    omega
  · omega

/-- The weatherers of a model after `v3tov4` (350-360). -/
def dropRefs (rm : List File) (l : List File) : List File := dropLoop rm l 0

/-! ## Substances of old spills -/

/-- A spill before: the file of its element type. -/
structure Spill0 where
  file : File
  et : File
deriving DecidableEq

/-- A spill after: the substance. -/
structure Spill1 where
  file : File
  sub : File
deriving DecidableEq

/-- The parts of a save file of version 0 that matter: element types in the order of the files, each with its substance. -/
structure Save0 where
  ets : List (File × File)
  spills : List Spill0

/-- `v0tov1` (127-187): the first element type gives the substance; `substance_fn` is not bound without any. -/
def v0tov1 (s : Save0) : Option (List Spill1) := match s.ets, s.spills with
  | [], [] => some []
  | [], _ :: _ => none
  | (_, sub) :: _, sp => some (sp.map fun p => { file := p.file, sub := sub })

/-! ## Windages -/

/-- An object with initializers (files), and its windages if it has any. -/
structure Obj where
  inits : Option (List File)
  windage : Option Nat
deriving DecidableEq

/-- A folder: objects, `InitWindages` files with their windages, other initializers, the version. -/
structure Folder where
  objs : List Obj
  winds : Dict File Nat
  version : Nat
deriving DecidableEq

/-- One initializer of an object (248-254). -/
def windOne (winds : Dict File Nat) (a : Obj × List File) (f : File) : Obj × List File := match winds.get? f with
  | some w => ({ inits := none, windage := some w }, a.2 ++ [f])
  | none => a

/-- The windages that an object gets, and the files to be removed (245-254): the object is only written when a windage is found,
and then without initializers. -/
def takeWind (winds : Dict File Nat) (o : Obj) : Obj × List File := match o.inits with
  | none => (o, [])
  | some l => l.foldl (windOne winds) (o, [])

/-- `for fname in files_to_remove: Path(fname).unlink()` (259-260): the first file that is not there raises. -/
def unlinkAll : List File → Dict File Nat → Dict File Nat × Bool
  | [], d => (d, true)
  | f :: fs, d => if d.has f then unlinkAll fs (d.del f) else (d, false)

/-- `v1tov2` from 241: the folder left and whether it went through. -/
def v1tov2 (s : Folder) : Folder × Bool :=
  let r := s.objs.map (takeWind s.winds)
  let u := unlinkAll (r.flatMap Prod.snd) s.winds
  ({ objs := r.map Prod.fst, winds := u.1, version := 2 }, u.2)

/-! ## The steps -/

/-- `for i in range(v, len(all_update_steps)): step(…)` (76-84): a step gives a new folder and whether errors occurred. -/
def runFrom {S : Type} : List (S → S × Bool) → S → S × Bool
  | [], s => (s, true)
  | f :: fs, s => match f s with
    | (s', true) => runFrom fs s'
    | (s', false) => (s', false)

/-- `update_savefile` (57-88): the version is 0 without a version file. -/
def update {S : Type} (steps : List (S → S × Bool)) (version : S → Option Nat) (s : S) : S × Bool :=
  runFrom (steps.drop ((version s).getD 0)) s

end Verif.Upd
