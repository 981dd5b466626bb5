/-!
# Model of where an object is saved

Source: `/repo/py_gnome/gnome/gnomeobject.py` `GnomeId.save` 788-903; `/repo/py_gnome/gnome/utilities/save_updater.py` `sanitize_filename` 480-492;
`/repo/py_gnome/gnome/model.py` `Model.save` 1447-1488, `_save_spill_data` 1490-1516; `/repo/py_gnome/gnome/outputters/netcdf.py` `clean_output_files` 832-849.

Simplifications: a path is its text, and two texts are two places; files hold opaque contents `C`; an archive is the list of its entries in the order written, and
reading takes the last entry of a name (Python's `zipfile`). What the schemas write for an object (`_save`, `Verif.Persist`) is given by a function of the names
that the archive has already; `ok = false`: it raised an exception after the entries listed. `parent p`: the folder of `p` exists and can be written to.
-/
namespace Verif.Persist.SaveLoc

abbrev Path := List Char
abbrev Entries (C : Type) := List (Path × C)

/-- what is at a path -/
inductive Node (C : Type) where
  | dir
  | zip (es : Entries C)
  | other (c : C)

abbrev FS (C : Type) := Path → Option (Node C)

/-- `ZipFile.read`: the last entry of the name -/
def read {C : Type} (es : Entries C) (n : Path) : Option C := ((es.filter (fun e => e.1 == n)).getLast?).map Prod.snd

/-- the `saveloc` argument -/
inductive Loc (C : Type) where
  | none
  | path (p : Path)
  | archive (es : Entries C)

/-- what happened -/
inductive Res (C : Type) where
  | open (es : Entries C)
  | saved (p : Path)
  | valueError
  | typeError
  | osError
  | failed

/-- the entries that `_save` writes -/
structure Written (C : Type) where
  entries : Entries C
  ok : Bool

/-- an object: its name, what is written for it, and the two files of versions (895-896) -/
structure Obj (C : Type) where
  name : Path
  write : List Path → Written C
  version : C
  pygnome : C

/-- characters `sanitize_filename` removes (save_updater.py 492) -/
def bad (c : Char) : Bool := c == '\\' || c == '/' || c == '*' || c == '?' || c == ':' || c == '"' || c == '<' || c == '>' || c == '|'

def sanitize (n : Path) : Path := n.filter (fun c => !bad c)

def dotGnome : Path := ".gnome".toList
def dotZip : Path := ".zip".toList
def versionTxt : Path := "version.txt".toList
def pygnomeTxt : Path := "pygnome_version.txt".toList

/-- `os.path.join(saveloc, n + '.gnome')` 862 -/
def inDir (d n : Path) : Path := d ++ ['/'] ++ sanitize n ++ dotGnome

/-- 874-875 -/
def withSuffix (p : Path) : Path := if dotZip <:+ p ∨ dotGnome <:+ p then p else p ++ dotGnome

def FS.set {C : Type} (fs : FS C) (p : Path) (n : Option (Node C)) : FS C := fun q => if q = p then n else fs q

/-- `zipfile.is_zipfile` -/
def isZip {C : Type} (fs : FS C) (p : Path) : Option (Entries C) :=
  match fs p with
  | some (.zip es) => some es
  | _ => none

def isDir {C : Type} (fs : FS C) (p : Path) : Bool :=
  match fs p with
  | some .dir => true
  | _ => false

/-- the entries of an archive that had `old` after 893-896; a failed write leaves what came before it -/
def filled {C : Type} (o : Obj C) (old : Entries C) : Entries C :=
  let w := o.write (old.map Prod.fst)
  if w.ok then old ++ w.entries ++ [(versionTxt, o.version), (pygnomeTxt, o.pygnome)] else old ++ w.entries

/-- open the archive at `p` with the entries `old`, fill and close it 869-903 -/
def writeTo {C : Type} (parent : Path → Bool) (o : Obj C) (p : Path) (old : Entries C) (fs : FS C) : Res C × FS C :=
  if parent p ∧ isDir fs p = false then
    (if (o.write (old.map Prod.fst)).ok then .saved p else .failed, fs.set p (some (.zip (filled o old))))
  else (.osError, fs)

/-- `GnomeId.save` 788-903 -/
def save {C : Type} (parent : Path → Bool) (o : Obj C) (loc : Loc C) (overwrite : Bool) (fs : FS C) : Res C × FS C :=
  match loc with
  | .archive _ => (.typeError, fs)
  | .none => (if (o.write []).ok then .open (filled o []) else .failed, fs)
  | .path p =>
    if isDir fs p then
      if (fs (inDir p o.name)).isSome ∧ overwrite = false then (.valueError, fs)
      else writeTo parent o (inDir p o.name) [] fs
    else if overwrite then writeTo parent o (withSuffix p) [] fs
    else
      match isZip fs (withSuffix p) with
      | some old => writeTo parent o (withSuffix p) old fs
      | none => (.valueError, fs)

/-! ### a model in the middle of a run -/

def ncName : Path := "spills_data_arrays.nc".toList
def ncUncertain : Path := "spills_data_arrays_uncertain.nc".toList

/-- the state of the elements in the middle of a run -/
structure MidRun (C : Type) where
  state : C
  uncertain : Option C

/-- files added to the archive 1502-1513 -/
def MidRun.entries {C : Type} (m : MidRun C) : Entries C :=
  (ncName, m.state) :: (match m.uncertain with | some u => [(ncUncertain, u)] | none => [])

/-- `_save_spill_data`: the state is written to the working directory, put into the archive and removed; `clean_output_files` removes what was there -/
def tidy {C : Type} (fs : FS C) : FS C := (fs.set ncName none).set ncUncertain none

/-- `Model.save`; `none`: not in a run -/
def saveModel {C : Type} (parent : Path → Bool) (o : Obj C) (run : Option (MidRun C)) (loc : Loc C) (overwrite : Bool) (fs : FS C) : Res C × FS C :=
  match run with
  | none => save parent o loc overwrite fs
  | some m =>
    match save parent o loc overwrite fs with
    | (.open es, fs') => (.open (es ++ m.entries), tidy fs')
    | (.saved p, fs') =>
      match isZip fs' p with
      | some es => (.saved p, (tidy fs').set p (some (.zip (es ++ m.entries))))
      | none => (.saved p, tidy fs')
    | r => r

end Verif.Persist.SaveLoc
