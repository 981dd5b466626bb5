/-!
# The files of a netCDF output

Source: `py_gnome/gnome/outputters/netcdf.py` `NetCDFOutput.__init__` (349-359: the names), `prepare_for_model_run` (521-665: the files),
`write_output` (720-797), `post_model_run` and `_zip_output_files` (799-830), `clean_output_files` (832-849), `NetCDFOutputSchema`
(171-191: what is saved); `outputters/outputter.py` `_file_exists_error` (505-518), `OutputterFilenameMixin` (521-556);
`gnomeobject.py` `new_from_dict` (455-471); `os.path.splitext` of the Python library.

Simplifications: a file is what was written to it, step by step; a file system is the files by name, names are not folders and
`./x` is `x`; a file that is removed while it is written is gone (POSIX); the outputter is on; a step gives the forecast data and
the data of the uncertainty run.
-/
namespace Verif.OutFiles.NcFile

abbrev Str := List Char

/-- The part of a path after the last `/`: `os.path.split(p)[1]`. -/
def baseName (p : Str) : Str := (p.reverse.takeWhile (· ≠ '/')).reverse

/-- The extension without its dot, if the last component has a dot (it is what follows the last one). -/
def afterDot (b : Str) : Str := (b.reverse.takeWhile (· ≠ '.')).reverse

/-- The last component before the last dot. -/
def beforeDot (b : Str) : Str := b.take (b.length - ((afterDot b).length + 1))

/-- `os.path.splitext`: dots that a name begins with do not begin an extension. -/
def splitExt (p : Str) : Str × Str :=
  if '.' ∈ baseName p ∧ (beforeDot (baseName p)).any (· ≠ '.') then
    (p.take (p.length - ((afterDot (baseName p)).length + 1)), p.drop (p.length - ((afterDot (baseName p)).length + 1)))
  else (p, [])

/-- The names that the outputter keeps, and `zip_output`. -/
structure Nc where
  filename : Str
  forecast : Str
  unc : Str
  zip : Str
  zipOut : Bool
  deriving DecidableEq, Repr

/-- `__init__` (349-359) -/
def make (f : Str) (z : Bool) : Nc :=
  { filename := if z then (splitExt f).1 ++ ".zip".toList else f
    forecast := f
    unc := (splitExt f).1 ++ ("_uncertain".toList ++ (splitExt f).2)
    zip := (splitExt f).1 ++ ".zip".toList
    zipOut := z }

/-- A file: a netCDF file with the data of its steps, an archive of files by name (`none`: something that is no netCDF file), or
another file. -/
inductive File (α : Type) | nc (steps : List α) | zip (members : List (Str × Option (List α))) | other (n : Nat)
  deriving DecidableEq, Repr

abbrev FS (α : Type) := Str → Option (File α)

variable {α : Type}

def rm (fs : FS α) (p : Str) : FS α := fun q => if q = p then none else fs q

def put (fs : FS α) (p : Str) (c : File α) : FS α := fun q => if q = p then some c else fs q

/-- `clean_output_files` (832-849 and outputter.py 544-556) -/
def clean (o : Nc) (fs : FS α) : FS α := rm (rm (rm fs o.filename) o.unc) o.forecast

/-- `_file_exists_error` and `nc.Dataset(file_, 'w')` (589-592) -/
def create (fs : FS α) (p : Str) : Option (FS α) := if (fs p).isSome then none else some (put fs p (.nc []))

/-- `prepare_for_model_run` (567-592) -/
def prepare (o : Nc) (u : Bool) (fs : FS α) : Option (FS α) :=
  (create (clean o fs) o.forecast).bind fun fs => if u then create fs o.unc else some fs

/-- A step added to a file that is opened with mode `'a'` (748-784). -/
def add (fs : FS α) (p : Str) (d : α) : Option (FS α) :=
  match fs p with
  | some (.nc l) => some (put fs p (.nc (l ++ [d])))
  | _ => none

/-- `write_output` (739-784) -/
def write (o : Nc) (u : Bool) (fs : FS α) (d : α × α) : Option (FS α) :=
  (add fs o.forecast d.1).bind fun fs => if u then add fs o.unc d.2 else some fs

def stepsOf : File α → Option (List α)
  | .nc l => some l
  | _ => none

/-- A file is written to the archive and removed (818-828). -/
def move (fs : FS α) (p : Str) (m : List (Str × Option (List α))) : Option (FS α × List (Str × Option (List α))) :=
  match fs p with
  | some c => some (rm fs p, m ++ [(baseName p, stepsOf c)])
  | none => none

/-- The archive is closed (830): what was removed meanwhile does not come back. -/
def close (fs : FS α) (p : Str) (m : List (Str × Option (List α))) : FS α :=
  if (fs p).isSome then put fs p (.zip m) else fs

/-- `_zip_output_files` (813-830): opening the archive for writing empties the file of its name. -/
def zipFiles (o : Nc) (u : Bool) (fs : FS α) : Option (FS α) :=
  (move (put fs o.zip (.zip [])) o.forecast []).bind fun r =>
    if u then (move r.1 o.unc r.2).map fun r => close r.1 o.zip r.2 else some (close r.1 o.zip r.2)

/-- `post_model_run` (799-811) -/
def post (o : Nc) (u : Bool) (fs : FS α) : Option (FS α) := if o.zipOut then zipFiles o u fs else some fs

/-- The steps of a run, one after the other. -/
def steps (o : Nc) (u : Bool) : List (α × α) → FS α → Option (FS α)
  | [], fs => some fs
  | d :: r, fs => (write o u fs d).bind (steps o u r)

/-- A run whose written steps have the data `ds`; `none`: it ends with an error. -/
def run (o : Nc) (u : Bool) (ds : List (α × α)) (fs : FS α) : Option (FS α) :=
  ((prepare o u fs).bind (steps o u ds)).bind (post o u)

/-- What is saved of the names (171-191), and the outputter that is made of it. -/
def reload (o : Nc) : Nc := make o.filename o.zipOut

/-- `o.filename = f` (outputter.py 533-542) -/
def setName (o : Nc) (f : Str) : Nc := { o with filename := f }

/-- `o.zip_output = z`, a plain attribute that can be updated (189-191). -/
def setZip (o : Nc) (z : Bool) : Nc := { o with zipOut := z }

end Verif.OutFiles.NcFile
