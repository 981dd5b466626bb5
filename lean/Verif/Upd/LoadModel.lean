import Verif.Upd.ExtractModel

/-!
# Loading by class, and the check of archives from the web

Sources: `py_gnome/gnome/gnomeobject.py` `GnomeId.load` (904-989); `py_gnome/gnome/persist/save_load.py` `is_savezip_valid` (516-587).

Simplifications: a json file is its `obj_type`, if it has one, and the rest; that a class belongs to every `obj_type` and the reading of the rest
(`_schema().load`, `Verif.Persist`) are left out, as is the update of old files (`Verif.Upd`); a folder is the list of its files in the order in which
`glob` gives them; an archive is the list of its entries with the sizes that its headers give, and whether its checksums are right.
-/
namespace Verif.Upd.Load
open Verif.Py Verif.Upd

/-! ### `load` -/

/-- a json file: its class, the rest -/
structure Json where
  cls : Option Nat
  rest : Nat
  deriving DecidableEq, Repr

/-- a file of a folder: json or something else -/
structure FileEntry where
  name : Str
  json : Option Json
  deriving DecidableEq, Repr

inductive Err | notFound | noneOfClass | notJson | wrongClass | typeError | badLocation
  deriving DecidableEq, Repr

/-- what `saveloc` can be -/
inductive Loc
  | folder (fs : List FileEntry)
  | zip (fs : List FileEntry)
  | openZip (fs : List FileEntry)
  | file (j : Option Json)
  | other

/-- the end of a name -/
def endsJson (n : Str) : Bool := ['.', 'j', 's', 'o', 'n'].isSuffixOf n

/-- `glob('*.json')` (942): hidden files are left out -/
def globJson (n : Str) : Bool := endsJson n && n.head? != some '.'

/-- the search 944-955 -/
def search (cls : Nat) : List FileEntry → Except Err Json
  | [] => .error .noneOfClass
  | f :: fs =>
    if globJson f.name then
      match f.json with
      | none => .error .notJson
      | some j => if j.cls = some cls then .ok j else search cls fs
    else search cls fs

/-- a folder (929-955): with a name that file, whatever its class -/
def loadFolder (cls : Nat) (fs : List FileEntry) : Option Str → Except Err Json
  | none => search cls fs
  | some n => match fs.find? (fun f => f.name = n) with
    | none => .error .notFound
    | some f => match f.json with
      | none => .error .notJson
      | some j => .ok j

/-- `load` (928-989): for a json file `'obj_type' in json` (967) asks the module `json` -/
def load (cls : Nat) (loc : Loc) (filename : Option Str) : Except Err Json :=
  match loc with
  | .folder fs => loadFolder cls fs filename
  | .zip fs => loadFolder cls fs filename
  | .openZip fs => loadFolder cls fs filename
  | .file none => .error .notJson
  | .file (some _) => .error .typeError
  | .other => .error .badLocation

/-! ### `is_savezip_valid` -/

/-- an entry: name, size, size in the archive -/
structure Info where
  name : Str
  size : Nat
  packed : Nat
  deriving DecidableEq, Repr

/-- what `testzip` finds: nothing wrong, a bad file, an exception -/
inductive Test | fine | bad | raises
  deriving DecidableEq, Repr

structure Archive where
  isZip : Bool
  test : Test
  entries : List Info

/-- the extension of a name without folders: from the last full stop on, if something other than full stops is before it -/
def extOf (b : Str) : Str :=
  let tail := (b.reverse.takeWhile (· ≠ '.')).reverse
  if '.' ∈ b ∧ ¬ (b.take (b.length - tail.length - 1)).all (· = '.') then '.' :: tail else []

/-- `os.path.splitext(name)[1]` -/
def ext (n : Str) : Str := extOf (basename n)

/-- `'..' in name` (577) -/
def twoDots : Str → Bool
  | [] => false
  | c :: cs => (c = '.' && cs.head? = some '.') || twoDots cs

/-- the loop 558-584 -/
def entriesOk (maxJson maxRatio : Nat) : List Info → Bool
  | [] => true
  | e :: es =>
    if ext e.name = ['.', 'j', 's', 'o', 'n'] ∧ e.size > maxJson then false
    else if e.packed > 0 ∧ e.size > maxRatio * e.packed then false
    else if twoDots e.name then false
    else entriesOk maxJson maxRatio es

/-- `is_savezip_valid` (516-587) -/
def valid (maxJson maxRatio : Nat) (a : Archive) : Bool :=
  if !a.isZip then false
  else if a.test = .raises then false
  else if a.test = .bad then false
  else entriesOk maxJson maxRatio a.entries

end Verif.Upd.Load
