import Verif.Py

/-!
# Unpacking a save file

Source: `py_gnome/gnome/utilities/save_updater.py` `extract_zipfile` (431-477), `sanitize_filename` (480-492).

Simplifications: a name is a list of characters, the content of a file anything; `os.path.join` of a folder and a name
without separators is that name in the folder; the rewriting of names within json files is left out.
-/
namespace Verif.Upd
open Verif.Py

abbrev Str := List Char

/-- The characters that are removed (491). -/
def forbidden : List Char := ['\\', '/', '*', '?', ':', '"', '<', '>', '|']

/-- `sanitize_filename` (480-492). -/
def sanitize (s : Str) : Str := s.filter fun c => !forbidden.contains c

/-- `os.path.basename` (posix): what follows the last slash. -/
def basename (s : Str) : Str := (s.reverse.takeWhile (· ≠ '/')).reverse

/-- Names of folders end with a slash (433, 441). -/
def isFolder (s : Str) : Bool := s.getLast? = some '/'

/-- The folders that count (433-434). -/
def folders {C : Type} (z : List (Str × C)) : List Str :=
  (z.map Prod.fst).filter fun n => isFolder n && !("__MACOSX".toList.isPrefixOf n)

/-- `prefix` (435-438). -/
def pref {C : Type} (z : List (Str × C)) : Option Str := match folders z with
  | [p] => some p
  | _ => none

/-- The condition 442: `(prefix and name.find(prefix) != 0) or name.endswith('/')`. -/
def ignored (p : Option Str) (n : Str) : Bool :=
  (match p with
   | some p => !p.isPrefixOf n
   | none => false) || isFolder n

/-- The name in the folder (446-447). -/
def target (n : Str) : Str := sanitize (basename n)

/-- The loop 441-454 into an empty folder: files are overwritten. -/
def unpack {C : Type} (p : Option Str) : List (Str × C) → Dict Str C → Dict Str C
  | [], d => d
  | (n, c) :: z, d => if ignored p n then unpack p z d else unpack p z (d.set (target n) c)

/-- `extract_zipfile` (431-477). -/
def extract {C : Type} (z : List (Str × C)) : Dict Str C := unpack (pref z) z []

end Verif.Upd
