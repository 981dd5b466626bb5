import Verif.TSeries.TideFileModel

/-!
# Finding the files that a list names

Sources: `py_gnome/lib_gnome/Replacements.cpp` `ResolvePathFromInputFile` (335-348), `FileExists` (43-47); `py_gnome/lib_gnome/StringFunctions.cpp` `split`,
`SplitPath`, `join` (234-270), `trim` (198-215), `SplitPathIntoDirAndFile` (2330-2341), `ConvertPathToCurrentPlatform` (2371-2379), `ResolvePath`
(2381-2445); `NEWDIRDELIMITER` of `py_gnome/lib_gnome/Basics.h:40`.

Simplifications: not on Windows. `there` says whether a name, as a text, is that of a file or directory (relative names from where the program runs).
`ConvertPathToCurrentPlatform` works on a copy of its argument, so it does nothing. A name that is only white space is left out (then a part that is
not there is looked at).
-/
namespace Verif.GridCur.Resolve

open Verif.TSeries.TideFile (Str trim)

/-- The characters of `find_last_of("\\/")`. -/
def isSep (c : Char) : Bool := c = '\\' || c = '/'

/-- The parts that are not empty (`StringFunctions.cpp:234-245`), with the part that has begun. -/
def parts (acc : Str) : Str → List Str
  | [] => if acc = [] then [] else [acc]
  | c :: r => if isSep c then (if acc = [] then parts [] r else acc :: parts [] r) else parts (acc ++ [c]) r

/-- `SplitPath` (`StringFunctions.cpp:234-258`): an empty first part stands for a separator at the beginning. -/
def split : Str → List Str
  | [] => []
  | c :: r => if isSep c then [] :: parts [] r else parts [c] r

/-- `join(…, "/")` (`StringFunctions.cpp:260-270`). -/
def join : List Str → Str
  | [] => []
  | [a] => a
  | a :: b :: r => a ++ '/' :: join (b :: r)

/-- The directory of `SplitPathIntoDirAndFile` (`StringFunctions.cpp:2330-2341`). -/
def dirOf (s : Str) : Str := ((s.reverse.dropWhile fun c => !isSep c).drop 1).reverse

/-- The loop (`StringFunctions.cpp:2423-2441`). -/
def search (there : Str → Bool) (base : List Str) : List Str → Option Str
  | [] => none
  | c :: r => if there (join (base ++ c :: r)) then some (join (base ++ c :: r)) else search there base r

/-- The directory that is looked in (`StringFunctions.cpp:2389-2396`). -/
def baseDir (list : Str) : Str := trim (if dirOf list = [] then ['.'] else dirOf list)

/-- `ResolvePathFromInputFile` (`Replacements.cpp:335-348`) with `ResolvePath`: the name that is used. -/
def resolve (there : Str → Bool) (list name : Str) : Str :=
  if name = [] then name
  else if there (trim name) then trim name
  else if !there (baseDir list) then name
  else (search there (split (baseDir list)) (split (trim name))).getD name

end Verif.GridCur.Resolve
