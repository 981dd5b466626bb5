import Mathlib.Data.List.Infix
import Verif.TSeries.TideFileModel

/-!
# Which reader opens a gridded file

Sources: `py_gnome/lib_gnome/TimeGridVel_c.cpp` `IsNetCDFPathsFile` (32-102), `IsNetCDFFile` (106-237); `py_gnome/lib_gnome/GridCurrentMover_c.cpp`
`TextRead` (398-516); `py_gnome/lib_gnome/CurrentCycleMover_c.cpp` `TextRead` (283-400); `py_gnome/lib_gnome/GridWindMover_c.cpp` `TextRead` (220-293);
`py_gnome/lib_gnome/IceMover_c.cpp` `TextRead` (303-424); `py_gnome/lib_gnome/IceWindMover_c.cpp` `TextRead` (256-345);
`py_gnome/lib_gnome/Replacements.cpp` `IsGridCurTimeFile` (351-380), `IsGridWindFile` (395-424), `IsPtCurFile` (438-447);
`py_gnome/lib_gnome/StringFunctions.cpp` `NthLineInTextHelper` (1127-1197), `RemoveLeadingTrailingWhiteSpaceHelper` (683-732), `ReadLinesInFile` (2238-2274);
`py_gnome/lib_gnome/GridCurrentMover_c.h:58`, `GridWindMover_c.h:59` (`SetExtrapolationInTime`); `py_gnome/gnome/movers/c_current_movers.py`
(510-534, 775-793), `py_gnome/gnome/movers/c_wind_movers.py` (365-387, 555-575).

Simplifications: a file is its bytes and the global attributes the netCDF library finds when it opens the file (`none` when it does not). Names fit
the 256 characters of the buffers and texts of attributes the buffers of theirs. What the readers do with the inside of a file, and what
`ReadInputFileNames` does with the names of a list, is a parameter that says whether they end without an error; so is the resolution of a name in a list against the
place of the list. The byte that is written before a buffer for an empty file is left out.
-/
namespace Verif.GridCur.Open

open Verif.TSeries.TideFile (Str isSpace scanWord speed Speed beginsText)

/-- The global attributes that are looked at (`TimeGridVel_c.cpp:152-218`). -/
structure Attrs where
  gridType : Option Str := none
  source : Option Str := none
  model : Option Str := none
  generator : Option Str := none

structure File where
  bytes : Str
  attrs : Option Attrs := none

/-- `gridType` (`TypeDefs.h:351`). -/
inductive Kind | regular | swafs | curv | tri
  deriving DecidableEq

/-- The classes that read (`GridCurrentMover_c.cpp:415-423, 457, 488`, `GridWindMover_c.cpp:239-244, 272`, `IceMover_c.cpp:320-322`). -/
inductive Reader
  | curv | tri | rect | points
  | table (u : Speed)
  deriving DecidableEq

/-- What there is on the disk and what the readers do with it. -/
structure World where
  file : Str → Option File
  resolve : Str → Str → Str
  takes : Reader → Str → Bool
  names : Str → Bool

/-- The classes of Python: `c_GridCurrentMover`, `CurrentCycleMover`, `c_GridWindMover`, `IceMover`, `IceWindMover`. -/
inductive Mover | current | cycle | wind | ice | iceWind
  deriving DecidableEq

/-- `firstPartOfFile` (`TimeGridVel_c.cpp:55-58, 122-125`): up to 512 bytes, the last of which is replaced with 0. -/
def firstPart (f : File) : Str := f.bytes.take (min 512 f.bytes.length - 1)

/-- `!strncmp(firstPartOfFile, "CDF", 3)` (`TimeGridVel_c.cpp:129`). -/
def isNetCdf (f : File) : Bool := (firstPart f).take 3 = "CDF".toList

/-- `strstrnocase` (`StringFunctions.cpp:941-960`). -/
def hasText (s : Str) (t : String) : Bool := (s.map Char.toUpper).tails.any fun r => (t.toList.map Char.toUpper).isPrefixOf r

/-- `TimeGridVel_c.cpp:203-226`. -/
def kindOfModel (a : Attrs) : Kind :=
  match a.model.or a.generator with
  | none => .regular
  | some s => if s.take 5 = "SWAFS".toList then .swafs else .regular

/-- `*gridType` of `IsNetCDFFile` (`TimeGridVel_c.cpp:137-229`). -/
def kindOf : Option Attrs → Kind
  | none => .regular
  | some a =>
    match a.gridType with
    | some g =>
      if beginsText g "REGULAR" || beginsText g "UNIFORM" || beginsText g "RECTANGULAR" then .regular
      else if beginsText g "CURVILINEAR" || beginsText g "RECTILINEAR" || hasText g "curv" then .curv
      else if beginsText g "TRIANGULAR" then .tri
      else kindOfModel a
    | none =>
      match a.source with
      | some s => if beginsText s "Surface Ocean HF-Radar" then .regular else kindOfModel a
      | none => kindOfModel a

/-- An end of a line. -/
def isEnd (c : Char) : Bool := c = '\n' || c = '\r'

/-- Past the end of the line (`StringFunctions.cpp:1181-1185`). -/
def pastEnd : Str → Str
  | '\r' :: '\n' :: r => r
  | _ :: r => r
  | [] => []

/-- `NthLineInTextNonOptimized(text, 0, …)` (`StringFunctions.cpp:1127-1207`). -/
def lineZero (s : Str) : Str := s.takeWhile fun c => !isEnd c

/-- `NthLineInTextNonOptimized(text, 1, …)`. -/
def lineOne (s : Str) : Str := lineZero (pastEnd (s.dropWhile fun c => !isEnd c))

/-- White space of `RemoveLeadingTrailingWhiteSpaceHelper` (`StringFunctions.cpp:695-731`). -/
def isWhite (c : Char) : Bool := c = ' ' || c = '\t' || c = '\n' || c = '\r'

/-- `RemoveLeadingAndTrailingWhiteSpace` (`StringFunctions.cpp:747-750`). -/
def strip (s : Str) : Str := ((s.reverse.dropWhile isWhite).reverse).dropWhile isWhite

/-- The text in the buffer: up to the first 0. -/
def text (f : File) : Str := (firstPart f).takeWhile (· ≠ '\x00')

/-- The name after `[FILE]` (`TimeGridVel_c.cpp:65-84`). -/
def firstName (f : File) : Option Str :=
  if !beginsText (strip (lineZero (text f))) "NetCDF Files" then none
  else if !beginsText (strip (lineOne (text f))) "[FILE]" then none
  else some (strip ((strip (lineOne (text f))).drop 6))

/-- `IsNetCDFFile` (`TimeGridVel_c.cpp:106-237`). -/
def asNetCdf (w : World) (p : Str) : Option Kind :=
  match w.file p with
  | some f => if isNetCdf f then some (kindOf f.attrs) else none
  | none => none

/-- `IsNetCDFPathsFile` (`TimeGridVel_c.cpp:32-102`): the file to read, and its grid. -/
def asList (w : World) (p : Str) : Option (Str × Kind) :=
  match (w.file p).bind firstName with
  | none => none
  | some n => (asNetCdf w (w.resolve p n)).map fun k => (w.resolve p n, k)

/-- The reader of a netCDF file (`GridCurrentMover_c.cpp:415-423`, `CurrentCycleMover_c.cpp:300-308`, `GridWindMover_c.cpp:239-244`,
`IceMover_c.cpp:320-328`, `IceWindMover_c.cpp:273-281`). -/
def pick : Mover → Kind → Option Reader
  | .current, .curv | .cycle, .curv => some .curv
  | .current, .tri | .cycle, .tri => some .tri
  | .current, _ | .cycle, _ => some .rect
  | .wind, .curv => some .curv
  | .wind, _ => some .rect
  | .ice, .curv | .iceWind, .curv => some .curv
  | .ice, _ | .iceWind, _ => none

/-- What comes of it. `nothing`: no error and no grid. `crash`: a call through a null pointer. -/
inductive Out
  | reads (r : Reader) (path : Str) (list : Option Str)
  | refused
  | nothing
  | crash
  deriving DecidableEq

/-- The first line (`StringFunctions.cpp:2238-2274`; `rtrim_empty_lines` leaves it). -/
def firstLine (f : File) : Str := lineZero f.bytes

/-- `lineStream >> value1S >> value2S`. -/
def twoWords (s : Str) : Option (Str × Str) :=
  (scanWord s).bind fun a => (scanWord a.2).map fun b => (a.1, b.1)

/-- `IsPtCurFile` (`Replacements.cpp:438-447`). -/
def isPoints (f : File) : Bool :=
  match twoWords (firstLine f) with
  | some (a, b) => a = "[FILETYPE]".toList && b = "PTCUR".toList
  | none => false

/-- `IsGridCurTimeFile`, `IsGridWindFile` (`Replacements.cpp:351-380, 395-424`). -/
def asTable (keys : List String) (f : File) : Option Speed :=
  match twoWords (firstLine f) with
  | some (a, b) => if keys.any (fun k => a = k.toList) then speed b else none
  | none => none

/-- One reader of a text file. -/
def readText (w : World) (p : Str) (r : Reader) : Out := if w.takes r p then .reads r p none else .refused

/-- The part of `TextRead` for text files (`GridCurrentMover_c.cpp:447-514`, `GridWindMover_c.cpp:263-292`, `IceMover_c.cpp:352-422`: all of it
in a comment). -/
def openText (m : Mover) (w : World) (p : Str) (f : File) : Out :=
  match m with
  | .current | .cycle =>
    if isPoints f then readText w p .points
    else match asTable ["[GRIDCURTIME]"] f with
      | some u => readText w p (.table u)
      | none => .refused
  | .wind =>
    match asTable ["[GRIDWIND]", "[GRIDWINDTIME]"] f with
    | some u => readText w p (.table u)
    | none => .refused
  | .ice | .iceWind => .nothing

/-- The part of `TextRead` for netCDF files (`GridCurrentMover_c.cpp:412-445`). -/
def openNc (m : Mover) (w : World) (q : Str) (k : Kind) (list : Option Str) : Out :=
  match pick m k with
  | some r =>
    if !w.takes r q then .refused
    else match list with
      | some l => if w.names l then .reads r q list else .refused
      | none => .reads r q none
  | none => if list.isSome then .crash else .nothing

/-- `TextRead` of the five classes. -/
def textRead (m : Mover) (w : World) (p : Str) (f : File) : Out :=
  match asNetCdf w p with
  | some k => openNc m w p k none
  | none =>
    match asList w p with
    | some (q, k) => openNc m w q k (some p)
    | none => openText m w p f

/-- The constructor of a mover (`c_current_movers.py:510-534, 775-793`): a file that is not there is refused; after `text_read` comes
`extrapolate_in_time`, which calls the grid. -/
def make (m : Mover) (w : World) (p : Str) : Out :=
  match w.file p with
  | none => .refused
  | some f =>
    match textRead m w p f with
    | .nothing => .crash
    | o => o

end Verif.GridCur.Open
