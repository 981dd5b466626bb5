import Verif.Py

/-!
# Shapefile output: the names of the files and what is in them

Source: `py_gnome/gnome/outputters/shape.py` `ShapeOutput.__init__` (53-118), `prepare_for_model_run` (121-139),
`write_output` (182-187, the name that is reported), `post_model_run` (189-234), `create_bundle` (237-260);
`gnome/utilities/shapefile_builder.py` `ShapefileBuilder.__init__`, `write` (23-71).

Simplifications: the name of a file (without its folder) is the list of its parts between dots, as `pathlib` sees it: all
parts are non-empty; a shapefile that is not zipped has the three files `.shp`, `.shx`, `.dbf`; the data of a layer is the
layer; folders of the output and of the temporary files are dictionaries.
-/
namespace Verif.OutFiles
open Verif.Py (Dict)

/-- A file name: its parts between dots. -/
abbrev Name := List (List Char)

/-- Suffixes and tags (shape.py 74-88, 218-234). -/
def zipX : List Char := ['z', 'i', 'p']
def shpX : List Char := ['s', 'h', 'p']
def shxX : List Char := ['s', 'h', 'x']
def dbfX : List Char := ['d', 'b', 'f']
def tagC : List Char := ['_', 'c', 'e', 'r', 't', 'a', 'i', 'n']
def tagCB : List Char := ['_', 'c', 'e', 'r', 't', 'a', 'i', 'n', '_', 'b', 'o', 'u', 'n', 'd', 'a', 'r', 'y']
def tagU : List Char := ['_', 'u', 'n', 'c', 'e', 'r', 't', 'a', 'i', 'n']
def tagUB : List Char := ['_', 'u', 'n', 'c', 'e', 'r', 't', 'a', 'i', 'n', '_', 'b', 'o', 'u', 'n', 'd', 'a', 'r', 'y']
def tagB : List Char := ['_', 'b', 'o', 'u', 'n', 'd', 'a', 'r', 'y']

/-- `Path.stem`. -/
def stem (n : Name) : Name := if n.length ≤ 1 then n else n.dropLast

/-- `Path.with_suffix`. -/
def withSuffix (n : Name) (suf : List Char) : Name := stem n ++ [suf]

/-- Text appended to a name. -/
def addText (n : Name) (t : List Char) : Name := n.dropLast ++ [n.getLastD [] ++ t]

/-- `str.removesuffix`. -/
def removeText (n : Name) (t : List Char) : Name :=
  if t <:+ n.getLastD [] then n.dropLast ++ [(n.getLastD []).take ((n.getLastD []).length - t.length)] else n

inductive Layer | certain | certainB | uncertain | uncertainB
  deriving DecidableEq, Repr

/-- The tags of the builders (79-82). -/
def tag : Layer → List Char
  | .certain => tagC
  | .certainB => tagCB
  | .uncertain => tagU
  | .uncertainB => tagUB

/-- What a file is: a zipped shapefile, one file of a raw shapefile, or a bundle of files. -/
inductive Content
  | zipped (l : Layer)
  | raw (l : Layer)
  | bundle (es : List (Name × Content))

abbrev Dir := Dict Name Content

/-- Settings (53-62). -/
structure SCfg where
  name : Name
  zip : Bool := true
  certB : Bool := false
  uncB : Bool := true

/-- The name that is reported (74-78, 137-138, 185-187). -/
def reported (c : SCfg) (unc : Bool) : Name :=
  if unc then withSuffix (if c.zip || c.certB || c.uncB then withSuffix c.name zipX else withSuffix c.name shpX) zipX
  else if c.zip || c.certB || c.uncB then withSuffix c.name zipX else withSuffix c.name shpX

/-- The file of a builder (shape.py 84-88, shapefile_builder.py 28-34): the tag is appended to the stem, then the suffix
replaces what follows the last dot. -/
def builderFile (c : SCfg) (l : Layer) : Name :=
  withSuffix (addText (stem c.name) (tag l)) (if c.zip then zipX else shpX)

/-- `ShapefileBuilder.write` (shapefile_builder.py 46-71). -/
def writeLayer (c : SCfg) (tmp : Dir) (l : Layer) : Dir :=
  let f := builderFile c l
  if c.zip then tmp.set f (.zipped l)
  else ((tmp.set (withSuffix f shpX) (.raw l)).set (withSuffix f shxX) (.raw l)).set (withSuffix f dbfX) (.raw l)

/-- The layers that are asked for, in the order in which they are written (192-200) and bundled (242-258). -/
def layers (c : SCfg) (unc : Bool) : List Layer :=
  .certain :: ((if c.certB then [.certainB] else []) ++
    (if unc then .uncertain :: (if c.uncB then [.uncertainB] else []) else []))

/-- `create_bundle` (237-260): the files of the builders under their names; `none` = a file is not there. -/
def bundle (c : SCfg) (tmp : Dir) (ls : List Layer) : Option Content :=
  (ls.mapM fun l => (tmp.get? (builderFile c l)).map fun x => (builderFile c l, x)).map .bundle

/-- The files that belong to a builder (223, 229): those whose names go on after the stem. -/
def globbed (c : SCfg) (l : Layer) (tmp : Dir) : List (Name × Content) :=
  tmp.filter fun e => decide (stem (builderFile c l) <+: e.1 ∧ (stem (builderFile c l)).length < e.1.length)

/-- The copies of the files of a builder (221-234): a text is cut off the stem and another one is appended. -/
def copyAll (out : Dir) (cut add : List Char) : List (Name × Content) → Dir
  | [] => out
  | e :: r => copyAll (out.set (addText (removeText (stem e.1) cut) add ++ [e.1.getLastD []]) e.2) cut add r

/-- `post_model_run` (189-234): the folder of the output afterwards, `none` = an error. -/
def postShape (c : SCfg) (unc : Bool) (tmp out : Dir) : Option Dir :=
  let tmp := (layers c unc).foldl (writeLayer c) tmp
  if unc then (bundle c tmp (layers c unc)).map fun b => out.set (reported c unc) b
  else if c.zip then
    if c.certB then (bundle c tmp (layers c unc)).map fun b => out.set (reported c unc) b
    else (tmp.get? (builderFile c .certain)).map fun b => out.set (reported c unc) b
  else some (copyAll (copyAll out tagC [] (globbed c .certain tmp)) tagCB
    tagB (globbed c .certainB tmp))

end Verif.OutFiles
