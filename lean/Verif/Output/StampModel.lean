import Mathlib.Algebra.Order.Field.Rat
/-!
# Model of the time stamp of images

Source: `/repo/py_gnome/gnome/outputters/renderer.py` 266-268 (`Renderer.__init__`), 357-391 (`set_timestamp_attrib`), 393-421 (`draw_timestamp`).

Simplifications: values are truth values, texts or places; a value of the wrong kind is refused by py_gd (here: no stamp); the text of the time is not in the model, its format is.
-/
namespace Verif.Output.Stamp

/-- a value of an attribute -/
inductive Val
  | bool (b : Bool)
  | txt (s : String)
  | pos (x y : ℚ)
deriving DecidableEq

/-- a dict: the newest entry comes first -/
abbrev Dict := List (String × Val)

def Dict.get (d : Dict) (k : String) : Option Val := (d.find? (·.1 = k)).map (·.2)

/-- `set_timestamp_attrib(**kwargs)` 391 -/
def set (d : Dict) (kw : List (String × Val)) : Dict := kw.reverse ++ d

/-- the attributes after `Renderer(timestamp_attrib=kw)` 266-268 and calls of `set_timestamp_attrib` -/
def attribs (kw : List (String × Val)) (calls : List (List (String × Val))) : Dict := calls.foldl set (set [] kw)

/-- a stamp: format, background, colour, size, place, alignment -/
structure Drawn where
  format : String
  background : String
  color : String
  size : String
  place : ℚ × ℚ
  align : String
deriving DecidableEq

/-- `d.get(k, default)` of a text; `none`: another kind of value -/
def text (d : Dict) (k dflt : String) : Option String :=
  match d.get k with
  | none => some dflt
  | some (.txt s) => some s
  | some _ => none

/-- the place 413-414 -/
def place (d : Dict) (w h : ℚ) : Option (ℚ × ℚ) :=
  match d.get "position" with
  | none => some (w / 2, h)
  | some (.pos x y) => some (x, y)
  | some _ => none

/-- whether it is on 401-405: what counts as false -/
def isOn (d : Dict) : Bool :=
  match d.get "on" with
  | some (.bool b) => b
  | some (.txt s) => s ≠ ""
  | _ => true

/-- `draw_timestamp` 393-421 on an image of a size -/
def drawn (d : Dict) (w h : ℚ) : Option Drawn :=
  if isOn d then do
    let f ← text d "format" "%c"
    let b ← text d "background" "white"
    let c ← text d "color" "black"
    let s ← text d "size" "small"
    let p ← place d w h
    let a ← text d "alignment" "cb"
    return ⟨f, b, c, s, p, a⟩
  else none

end Verif.Output.Stamp
