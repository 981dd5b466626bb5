import Verif.Cache.Model

/-!
# Images of a run

Source: `py_gnome/gnome/outputters/renderer.py` `Renderer`: the names of its files (77-79, 253-260), `formats` (310-318),
`prepare_for_model_run` (330-357), `clean_output_files` (423-437), `draw_elements` (525-565), `write_output` (608-675).

Simplifications: a path is its list of parts, and says whether it is absolute (`.` counts for nothing; patterns in the name of the
folder are left out); the file system is the list of paths of files; images are lists of marks in the order of drawing; steps that
are not written are left out; an animation is a file. `_write_step` and `on` are dealt with in `Verif.Output`.
-/
namespace Verif.Output.Render
open Verif.Cache (decimal padLeft)

abbrev Name := List Char

structure Path where
  abs : Bool
  parts : List Name
  deriving DecidableEq, Repr

/-- `os.path.join` -/
def join (a b : Path) : Path := if b.abs then b else ⟨a.abs, a.parts ++ b.parts⟩

/-- a name in a folder -/
def inDir (d : Path) (n : Name) : Path := join d ⟨false, [n]⟩

def backgroundMap : Name := ['b', 'a', 'c', 'k', 'g', 'r', 'o', 'u', 'n', 'd', '_', 'm', 'a', 'p', '.']
def foreground : Name := ['f', 'o', 'r', 'e', 'g', 'r', 'o', 'u', 'n', 'd', '_']
def gif : Name := ['g', 'i', 'f']
def animGif : Name := ['a', 'n', 'i', 'm', '.', 'g', 'i', 'f']

/-- `foreground_{0:05d}.` of a step (78); `decimal 0` is empty and the padding supplies the figures -/
def foreName (n : Nat) : Name := foreground ++ padLeft 5 (decimal n) ++ ['.']

/-- `foreground_?????.*` (79): the beginning, any five characters, a full stop, anything -/
def foreGlob (n : Name) : Bool := n.take 11 == foreground && (n.drop 16).head? == some '.'

/-- the settings: folder, prefix of the name of the animation (253-259), formats -/
structure Cfg where
  dir : Path
  mapPrefix : Name := []
  formats : List Name

/-- `anim_filename` (260) -/
def anim (c : Cfg) : Path := inDir c.dir (c.mapPrefix ++ animGif)

/-- the paths of `glob(os.path.join(output_dir, x) + "*")` -/
def starts (q p : Path) : Bool :=
  p.abs == q.abs && p.parts.dropLast == q.parts.dropLast &&
    match p.parts.getLast?, q.parts.getLast? with
    | some a, some b => b.isPrefixOf a
    | _, _ => false

/-- `clean_output_files` (423-437): what is removed. The folder is put before the name of the animation once more. -/
def cleaned (c : Cfg) (p : Path) : Bool :=
  starts (inDir c.dir backgroundMap) p ||
  (p.abs == c.dir.abs && p.parts.dropLast == c.dir.parts && match p.parts.getLast? with
    | some n => foreGlob n
    | none => false) ||
  starts (join c.dir (anim c)) p

abbrev Files := List Path

/-- a file is written -/
def put (p : Path) (fs : Files) : Files := if p ∈ fs then fs else fs ++ [p]

/-- `prepare_for_model_run` (344-357) -/
def prepare (c : Cfg) (fs : Files) : Files :=
  c.formats.foldl (fun fs f => if f = gif then put (anim c) fs else put (inDir c.dir (backgroundMap ++ f)) fs)
    (fs.filter fun p => !cleaned c p)

/-- `write_output` for a step that is written (636-675): the files, and the name that is handed back. The name grows with each format. -/
def write (c : Cfg) (n : Nat) (fs : Files) : Files × Name :=
  c.formats.foldl (fun s f => if f = gif then s else (put (inDir c.dir (s.2 ++ f)) s.1, s.2 ++ f)) (fs, foreName n)

/-- a run: preparation and the steps written -/
def run (c : Cfg) (fs : Files) (ns : List Nat) : Files := ns.foldl (fun fs n => (write c n fs).1) (prepare c fs)

/-! ### Drawing -/

inductive Shape | x | round
  deriving DecidableEq, Repr

inductive Color | le | uncert | tidal | ramp (k : Nat)
  deriving DecidableEq, Repr

/-- an element: where it is (with its depth), its status -/
structure Elem (α : Type) where
  pos : α
  status : Int
  deriving DecidableEq, Repr

structure Cont (α : Type) where
  uncertain : Bool
  elems : List (Elem α)

structure Mark (α : Type) where
  pos : α
  shape : Shape
  size : Nat
  color : Color
  deriving DecidableEq, Repr

/-- `draw_elements` (525-565): `ramp` is the colour scheme by depth, if any; 3 is `on_land`, 32 `on_tideflat` -/
def drawElements {α : Type} (size : Nat) (ramp : Option (α → Nat)) (sc : Cont α) : List (Mark α) :=
  let color := if sc.uncertain then Color.uncert else Color.le
  let water (a : α) : Color := match ramp with
    | some r => .ramp (r a)
    | none => color
  (sc.elems.filter fun e => e.status = 3).map (fun e => ⟨e.pos, .x, size, color⟩) ++
  (sc.elems.filter fun e => e.status = 32).map (fun e => ⟨e.pos, .round, 2, .tidal⟩) ++
  (sc.elems.filter fun e => !(e.status = 3) && !(e.status = 32)).map (fun e => ⟨e.pos, .round, size, water e.pos⟩)

/-- the choice of `draw_ontop` -/
inductive Top | forecast | uncertain
  deriving DecidableEq, Repr

/-- the elements of a step (647-657) -/
def drawStep {α : Type} (top : Top) (size : Nat) (ramp : Option (α → Nat)) (scp0 : Cont α) (scp1 : Option (Cont α)) : List (Mark α) :=
  match scp1 with
  | none => drawElements size ramp scp0
  | some u => match top with
    | .forecast => drawElements size ramp u ++ drawElements size ramp scp0
    | .uncertain => drawElements size ramp scp0 ++ drawElements size ramp u

end Verif.Output.Render
