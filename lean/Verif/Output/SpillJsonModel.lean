import Mathlib.Algebra.Order.Field.Rat
import Verif.Hull.Model

/-!
# Elements of a step as sent to the web client

Source: `py_gnome/gnome/outputters/json.py` `SpillJsonOutput` (60-274): `generate_cutoff_struct` (115-145), `write_output` (147-274);
`py_gnome/gnome/utilities/hull.py` `calculate_hull` (21-77), `calculate_contours` (101-165).

Simplifications: a hull is the list of elements it is drawn around, and every hull is a polygon (points and lines are widened, 12-19);
arrays have one number per element; `list(set(...))` of the numbers of spills keeps the order of first appearance; names of arrays,
colours and labels are numbers or strings; the `output_to_file` that is called for an `output_dir` is no method of the class
(nor of `Outputter`), so the call is an AttributeError.
-/
namespace Verif.Output.SpillJson

inductive Err | attribute | key | index | value
  deriving DecidableEq, Repr

/-- An element: what all have, and its entries in the arrays of the container. -/
structure El where
  lon : ℚ
  lat : ℚ
  z : ℚ
  status : Int
  mass : ℚ
  age : ℚ
  spill : Nat
  data : String → ℚ

/-- A container loaded from the cache: its elements, the arrays it has besides those that all have, whether it is uncertain. -/
structure Sc where
  els : List El
  names : List String
  unc : Bool

/-- One of the dictionaries in `certain` and `uncertain` (166-182). -/
structure Table where
  lon : List ℚ
  lat : List ℚ
  status : List Int
  mass : List ℚ
  spill : List Nat
  length : Nat
  extra : List (String × List ℚ)
  deriving DecidableEq

/-- `sc[name]` for an array that not all containers have. -/
def column (sc : Sc) (d : String) : Except Err (List ℚ) :=
  if d ∈ sc.names then .ok (sc.els.map fun e => e.data d) else .error .key

/-- One of the additional lists (184-191). -/
def extraCol (around : Nat → ℚ → ℚ) (sc : Sc) (d : String) : Except Err (List ℚ) :=
  if d = "viscosity" ∨ d = "surface_concentration" then (column sc d).map (·.map (around 8))
  else if d = "depth" then .ok (sc.els.map fun e => around 4 e.z)
  else (column sc d).map (·.map (around 4))

def extras (around : Nat → ℚ → ℚ) (sc : Sc) : List String → Except Err (List (String × List ℚ))
  | [] => .ok []
  | d :: ds => do
    let c ← extraCol around sc d
    let r ← extras around sc ds
    .ok ((d, c) :: r)

/-- 162-191. -/
def table (around : Nat → ℚ → ℚ) (add : List String) (sc : Sc) : Except Err Table := do
  let x ← extras around sc add
  .ok { lon := sc.els.map fun e => around 5 e.lon, lat := sc.els.map fun e => around 5 e.lat, status := sc.els.map El.status
        mass := sc.els.map fun e => around 4 e.mass, spill := sc.els.map El.spill
        length := (sc.els.map fun e => around 5 e.lon).length, extra := x }

/-! ## Contours -/

/-- A colormap: the end of the scale, the cutoffs, labels and colours. -/
structure Colormap where
  numDomain : List ℚ
  colDomain : List ℚ
  labels : List String
  colors : List String

/-- The appearance of a spill. -/
structure Appear where
  contours : Bool
  cmap : Option Colormap
  param : String

structure Cut where
  value : ℚ
  color : String
  label : String
  deriving DecidableEq

/-- 134-142: `labels[idx]` and `colors[idx]` can be missing. -/
def mkCuts (cm : Colormap) : Nat → List ℚ → Except Err (List Cut)
  | _, [] => .ok []
  | i, v :: vs =>
    match cm.labels[i]?, cm.colors[i]? with
    | some l, some c => do
      let r ← mkCuts cm (i + 1) vs
      .ok (⟨v, c, l⟩ :: r)
    | _, _ => .error .index

/-- The columns for the parameters (79-92). -/
def unitMap (p : String) : Option String :=
  if p = "Mass" then some "mass" else if p = "Surface Concentration" then some "surf_conc" else if p = "Age" then some "age"
  else if p = "Viscosity" then some "viscosity" else if p = "Depth" then some "depth" else if p = "Windage" then some "windage" else none

/-- A spill's entry (118-144): the column and the cutoffs; nothing for a spill that is drawn without contours. -/
def cutsOf (a : Appear) : Except Err (Option (String × List Cut)) :=
  match a.contours, a.cmap with
  | true, some cm =>
    match unitMap a.param with
    | none => .error .value
    | some col =>
      match cm.numDomain.getLast? with
      | none => .error .index
      | some m => do
        let cs ← mkCuts cm 0 (cm.colDomain ++ [m])
        .ok (some (col, cs))
  | _, _ => .ok none

/-- `generate_cutoff_struct` (115-145), spills from number `i`. -/
def cutStruct (i : Nat) : List Appear → Except Err (List (Nat × String × List Cut))
  | [] => .ok []
  | a :: l => do
    let c ← cutsOf a
    let r ← cutStruct (i + 1) l
    match c with
    | some p => .ok ((i, p) :: r)
    | none => .ok r

/-- A feature: spill, colour, label and the elements it is drawn around. -/
structure Feature where
  spill : Nat
  color : String
  label : String
  els : List El

/-- The columns of the data frame (hull.py 108-124). -/
def frame (sc : Sc) (col : String) : Except Err (El → ℚ) :=
  if col = "mass" then .ok El.mass else if col = "age" then .ok El.age
  else if col = "surf_conc" then (if "surface_concentration" ∈ sc.names then .ok (·.data "surface_concentration") else .error .key)
  else if col = "viscosity" then (if "viscosity" ∈ sc.names then .ok (·.data "viscosity") else .error .key)
  else .error .key

/-- The contours of a spill (hull.py 127-164). -/
def spillFeatures (els : List El) (s : Nat) (val : El → ℚ) (cs : List Cut) : List Feature :=
  (List.range cs.length).filterMap fun i =>
    let its := (els.filter fun e => e.spill = s).filter fun e => Verif.Hull.inClass (cs.map Cut.value) i (val e)
    match cs[i]? with
    | some c => if its.isEmpty then none else some ⟨s, c.color, c.label, its⟩
    | none => none

def featuresLoop (sc : Sc) : List (Nat × String × List Cut) → Except Err (List (List Feature))
  | [] => .ok []
  | (s, col, cs) :: l => do
    let v ← frame sc col
    let r ← featuresLoop sc l
    .ok (spillFeatures sc.els s v cs :: r)

/-- `calculate_contours` and the collection of features per spill (221-245): spills without a contour do not appear. -/
def contourList (sc : Sc) (cuts : List (Nat × String × List Cut)) : Except Err (List (List Feature)) :=
  if cuts = [] ∨ sc.els.isEmpty then .ok [] else do
    let r ← featuresLoop sc cuts
    .ok (r.filter fun l => !l.isEmpty)

/-! ## The step -/

structure Cfg where
  add : List String
  bounds : Bool
  outputDir : Bool

structure Out where
  certain : List Table
  contours : List (List (List Feature))
  uncertain : List Table
  /-- The elements each hull is drawn around (`calculate_hull` of all containers, united, 196-216): none without elements. -/
  bounds : List (List (List El))

/-- The turn of the loop for a container (161-246). `all`: all containers of the step. -/
def turn (around : Nat → ℚ → ℚ) (c : Cfg) (cuts : List (Nat × String × List Cut)) (all : List Sc) (o : Out) (sc : Sc) : Except Err Out := do
  let t ← table around c.add sc
  if sc.unc then
    .ok { o with uncertain := o.uncertain ++ [t]
                 bounds := if c.bounds then o.bounds ++ [if (all.flatMap Sc.els).isEmpty then [] else [all.flatMap Sc.els]] else o.bounds }
  else do
    let f ← contourList sc cuts
    .ok { o with certain := o.certain ++ [t], contours := o.contours ++ [f] }

def turns (around : Nat → ℚ → ℚ) (c : Cfg) (cuts : List (Nat × String × List Cut)) (all : List Sc) : Out → List Sc → Except Err Out
  | o, [] => .ok o
  | o, sc :: l => do
    let o' ← turn around c cuts all o sc
    turns around c cuts all o' l

/-- `write_output` (147-274) for a step that is written. -/
def write (around : Nat → ℚ → ℚ) (c : Cfg) (apps : List Appear) (all : List Sc) : Except Err Out := do
  let cuts ← cutStruct 0 apps
  let o ← turns around c cuts all ⟨[], [], [], []⟩ all
  if c.outputDir then .error .attribute else .ok o

end Verif.Output.SpillJson
