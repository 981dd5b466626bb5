import Mathlib.Data.Rat.Defs
import Mathlib.Algebra.Order.Field.Rat

/-!
# The legend of the ERMA data package: classes of elements and of contours

Source: `py_gnome/gnome/outputters/erma_data_package.py` `spills_match_style` (845-874), `group_like_spills` (878-902),
`generate_cutoff_struct` (905-932), the classes of the layer of the best estimate (1012-1203 of `make_particle_package_layer`), the classes of the
layer of contours (604-620); `gnome/utilities/hull.py` `calculate_contours` (102-165: the columns of a contour).

Simplifications: a spill is its style (`none`: no colour map); an element has a status, a spill, and the value of each column; a class is its condition
and its colour; names, sizes and texts of the legend are left out (their lists must be long enough), and so is the number of
a class in the order of drawing: all classes that an element meets are looked at. The conversions of units for the texts succeed, and a scale has its two ends. Layers with own styles
only (`default_erma_styling=False`).
-/
namespace Verif.OutFiles.Legend

/-- What the colour map and the appearance of a spill say. -/
structure Style where
  data : String
  units : String
  numbers : List ℚ
  bounds : List ℚ
  labels : List String
  scale : ℚ
  colours : List String
  deriving DecidableEq

/-- `spills_match_style` of two spills with colour maps (866-874): the colours are not compared. -/
def matchStyle (a b : Style) : Bool :=
  a.data = b.data && a.units = b.units && a.numbers = b.numbers && a.bounds = b.bounds && a.labels = b.labels && a.scale = b.scale

/-- The first group whose first spill matches takes the spill (886-897); `style i` is the style of spill `i`. -/
def addToGroups (style : Nat → Option Style) (s : Style) (i : Nat) : List (List Nat) → List (List Nat)
  | [] => [[i]]
  | g :: r =>
    match (g.head?.bind style) with
    | some s' => if matchStyle s' s then (g ++ [i]) :: r else g :: addToGroups style s i r
    | none => g :: addToGroups style s i r

/-- The loop over the spills (879-899): the groups and the spills without a style. -/
def groupLoop (style : Nat → Option Style) : List Nat → List (List Nat) × List Nat → List (List Nat) × List Nat
  | [], acc => acc
  | i :: r, acc =>
    match style i with
    | some s => groupLoop style r (addToGroups style s i acc.1, acc.2)
    | none => groupLoop style r (acc.1, acc.2 ++ [i])

/-- `group_like_spills` (878-902), or one group for each spill (1015-1019). -/
def groups (disable : Bool) (spills : List (Option Style)) : List (List Nat) :=
  let style := fun i => (spills[i]?).join
  if disable then (List.range spills.length).map fun i => [i]
  else
    let r := groupLoop style (List.range spills.length) ([], [])
    if r.2 = [] then r.1 else r.1 ++ [r.2]

/-- The columns of the source file (`default_unit_map`, 283-291). -/
def columnOf (d : String) : Option String :=
  if d = "Mass" then some "mass" else if d = "Surface Concentration" then some "surf_conc"
  else if d = "Age" then some "age" else if d = "Viscosity" then some "viscosity" else none

/-- A class: its condition (status, spills, a column with a lower bound, strict or not, and an upper one) and its colour; colour `none` = the default one. -/
structure LClass where
  status : Nat
  spills : List Nat
  column : String
  lo : Option (ℚ × Bool)
  hi : Option ℚ
  colour : Option String

/-- An element of a source file. -/
structure Elem where
  status : Nat
  spill : Nat
  value : String → ℚ

/-- Whether an element meets the condition of a class. -/
def LClass.meets (c : LClass) (e : Elem) : Bool :=
  e.status = c.status && c.spills.contains e.spill &&
    (match c.lo with
      | none => true
      | some (a, true) => decide (a < e.value c.column)
      | some (a, false) => decide (a ≤ e.value c.column)) &&
    (match c.hi with
      | none => true
      | some b => decide (e.value c.column ≤ b))

/-- The bounds of the colour with a number (1059, 1083-1087, 1174): the upper one is the bound with this number, or the end of the scale; the
lower one is the upper one of the colour before. -/
def upper (s : Style) (i : Nat) : ℚ := if s.bounds.length < i + 1 then s.numbers.getD 1 0 else s.bounds.getD i 0
def lower (s : Style) (i : Nat) : ℚ := if i = 0 then s.numbers.getD 0 0 else upper s (i - 1)

/-- The two classes of a colour (1128-1176): floating and beached. -/
def colourClasses (s : Style) (col : String) (g : List Nat) (i : Nat) (colour : String) : List LClass :=
  let n := s.colours.length
  let lohi : Option (ℚ × Bool) × Option ℚ :=
    if i = 0 ∧ n = 1 then (none, none)
    else if i = 0 then (none, some (upper s i))
    else if i = n - 1 then (some (lower s i, false), none)
    else (some (lower s i, true), some (upper s i))
  [⟨2, g, col, lohi.1, lohi.2, some colour⟩, ⟨3, g, col, lohi.1, lohi.2, some colour⟩]

/-- The classes of a group (1024-1199): `none` = an error (a column that is not known, lists that are too short). -/
def groupClasses (spills : List (Option Style)) (g : List Nat) : Option (List LClass) :=
  match g.head?.bind (fun i => (spills[i]?).join) with
  | none => some [⟨2, g, "", none, none, none⟩, ⟨3, g, "", none, none, none⟩]
  | some s =>
    match columnOf s.data with
    | none => none
    | some col =>
      if s.labels.length < s.colours.length ∨ s.numbers.length < 2 then none
      else some ((s.colours.zipIdx).flatMap fun p => colourClasses s col g p.2 p.1)

/-- The classes of the layer of the best estimate (1012-1203). -/
def classes (disable : Bool) (spills : List (Option Style)) : Option (List LClass) :=
  ((groups disable spills).mapM (groupClasses spills)).map List.flatten

/-! ## Contours -/

/-- A cutoff (923-929). -/
structure Cutoff where
  cutoff : ℚ
  id : Nat
  colour : String

/-- The cutoffs of a spill (908-931): the bounds and the end of the scale; `none` = an error (a column that is not known, lists that are too short). -/
def cutoffs (s : Style) : Option (List Cutoff) :=
  match columnOf s.data with
  | none => none
  | some _ =>
    let n := s.bounds.length + 1
    if s.numbers = [] ∨ s.labels.length < n ∨ s.colours.length < n then none
    else some (((s.bounds ++ [s.numbers.getLastD 0]).zip s.colours).zipIdx.map fun p => ⟨p.1.1, p.2, p.1.2⟩)

/-- `generate_cutoff_struct` (905-932): by the number of the spill. -/
def cutoffStruct : List (Option Style) → Nat → Option (List (Nat × List Cutoff))
  | [], _ => some []
  | none :: r, i => cutoffStruct r (i + 1)
  | some s :: r, i => (cutoffs s).bind fun cs => (cutoffStruct r (i + 1)).map fun l => (i, cs) :: l

/-- The classes of the layer of contours (605-620): the condition is the number of the cutoff, from the last spill and cutoff to the first. -/
def contourClasses (st : List (Nat × List Cutoff)) : List (Nat × String) :=
  st.reverse.flatMap fun p => p.2.reverse.map fun c => (c.id, c.colour)

/-- The row of a contour (hull.py 159-164): its spill, the number of its cutoff, and its colour. -/
structure Row where
  spill : Nat
  id : Nat
  colour : String
  deriving DecidableEq

/-- The rows that may be written: one for each spill and cutoff that has elements. -/
def rowOf (p : Nat × Cutoff) : Row := ⟨p.1, p.2.id, p.2.colour⟩

end Verif.OutFiles.Legend
