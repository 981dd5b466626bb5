import Mathlib.Data.Int.Log
import Mathlib.Data.Rat.Floor
import Mathlib.Algebra.Order.Field.Rat
/-!
# Model of the topology files of gridded movers

Source: `/repo/py_gnome/lib_gnome/TimeGridVel_c.cpp` 10730-10942 (`TimeGridVelTri_c::ExportTopology`; `TimeGridVelCurv_c::ExportTopology` 6655-6860 writes the same), 10482-10727 (`ReadTopology`);
`/repo/py_gnome/lib_gnome/DagTreeIO.cpp` 22-80 (`ReadTIndexedDagTreeBody`), 112-226 (`ReadTVerticesBody`), 229-253 (`ReadTVertices`), 275-360 (`ReadTTopologyBody`), 950-1003 (`ReadTransposeArray`);
`/repo/py_gnome/lib_gnome/StringFunctions.cpp` 317-339 (`ParseKeyedLine`), 403-535 (`ParseLine`); written and named by `c_GridCurrentMover.__init__`, `/repo/py_gnome/gnome/movers/c_current_movers.py` 538-545.

Simplifications: a line is the list of its fields, told apart as words, integers and numbers with six decimals; the sections on boundaries, which are not written (they are comments), are not in the model, nor are the depths after reading (they are thrown away, 10693-10696); integers are unbounded; doubles are rational numbers with 53 bits and any exponent, rounded to nearest even.
-/
namespace Verif.Dag.Topo

/-- rounding to the nearest integer, to even in the middle -/
def rne (q : ℚ) : Int :=
  let f := ⌊q⌋
  if q - f < 1 / 2 then f else if 1 / 2 < q - f then f + 1 else if f % 2 = 0 then f else f + 1

/-- the double next to a positive number -/
def flPos (q : ℚ) : ℚ := rne (q / 2 ^ (Int.log 2 q - 52)) * 2 ^ (Int.log 2 q - 52)

/-- the double next to a number -/
def fl (q : ℚ) : ℚ := if q = 0 then 0 else if 0 < q then flPos q else -flPos (-q)

/-- a double assigned to a `long` -/
def trunc (q : ℚ) : Int := if 0 ≤ q then ⌊q⌋ else ⌈q⌉

/-- A field of a line: a word, an integer, or a number with six decimals, in millionths. -/
inductive Tok
  | word (s : String)
  | int (n : Int)
  | dec (n : Int)
deriving DecidableEq, Repr

abbrev Line := List Tok

/-- A triangle: vertices and neighbours (`Topology`). -/
structure Tri where
  v1 : Int
  v2 : Int
  v3 : Int
  n1 : Int
  n2 : Int
  n3 : Int
deriving DecidableEq, Repr

/-- A branch of the tree (`DAG`). -/
structure Branch where
  topo : Int
  left : Int
  right : Int
deriving DecidableEq, Repr

/-- What a mover has of its grid: order of the nodes of the file (empty if there is none), vertices in millionths of a degree, triangles, tree. -/
structure Grid where
  order : List Int
  pts : List (Int × Int)
  tris : List Tri
  tree : List Branch
deriving DecidableEq, Repr

/-- `printf("%lf", h / 1000000.0)` 10816-10827 -/
def printDeg (h : Int) : Tok := .dec (rne (1000000 * fl (h / 1000000)))

/-- A vertex, with its depth if there are depths 10814-10831 -/
def printPt (p : Int × Int) (z : Option ℚ) : Line := [printDeg p.1, printDeg p.2] ++ (z.map fun d => Tok.dec (rne (1000000 * d))).toList

/-- The lines of the vertices; `depths`: if there are any, a depth for each -/
def ptLines (pts : List (Int × Int)) : Option (List ℚ) → List Line
  | none => pts.map fun p => printPt p none
  | some ds => List.zipWith (fun p d => printPt p (some d)) pts ds

/-- `ExportTopology` 10788-10936 -/
def exportTopology (g : Grid) (depths : Option (List ℚ)) : List Line :=
  (if g.order = [] then [] else [.word "TransposeArray", .int g.order.length] :: g.order.map fun i => [.int i]) ++
  [[.word "Vertices", .int g.pts.length], [.int g.pts.length, .int g.pts.length]] ++
  ptLines g.pts depths ++
  [[.word "Topology", .int g.tris.length]] ++
  (g.tris.map fun t => [.int t.v1, .int t.v2, .int t.v3, .int t.n1, .int t.n2, .int t.n3]) ++
  [[.word "DAGTree", .int g.tree.length]] ++
  g.tree.map fun b => [.int b.topo, .int b.left, .int b.right]

/-- a header: the key in any case, and a number -/
def header (key : String) (l : Line) : Option Nat :=
  match l with
  | .word s :: .int n :: _ => if s.toLower = key then some n.toNat else none
  | _ => none

/-- a number with decimals, or an integer, read as a double -/
def toDouble : Tok → Option ℚ
  | .int n => some (fl n)
  | .dec n => some (fl (n / 1000000))
  | .word _ => none

/-- the first fields as integers -/
def ints : Nat → Line → Option (List Int)
  | 0, _ => some []
  | n + 1, .int k :: l => (ints n l).map (k :: ·)
  | _ + 1, _ => none

/-- the first fields as doubles -/
def doubles : Nat → Line → Option (List ℚ)
  | 0, _ => some []
  | n + 1, t :: l => (toDouble t).bind fun d => (doubles n l).map (d :: ·)
  | _ + 1, [] => none

/-- `n` lines, each read with `f`; what is read and the rest -/
def block {α : Type} (f : Line → Option α) : Nat → List Line → Option (List α × List Line)
  | 0, ls => some ([], ls)
  | _ + 1, [] => none
  | n + 1, l :: ls => (f l).bind fun a => (block f n ls).map fun r => (a :: r.1, r.2)

/-- `1000000 * x` put into a `long` (DagTreeIO.cpp 170-171, 189-190, 198-199) -/
def degIn (x : ℚ) : Int := trunc (fl (1000000 * x))

/-- a line of a vertex with or without depth -/
def readPt (depth : Bool) (l : Line) : Option (Int × Int) :=
  match doubles (if depth then 3 else 2) l with
  | some (x :: y :: _) => some (degIn x, degIn y)
  | _ => none

/-- `ReadTVerticesBody`: the first line tells if there are depths 160-168 -/
def readPts (n : Nat) (ls : List Line) : Option (List (Int × Int) × List Line) :=
  match ls with
  | _ :: l :: ls => block (readPt (doubles 3 l).isSome) n (l :: ls)
  | _ => none

def readTri (l : Line) : Option Tri :=
  match ints 6 l with
  | some [a, b, c, d, e, f] => some ⟨a, b, c, d, e, f⟩
  | _ => none

def readBranch (l : Line) : Option Branch :=
  match ints 3 l with
  | some [a, b, c] => some ⟨a, b, c⟩
  | _ => none

def readIndex (l : Line) : Option Int := (ints 1 l).bind List.head?

/-- `ReadTransposeArray` if the first line is its header 10506-10518 -/
def readOrder (ls : List Line) : Option (List Int × List Line) :=
  match ls with
  | [] => none
  | l :: rest =>
    match header "transposearray" l with
    | some n => block readIndex n rest
    | none => some ([], ls)

/-- the branches: reading ends after one with -1 (DagTreeIO.cpp 60-61), the others are not set; here that is an error -/
def readTree (n : Nat) (ls : List Line) : Option (List Branch) :=
  (block readBranch n ls).bind fun r => if n = 0 ∨ (∃ b ∈ r.1.dropLast, b.topo = -1) then none else some r.1

/-- a section with its header -/
def sect {α : Type} (key : String) (body : Nat → List Line → Option α) (ls : List Line) : Option α :=
  match ls with
  | [] => none
  | l :: rest => (header key l).bind fun n => body n rest

/-- `ReadTopology` 10482-10696, `none`: an error -/
def read (ls : List Line) : Option Grid :=
  (readOrder ls).bind fun o =>
  (sect "vertices" readPts o.2).bind fun p =>
  (sect "topology" (fun n ls => if n = 0 then none else block readTri n ls) p.2).bind fun t =>
  (sect "dagtree" readTree t.2).map fun b => ⟨o.1, p.1, t.1, b⟩

end Verif.Dag.Topo
