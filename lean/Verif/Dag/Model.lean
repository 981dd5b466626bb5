import Mathlib.Tactic.Ring

/-!
# Locating a point in a triangular grid

Model of how a current on a triangular grid (`CatsMover`, `ComponentMover`, `c_GridCurrentMover`, …) finds the triangle a point is in:
`lib_gnome/MakeDagTree.cpp` (the search tree) and `lib_gnome/DagTreeIO.cpp` 413-692 (the search).

Simplifications: exact integers (points are in millionths of a degree, the cross products are taken of integers instead of doubles; the
factors 1e-6 are left out); memory is not modelled, the list of triangles is a function with a count; `_NewHandle` never fails.
-/

namespace Verif.Dag

/-- `LongPoint`: longitude and latitude in millionths of a degree. -/
abbrev Pt := ℤ × ℤ

/-- `Topology` (`lib_gnome/DagStruct.h` 5-15): three vertices, three neighbours (`none` for -1); `adj k` is opposite vertex `k`. -/
structure Tri where
  v : Fin 3 → Nat
  adj : Fin 3 → Option Nat

/-- A grid: the points and the triangles. -/
structure Mesh where
  pts : Nat → Pt
  n : Nat
  tri : Nat → Tri

/-- The cross product of `Right_or_Left_of_Segment` (`lib_gnome/DagTreeIO.cpp` 483) and of `Right_or_Left`
(`lib_gnome/MakeDagTree.cpp` 609-610): negative when `t` is left of the line from `p` to `q`. -/
def cp (p q t : Pt) : ℤ := (t.1 - p.1) * (q.2 - p.2) - (t.2 - p.2) * (q.1 - p.1)

/-- A side: a triangle and the number of the vertex it begins at (`topoIndex` is six times the one plus the other,
`lib_gnome/MakeDagTree.cpp` 118, 133, 151). -/
abbrev Side := Nat × Fin 3

/-- The ends of a side and the vertex opposite, `firstPoint`, `secondPoint`, `thirdPoint` (`lib_gnome/DagTreeIO.cpp` 537-543, 549). -/
def Mesh.first (m : Mesh) (s : Side) : Nat := (m.tri s.1).v s.2

def Mesh.second (m : Mesh) (s : Side) : Nat := (m.tri s.1).v (s.2 + 1)

def Mesh.third (m : Mesh) (s : Side) : Nat := (m.tri s.1).v (s.2 + 2)

/-- `triRight` (`lib_gnome/DagTreeIO.cpp` 571): the neighbour opposite the third vertex. -/
def Mesh.right (m : Mesh) (s : Side) : Option Nat := (m.tri s.1).adj (s.2 + 2)

/-- Whether a side is listed for its triangle: the neighbour has a lower number or is missing (`lib_gnome/MakeDagTree.cpp` 98, 122,
136). -/
def Mesh.listed (m : Mesh) (s : Side) : Bool := match m.right s with
  | none => true
  | some j => j < s.1

/-- `BuildSideList` (`lib_gnome/MakeDagTree.cpp` 72-170).  The order, which sorting changes, is of no account below: a tree is built
by picking sides anywhere in the list. -/
def Mesh.sides (m : Mesh) : List Side :=
  ((List.range m.n).flatMap fun (i : Nat) => [(i, (0 : Fin 3)), (i, 1), (i, 2)]).filter fun s => m.listed s

/-- `Right_or_Left` (`lib_gnome/MakeDagTree.cpp` 588-643): -1 when the side `x` is left of the line through `s`, 1 when it is right, 0
when it crosses the line or lies on it.  The code takes the cross products of rescaled coordinates, see `cp_rescaled`. -/
def Mesh.sideOf (m : Mesh) (s x : Side) : Int :=
  let c1 := cp (m.pts (m.first s)) (m.pts (m.second s)) (m.pts (m.first x))
  let c2 := cp (m.pts (m.first s)) (m.pts (m.second s)) (m.pts (m.second x))
  -- 607-617: ends that are shared
  let z1 := if m.first s = m.first x then 0 else c1
  let z2 := if m.first s ≠ m.first x ∧ m.first s = m.second x then 0 else c2
  let w1 := if m.second s = m.first x then 0 else z1
  let w2 := if m.second s ≠ m.first x ∧ m.second s = m.second x then 0 else z2
  if 0 < w1 then (if 0 ≤ w2 then 1 else 0)
  else if w1 = 0 then (if 0 < w2 then 1 else if w2 = 0 then 0 else -1)
  else (if 0 < w2 then 0 else -1)

/-- The search tree.  `leaf` is the branch `-8`. -/
inductive Tree where
  | leaf
  | node (s : Side) (l r : Tree)
deriving DecidableEq

/-- `newNodexx` (`lib_gnome/MakeDagTree.cpp` 357-422) tries sides drawn at random and takes the best of them.  Boundary sides are tried
only when there are no others (390-393).  Left out: which of the sides tried is best; any may be the only one drawn. -/
def Mesh.Pickable (m : Mesh) (l : List Side) (s : Side) : Prop := s ∈ l ∧ (m.right s = none → ∀ x ∈ l, m.right x = none)

instance (m : Mesh) (l : List Side) (s : Side) : Decidable (m.Pickable l s) := by unfold Mesh.Pickable; infer_instance

/-- `split` (`lib_gnome/MakeDagTree.cpp` 447-568): one side is taken out, the others are distributed to the two branches, those that
cross its line to both.  `Built m l t` says that `t` may come of the list `l`.  Simplification: the node keeps its side; the code looks
the side up again by its ends (`oldNodeNum`, 429-440), which are those of one side only. -/
inductive Built (m : Mesh) : List Side → Tree → Prop where
  | nil : Built m [] .leaf
  | node (pre post : List Side) (s : Side) (l r : Tree) :
      m.Pickable (pre ++ s :: post) s →
      Built m ((pre ++ post).filter fun x => m.sideOf s x ≠ 1) l →
      Built m ((pre ++ post).filter fun x => m.sideOf s x ≠ -1) r →
      Built m (pre ++ s :: post) (.node s l r)

/-- `FindTriThirdPoint` (`lib_gnome/DagTreeIO.cpp` 413-429). -/
def Mesh.findThird (m : Mesh) (p1 p2 : Nat) (j : Nat) : Nat :=
  if p1 = (m.tri j).v 0 ∨ p2 = (m.tri j).v 1 then (m.tri j).v 2
  else if p1 = (m.tri j).v 1 ∨ p2 = (m.tri j).v 2 then (m.tri j).v 0
  else if p1 = (m.tri j).v 2 ∨ p2 = (m.tri j).v 0 then (m.tri j).v 1
  else 0

/-- `Right_or_Left_of_Segment` is -1 (`lib_gnome/DagTreeIO.cpp` 445-503). -/
def Mesh.left (m : Mesh) (p q : Nat) (pt : Pt) : Bool := cp (m.pts p) (m.pts q) pt < 0

/-- The vertices `a`, `b`, `c` share a vertex with triangle `i`, as 627-630 test it (`&&` binds to the last comparison only, and the
index is compared with six times the number of the triangle). -/
def Mesh.near (m : Mesh) (s : Side) (c : Nat) (i : Nat) : Bool :=
  let t := m.tri i
  let a := m.first s
  let b := m.second s
  a = t.v 0 ∨ a = t.v 1 ∨ a = t.v 2 ∨ b = t.v 0 ∨ b = t.v 1 ∨ b = t.v 2 ∨ c = t.v 0 ∨ c = t.v 1 ∨ (c = t.v 2 ∧ i ≠ s.1 * 6)

/-- `pt` is left of the three sides of triangle `i` (632-648). -/
def Mesh.inside (m : Mesh) (i : Nat) (pt : Pt) : Bool :=
  let t := m.tri i
  m.left (t.v 0) (t.v 1) pt && m.left (t.v 1) (t.v 2) pt && m.left (t.v 2) (t.v 0) pt

/-- What is done at the end of a branch (`lib_gnome/DagTreeIO.cpp` 602-689): the point may be a vertex of the last triangle looked at, or
in one near it; `none` for -8. -/
def Mesh.lost (m : Mesh) (pt : Pt) (s : Side) (third : Nat) : Option Nat :=
  if pt = m.pts (m.first s) ∨ pt = m.pts (m.second s) ∨ pt = m.pts third then some s.1
  else (List.range m.n).find? fun i => m.near s third i && m.inside i pt

/-- `WhatTriIsPtIn` (`lib_gnome/DagTreeIO.cpp` 514-692), on the tree.  `s` and `third` are the side and the third point looked at before:
at the right of a boundary side (573-578) the third point is that of the node before, or whatever is in memory at the root. -/
def Mesh.go (m : Mesh) (pt : Pt) : Tree → Side → Nat → Option Nat
  | .leaf, s, third => m.lost pt s third
  | .node s l r, _, third =>
    if m.left (m.first s) (m.second s) pt then
      if m.left (m.second s) (m.third s) pt && m.left (m.third s) (m.first s) pt then some s.1
      else m.go pt l s (m.third s)
    else match m.right s with
      | none => m.lost pt s third
      | some j =>
        let c := m.findThird (m.second s) (m.first s) j
        if m.left c (m.second s) pt && m.left (m.first s) c pt then some j
        else m.go pt r s c

/-- The search from the root; `junk` is the index `thirdPoint` holds by chance. -/
def Mesh.locate (m : Mesh) (t : Tree) (junk : Nat) (pt : Pt) : Option Nat := m.go pt t (0, 0) junk

end Verif.Dag
