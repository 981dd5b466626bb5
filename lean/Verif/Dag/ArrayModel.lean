import Verif.Dag.Model

/-!
# The search tree in memory

Model of how `split` (`lib_gnome/MakeDagTree.cpp` 447-568) writes the tree into an array of records and how `WhatTriIsPtIn`
(`lib_gnome/DagTreeIO.cpp` 533-692) walks through it.
-/

namespace Verif.Dag

/-- `DAG` (`lib_gnome/DagStruct.h` 17-23). -/
structure Branch where
  s : Side
  left : Int
  right : Int
deriving DecidableEq, Repr

/-- The records `split` writes for a tree, behind those already there.  A record is begun (zeroed memory), gets its side, then
`branchLeft` before the left branch is written, then `branchRight` before the right one. -/
def emit : Tree → List Branch → List Branch
  | .leaf, arr => arr
  | .node s l r, arr =>
    let b := arr.length
    let a0 := arr ++ [⟨s, 0, 0⟩]
    let a1 := a0.set b ⟨s, if l = .leaf then -8 else a0.length, 0⟩
    let a2 := emit l a1
    let a3 := a2.set b ⟨s, if l = .leaf then -8 else a0.length, if r = .leaf then -8 else a2.length⟩
    emit r a3

/-- `MakeDagTree` with the sides picked by `pick` (`lib_gnome/MakeDagTree.cpp` 447-568): the branches get fewer sides, so this ends.
The side picked is one of the list, so erasing it is leaving it out. -/
def build (m : Mesh) (pick : List Side → Side) (l : List Side) : Tree :=
  if _h : pick l ∈ l then
    .node (pick l) (build m pick ((l.erase (pick l)).filter fun x => m.sideOf (pick l) x ≠ 1))
      (build m pick ((l.erase (pick l)).filter fun x => m.sideOf (pick l) x ≠ -1))
  else .leaf
termination_by l.length
decreasing_by
  all_goals
    have h1 := List.length_erase_of_mem _h
    have h2 := List.length_pos_of_mem _h
    refine lt_of_le_of_lt (List.length_filter_le _ _) ?_
    omega

/-- `WhatTriIsPtIn` as it is written: a loop over indices.  `fuel` counts the steps; `none` when they are used up, `some none` for a
negative answer. -/
def Mesh.loop (m : Mesh) (pt : Pt) (arr : List Branch) : Nat → Int → Nat → Option (Option Nat)
  | 0, _, _ => none
  | fuel + 1, i, third =>
    match arr[i.toNat]? with
    | none => none
    | some b =>
      -- 535
      if b.left = -1 ∨ b.right = -1 then some none
      else if m.left (m.first b.s) (m.second b.s) pt then
        if m.left (m.second b.s) (m.third b.s) pt && m.left (m.third b.s) (m.first b.s) pt then some (some b.s.1)
        else if b.left = -8 then some (m.lost pt b.s (m.third b.s))
        else m.loop pt arr fuel b.left (m.third b.s)
      else match m.right b.s with
        | none => some (m.lost pt b.s third)
        | some j =>
          let c := m.findThird (m.second b.s) (m.first b.s) j
          if m.left c (m.second b.s) pt && m.left (m.first b.s) c pt then some (some j)
          else if b.right = -8 then some (m.lost pt b.s c)
          else m.loop pt arr fuel b.right c

end Verif.Dag
