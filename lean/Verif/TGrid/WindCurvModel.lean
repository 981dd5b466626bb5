import Verif.TGrid.Model
/-!
# Model of winds on a curvilinear grid

Source: `/repo/py_gnome/lib_gnome/TimeGridWind_c.cpp` 878-1078 (`TimeGridWindCurv_c`, behind `c_GridWindMover`). The loading in time is
inherited from `TimeGridVel_c` (`Verif.TGrid.Model`). One component of the velocity. A point of the grid is given by the files with the
records of its values; all points have the same times in C++ (not needed here). Finding the cell of a point and the weights of its
corners is not modelled: a place is the list of the corners with their weights, none outside of the grid. A corner that is -1 in
`fVerdatToNetCDFH` is `none`.
-/
namespace Verif.TGrid.WindCurv

/-- A corner: `alpha` and the files with the values of the point. -/
abbrev Corner := ℚ × Option (List File)

/-- What is returned: an error of `SetInterval`, whatever is in memory (`VelocityRec windVelocity` of 1006 is not initialised, and a time is read at the index -1), or a velocity. -/
inductive Answer where
  | error
  | memory
  | vel (v : ℚ)
  deriving DecidableEq

/-- The sum over the corners, 905-968: corners that are -1 add nothing. The value of a corner in time is that of 905-906, 935-944, which is
`value` of `Verif.TGrid.Model` for currents. -/
def total : List (ℚ × Option (Option ℚ)) → Option ℚ
  | [] => some 0
  | (_, none) :: r => total r
  | (_, some none) :: _ => none
  | (w, some (some x)) :: r => (total r).map (w * x + ·)

/-- `GetScaledPatValue` for values on nodes, 1012-1033, 1071-1072: nothing is set outside of the grid or if the first corner is -1. -/
def nodeAnswer (scale : ℚ) (cs : List (ℚ × Option (Option ℚ))) : Answer :=
  match cs with
  | [] => .memory
  | (_, none) :: _ => .memory
  | c :: r => match total (c :: r) with
    | some x => .vel (scale * x)
    | none => .error

/-- The answers at a place with values on nodes to a sequence of queries. -/
def nodeAsks (scale : ℚ) (cs : List Corner) (qs : List (Int × Bool)) : List Answer :=
  (List.range qs.length).map fun i => nodeAnswer scale (cs.map fun c => (c.1, c.2.map fun fs => ((asks fs {} qs)[i]?).join))

/-- `GetScaledPatValue` for values of cells, 1035-1072: a file with one time is taken as constant also if there are more files (1035), and
`fOverLap` is not looked at (1053). -/
def cellValue (scale : ℚ) (fs : List File) (ext : Bool) (st : St) (t : Int) : Answer :=
  let f := fileAt fs st.cur
  let ts : Option Int := st.start.idx.bind (timeAt f)
  if f.length = 1 ∨ (st.fin.idx = none ∧ ext ∧ (lt? ts (some t) ∨ lt? (some t) ts)) then
    match st.start.data with
    | some x => .vel (scale * x)
    | none => .memory
  else
    match ts, st.fin.idx.bind (timeAt f), st.start.data, st.fin.data with
    | some a, some b, some x, some y =>
      let alpha : ℚ := ((b - t : Int) : ℚ) / ((b - a : Int) : ℚ)
      .vel (scale * (alpha * x + (1 - alpha) * y))
    | _, _, _, _ => .memory

/-- A query for a place inside of the grid, with the value of its cell. -/
def cellAsk (scale : ℚ) (fs : List File) (st : St) (q : Int × Bool) : St × Answer :=
  let r := setInterval fs q.2 st q.1
  (r.1, if r.2 then cellValue scale fs q.2 r.1 q.1 else .error)

/-- The answers in a cell to a sequence of queries. -/
def cellAsks (scale : ℚ) (fs : List File) : St → List (Int × Bool) → List Answer
  | _, [] => []
  | st, q :: qs => (cellAsk scale fs st q).2 :: cellAsks scale fs (cellAsk scale fs st q).1 qs

end Verif.TGrid.WindCurv
