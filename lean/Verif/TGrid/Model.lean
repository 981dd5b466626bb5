import Mathlib.Data.List.Infix
import Mathlib.Data.Rat.Defs
import Mathlib.Algebra.Order.Field.Rat
/-!
# Model of the loading in time of gridded currents

Source: `/repo/py_gnome/lib_gnome/TimeGridVel_c.cpp` and `GridCurrentMover_c.cpp` (the mover behind `c_GridCurrentMover`, one file or a
list of files). A record is a time with the value of one component of the velocity at one point (in C++ a handle with the values at all
points); a file is its records. Times are integers; those asked for are taken less `fTimeShift`, which the code adds to every time it
compares with (but for `nodes` below). Currents that are not cyclic (`bIsCycleMover` false, `fTimeAlpha` -1) only. Reading records never
fails. The index -1 (`UNASSIGNEDINDEX`) is `none`.
-/
namespace Verif.TGrid

/-- a record: time and value -/
abbrev Rec := Int × ℚ
abbrev File := List Rec

/-- `LoadedData`: `timeIndex` and `dataHdl` -/
structure Loaded where
  idx : Option Nat := none
  data : Option ℚ := none
deriving DecidableEq

/-- The fields of `TimeGridVel_c`: `cur` is the file whose times are in `fTimeHdl` and whose path is `fVar.pathName`; `fStartData`,
`fEndData`, `fOverLap`, `fOverLapStartTime`. -/
structure St where
  cur : Nat := 0
  start : Loaded := {}
  fin : Loaded := {}
  over : Bool := false
  overStart : Int := 0
deriving DecidableEq

/-- the times in `fTimeHdl` and the data of the file with that path; past the end there is nothing (in C++, whatever is in memory) -/
def timeAt (f : File) (i : Nat) : Option Int := f[i]?.map Prod.fst
def dataAt (f : File) (i : Nat) : Option ℚ := f[i]?.map Prod.snd
def fileAt (fs : List File) (i : Nat) : File := fs[i]?.getD []

/-- `(*fInputFilesHdl)[i].startTime`, `.endTime`, as read from the files in `ReadInputFileNames` 512- -/
def startTime (fs : List File) (i : Nat) : Option Int := timeAt (fileAt fs i) 0
def endTime (fs : List File) (i : Nat) : Option Int := timeAt (fileAt fs i) ((fileAt fs i).length - 1)

/-- `a ≤ b`, `a < b`, `a = b` of times read; false if there is nothing to read -/
def le? (a b : Option Int) : Bool := match a, b with | some x, some y => decide (x ≤ y) | _, _ => false
def lt? (a b : Option Int) : Bool := match a, b with | some x, some y => decide (x < y) | _, _ => false
def eq? (a b : Option Int) : Bool := match a, b with | some x, some y => decide (x = y) | _, _ => false

/-- the interval search 425-434: the first `i` below `numTimes - 1` with the time between those of `i` and `i + 1` -/
def findIv (f : File) (t : Int) : Option Nat :=
  (List.range (f.length - 1)).find? (fun i => le? (timeAt f i) (some t) && le? (some t) (timeAt f (i + 1)))

/-- `CheckInterval` 321-472: the state (`fOverLap` may be reset), whether the interval is loaded, and `timeDataInterval`, which is left as
it was where the code does not set it. -/
def checkInterval (fs : List File) (ext : Bool) (st : St) (t : Int) (iv : Int) : St × Bool × Int :=
  let f := fileAt fs st.cur
  if f.length = 0 then (st, false, 0)
  else if f.length = 1 ∧ ¬ 1 < fs.length then (st, decide (st.start.idx = some 0) && st.start.data.isSome, -1)
  else
    let loaded : Option Nat := match st.start.idx, st.fin.idx with
      | some a, some b => if le? (timeAt f a) (some t) && le? (some t) (timeAt f b) then some b else none
      | _, _ => none
    match loaded with
    | some b => (st, true, b)
    | none =>
      if 1 < fs.length ∧ st.over = true ∧ st.overStart ≤ t ∧ le? (some t) (st.fin.idx.bind (timeAt f)) = true then
        (st, true, iv)
      else
        let st := if 1 < fs.length then { st with over := false } else st
        match findIv f t with
        | some i => (st, false, i + 1)
        | none =>
          if lt? (some t) (timeAt f 0) then
            if ¬ eq? (timeAt f 0) (startTime fs 0) then (st, false, 0)
            else (st, ext && st.fin.idx.isNone && st.start.idx.isSome, 0)
          else if lt? (timeAt f (f.length - 1)) (some t) then
            if ¬ eq? (timeAt f (f.length - 1)) (endTime fs (fs.length - 1)) then (st, false, f.length)
            else (st, ext && st.fin.idx.isNone && st.start.idx.isSome, f.length)
          else (st, false, iv)

/-- the loading of a time between the last record of file `i - 1` and the first of file `i`, 1426-1450 (for a file of one time, which
always reads both) and 1455-1483: the end data is kept as start data if it is for the last time of file `i - 1`. `test` is `testTime`,
the time of the end data (uninitialised in C++ if there is none). -/
def loadGap (fs : List File) (st : St) (test : Option Int) (i : Nat) : St :=
  let prev := fileAt fs (i - 1)
  { cur := i
    start := ⟨none, if eq? (endTime fs (i - 1)) test then st.fin.data else dataAt prev (prev.length - 1)⟩
    fin := ⟨some 0, dataAt (fileAt fs i) 0⟩
    over := true
    overStart := (endTime fs (i - 1)).getD 0 }

/-- the three tests of the loop of `CheckAndScanFile` for file `i`: the time is within a file of several times; it is that of a file of
one time; it is between the file before and this one -/
def inFile (fs : List File) (t : Int) (i : Nat) : Bool :=
  le? (startTime fs i) (some t) && le? (some t) (endTime fs i) && !eq? (startTime fs i) (endTime fs i)
def atFile (fs : List File) (t : Int) (i : Nat) : Bool :=
  eq? (startTime fs i) (endTime fs i) && eq? (startTime fs i) (some t)
def beforeFile (fs : List File) (t : Int) (i : Nat) : Bool :=
  decide (0 < i) && lt? (endTime fs (i - 1)) (some t) && lt? (some t) (startTime fs i)

/-- `CheckAndScanFile` 1389-1513; `none` is an error -/
def scan (fs : List File) (ext : Bool) (st : St) (t : Int) : Option St :=
  let test : Option Int := st.fin.idx.bind (timeAt (fileAt fs st.cur))
  match (List.range fs.length).find? (fun i => inFile fs t i || atFile fs t i || beforeFile fs t i) with
  | some i =>
    if inFile fs t i then some { st with cur := i, over := false }
    else if atFile fs t i then some (loadGap fs st none (if i < fs.length - 1 then i + 1 else i))
    else some (loadGap fs st test i)
  | none =>
    if ext && lt? (endTime fs (fs.length - 1)) (some t) then some { st with cur := fs.length - 1, over := false }
    else if ext && lt? (some t) (startTime fs 0) then some { st with cur := 0, over := false }
    else none

/-- 1347-1374: the start data is disposed of and replaced by the end data if that has the index wanted, else both are read; the end data
is read if there is an index for it. -/
def load (fs : List File) (st : St) (a : Nat) (b : Option Nat) : St :=
  let f := fileAt fs st.cur
  let start : Loaded := if st.fin.idx = some a then (if st.fin.data.isSome then st.fin else ⟨some a, dataAt f a⟩) else ⟨some a, dataAt f a⟩
  let fin : Loaded := match b with
    | some k => if k < f.length then ⟨some k, dataAt f k⟩ else {}
    | none => {}
  { st with start := start, fin := fin }

/-- `SetInterval` 1270-1386: the state, and whether it succeeded -/
def setInterval (fs : List File) (ext : Bool) (st : St) (t : Int) : St × Bool :=
  let (st, loaded, iv) := checkInterval fs ext st t 0
  let fail : St × Bool := ({ st with start := {}, fin := {} }, false)
  let n := (fileAt fs st.cur).length
  if loaded then (st, true)
  else if n = 1 ∧ ¬ 1 < fs.length then (load fs st 0 none, true)
  else if iv = 0 ∨ iv = n then
    if 1 < fs.length then
      match scan fs ext st t with
      | none => fail
      | some st =>
        if st.over then (st, true)
        else
          let (st, loaded, iv) := checkInterval fs ext st t iv
          let n := (fileAt fs st.cur).length
          if ext ∧ (iv = n ∨ iv = 0) then
            if loaded then (st, true) else (load fs st (iv - 1).toNat none, true)
          else (load fs st (iv - 1).toNat (some iv.toNat), true)
    else if ext ∧ iv = n then
      let st := { st with start := { st.start with idx := some (n - 1) }, fin := { st.fin with idx := none } }
      (load fs st (n - 1) (some n), true)
    else if ext ∧ iv = 0 then
      let st := { st with start := { st.start with idx := some 0 }, fin := { st.fin with idx := none } }
      (load fs st 0 none, true)
    else fail
  else (load fs st (iv - 1).toNat (some iv.toNat), true)

/-- `GetScaledPatValue` 1604-1666 (`TimeGridVelRect_c`; the others alike), the part that is about time: the start data alone, or both data
weighted by `timeAlpha`. For data on the nodes of a curvilinear grid (`nodes`, `GetInterpolatedValue` 2829-2848) the weight is computed
anew from the times without `fTimeShift` (`shift`) and without regard to `fOverLap`. -/
def value (fs : List File) (nodes : Bool) (shift : Int) (ext : Bool) (st : St) (t : Int) : Option ℚ :=
  let f := fileAt fs st.cur
  let ts : Option Int := st.start.idx.bind (timeAt f)
  if (f.length = 1 ∧ ¬ 1 < fs.length) ∨
     (st.fin.idx = none ∧ ext ∧ (lt? ts (some t) ∨ lt? (some t) ts)) then st.start.data
  else
    let s : Option Int := if 1 < fs.length ∧ st.over ∧ nodes = false then some st.overStart else ts
    match s, st.fin.idx.bind (timeAt f), st.start.data, st.fin.data with
    | some a, some b, some x, some y =>
      let alpha : ℚ := ((b - (if nodes then t + shift else t) : Int) : ℚ) / ((b - a : Int) : ℚ)
      some (alpha * x + (1 - alpha) * y)
    | _, _, _, _ => none

/-- A query, as made by `PrepareForModelStep` or by each of the stages of `GetMove`, with the extrapolation in force: the state after and
the value (`none`: an error). -/
def ask (fs : List File) (st : St) (q : Int × Bool) : St × Option ℚ :=
  let r := setInterval fs q.2 st q.1
  (r.1, if r.2 then value fs false 0 q.2 r.1 q.1 else none)

/-- the values for a sequence of queries -/
def asks (fs : List File) : St → List (Int × Bool) → List (Option ℚ)
  | _, [] => []
  | st, q :: qs => (ask fs st q).2 :: asks fs (ask fs st q).1 qs

end Verif.TGrid
