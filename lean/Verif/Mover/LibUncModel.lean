import Verif.Mover.UncModel

/-!
# The random draws of uncertain elements in the compiled movers

Model of the list of random numbers that the compiled movers keep beside the elements of the uncertain spill container: `/repo/py_gnome/lib_gnome/CurrentMover_c.cpp` 73-331 (`CatsMover`, `ComponentMover`), `GridCurrentMover_c.cpp` 168-218 (gridded currents, `CurrentCycleMover`; the same lines in `IceMover_c.cpp` 166-218), `WindMover_c.cpp` 113-357, 440-486 (`PointWindMover`), `GridWindMover_c.cpp` 66-119; how they are called: `gnome/cy_gnome/cy_mover.pyx` 58-128, `gnome/movers/movers.py` 354-396, 461-483.

What happens in a step (`In`), what is seen of it (`Row`) and the order of a step are those of `UncModel.lean`.
Simplifications: there is one uncertain spill container, as pyGNOME has (`numLESets` is 1, so that `fLESetSizesH` is [0] whenever it is allocated, and is allocated with the list); memory is never short; the gridded data cover the times of the run; times are rational seconds; the values drawn are left to `MoveModel.lean`, as are the sigmas of the wind.
-/

namespace Verif.Mover.LibUnc

variable {D : Type}

/-- How a mover counts the time: gridded currents, cycles and ice; CATS and components; gridded winds; point winds -/
inductive Kind
  | gridCurrent | cats | gridWind | pointWind
deriving DecidableEq

/-- the kinds that take the time without sign -/
def Kind.grid : Kind → Bool
  | .gridCurrent | .gridWind => true
  | .cats | .pointWind => false

/-- the kinds that count to the end of the step -/
def Kind.wind : Kind → Bool
  | .gridWind | .pointWind => true
  | .gridCurrent | .cats => false

/-- `fUncertaintyListH` (none: not allocated), `fTimeUncertaintyWasSet`, `fModelStartTime`, `bIsFirstStep` -/
structure LUnc (D : Type) where
  list : Option (List D)
  setAt : Rat
  start : Rat
  first : Bool
deriving DecidableEq

/-- `PrepareForModelRun` with `DisposeUncertainty` (CurrentMover_c.cpp 296-301, 318-331; WindMover_c.cpp 440-447) -/
def LUnc.begin : LUnc D := ⟨none, 0, 0, true⟩

/-- the seconds given to `UpdateUncertainty`: CurrentMover_c.cpp 310, GridCurrentMover_c.cpp 197, WindMover_c.cpp 469, GridWindMover_c.cpp 96 -/
def Kind.elapsed (kind : Kind) (t dt start : Rat) : Rat :=
  match kind with
  | .cats => |t - start|
  | .gridCurrent => t - start
  | .pointWind => |t + dt - start|
  | .gridWind => t + dt - start

/-- `AllocateUncertainty` and `UpdateUncertaintyValues` (CurrentMover_c.cpp 73-113, 158-181) -/
def anew (ω' : Nat → D) (num : Nat) (el : Rat) (s : LUnc D) : LUnc D := { s with list := some ((List.range num).map ω'), setAt := el }

/-- `UpdateUncertainty` (CurrentMover_c.cpp 183-294; WindMover_c.cpp 239-357) -/
def update (c : UPar) (ω ω' : Nat → D) (num : Nat) (el : Rat) (s : LUnc D) : LUnc D :=
  if el < c.delay then
    match s.list with
    | none => s
    | some _ => { s with list := none, setAt := 0 }
  else
    match s.list with
    | none => anew ω' num el s
    | some l =>
      let l1 := if l.length < num then l ++ (List.range (num - l.length)).map (fun (i : Nat) => ω (l.length + i)) else l
      if el < s.setAt ∨ num < l.length then anew ω' num el s
      else if s.setAt + c.duration ≤ el then anew ω' l1.length el s
      else { s with list := some l1 }

/-- the start of the mover is the time of its first active step (CurrentMover_c.cpp 306-307) -/
def markStart (t : Rat) (s : LUnc D) : LUnc D := if s.first then { s with start := t } else s

/-- `PrepareForModelStep` for the uncertain container; it is called in active steps only (movers.py 371-386) -/
def prepare (c : UPar) (kind : Kind) (ω ω' : Nat → D) (active : Bool) (num : Nat) (t dt : Rat) (s : LUnc D) : LUnc D :=
  if active then
    let s1 := markStart t s
    update c ω ω' num (kind.elapsed t dt s1.start) s1
  else s

/-- `ReallocateUncertainty` (CurrentMover_c.cpp 115-156; WindMover_c.cpp 158-203): the rows of elements that are to be removed are cut; nothing is done if the numbers differ (the error is not looked at, cy_mover.pyx 120-122), if there is no list, or if there are no elements -/
def reallocate (gone : Nat → Bool) (elems : List Nat) (s : LUnc D) : LUnc D :=
  match s.list with
  | none => s
  | some l =>
    if elems = [] then s
    else if l.length ≠ elems.length then s
    else
      let l1 := ((elems.zip l).filter (fun p => !gone p.1)).map Prod.snd
      if l1 = [] then { s with list := none, setAt := 0 } else { s with list := some l1 }

/-- `model_step_is_done` of active movers (movers.py 461-483, cy_mover.pyx 102-128) -/
def stepDone (active : Bool) (gone : Nat → Bool) (elems : List Nat) (s : LUnc D) : LUnc D :=
  if active then { reallocate gone elems s with first := false } else s

/-- the rows that `AddUncertainty` uses for the elements, by their index (CATSMover_c.cpp 216-235, WindMover_c.cpp 372-387): none without a list -/
def applied (active : Bool) (list : Option (List D)) (elems : List Nat) : List (Nat × D) :=
  if active then
    match list with
    | none => []
    | some l => elems.zip l
  else []

/-- the uncertain container and the mover between steps -/
structure LSt (D : Type) where
  elems : List Nat
  nextId : Nat
  k : Nat
  unc : LUnc D
deriving DecidableEq

/-- the elements that are moved in a step -/
def moved (i : In D) (s : LSt D) : List Nat := s.elems ++ newIds s.nextId i.rel1

/-- the mover as it moves the elements of a step -/
def prepared (c : UPar) (kind : Kind) (t0 dt : Rat) (i : In D) (s : LSt D) : LUnc D :=
  prepare c kind i.ω i.ω' i.active (moved i s).length (t0 + s.k * dt) dt s.unc

/-- what is seen of a step -/
def shown (c : UPar) (kind : Kind) (t0 dt : Rat) (i : In D) (s : LSt D) : Row D :=
  let u1 := prepared c kind t0 dt i s
  ⟨kind.elapsed (t0 + s.k * dt) dt u1.start, u1.setAt, moved i s, applied i.active u1.list (moved i s)⟩

/-- the state after a step (model.py 1193-1206) -/
def next (c : UPar) (kind : Kind) (t0 dt : Rat) (i : In D) (s : LSt D) : LSt D :=
  ⟨(moved i s).filter (fun e => !i.gone e) ++ newIds (s.nextId + i.rel1) i.rel2, s.nextId + i.rel1 + i.rel2, s.k + 1,
    stepDone i.active i.gone (moved i s) (prepared c kind t0 dt i s)⟩

/-- the rows of a run in order; no step fails -/
def run (c : UPar) (kind : Kind) (t0 dt : Rat) : List (In D) → LSt D → List (Row D)
  | [], _ => []
  | i :: is, s => shown c kind t0 dt i s :: run c kind t0 dt is (next c kind t0 dt i s)

/-- the state after `setup_model_run` and the release of step 0 -/
def LSt.init (n : Nat) : LSt D := ⟨newIds 0 n, n, 0, LUnc.begin⟩

/-- `uncertain_duration` and `uncertain_time_delay` of the compiled movers: given in hours, kept in seconds (c_current_movers.py 63-75, c_wind_movers.py 107-128) -/
def hours (duration delay : Rat) : UPar := ⟨delay * 3600, duration * 3600⟩

end Verif.Mover.LibUnc
