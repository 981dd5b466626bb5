import Mathlib.Data.List.Basic
import Mathlib.Algebra.Order.Field.Rat
import Mathlib.Algebra.Order.Group.Unbundled.Abs

/-!
# Model of what a run leaves behind and of the random numbers of a run

Source: `/repo/py_gnome/gnome/model.py` (`rewind` 398-419, `setup_model_run` 897-901, `setup_time_step` 958-964, `move_elements`
980-1013, `step_is_done` 1119-1140, `step` 1159-1213, `release_elements` 1240-1268), `/repo/py_gnome/gnome/utilities/rand.py` (`seed`
118-127), the movers that keep something from step to step: `WindMover` (`gnome/movers/py_wind_movers.py` 105-353), `CurrentMover`
(`gnome/movers/py_current_movers.py` 105-397), the C++ movers `WindMover_c` (`lib_gnome/WindMover_c.cpp` 112-470, behind `PointWindMover`
and `c_GridWindMover`) and `CurrentMover_c` (`lib_gnome/CurrentMover_c.cpp` 70-335, behind `CatsMover`, `c_GridCurrentMover` and others),
and `gnome/cy_gnome/cy_mover.pyx` 47-128.

The random numbers come from three generators: that of the C library (`rand()`), that of the Python module `random` and that of
numpy.  A computation that uses random numbers is a function of the states of the generators, which returns new states.
Simplifications: what an element is (`E`), a move (`D`) and a row of the list of uncertainty (`R`) are arbitrary types, and what is
computed from them are arbitrary functions; releases, refloating, beaching and weathering are arbitrary functions of the elements,
the number of the step and the generators (what spills, maps and weatherers keep is treated under C19, C62 and C170);
exceptions are left out (C98).  Times are rational seconds.
-/

namespace Verif.Run.Repeat

/-- The states of the three generators. -/
structure Gens (γ : Type) where
  c : γ
  py : γ
  np : γ
deriving DecidableEq

/-- `rand.seed(1)` (rand.py 118-127, model.py 413); `init` is the state of a generator that has been seeded with 1. -/
def seeded {γ : Type} (init : γ) : Gens γ := ⟨init, init, init⟩

/-- A computation that may use random numbers. -/
abbrev Rand (γ α : Type) := Gens γ → α × Gens γ

/-- One after the other for the elements of a list. -/
def each {γ α β : Type} (f : α → Rand γ β) : List α → Rand γ (List β)
  | [], g => ([], g)
  | a :: as, g =>
    let b := f a g
    let bs := each f as b.2
    (b.1 :: bs.1, bs.2)

/-- The same computation `n` times. -/
def times {γ β : Type} (n : Nat) (f : Rand γ β) : Rand γ (List β) := each (fun _ => f) (List.range n)

/-- What a mover with a list of uncertainty keeps: the list (`none` is the null pointer of the C++ class), the time at which it was
drawn, the start of the model, whether this is the first step, the two standard deviations of the wind and the diffusion
(py_wind_movers.py 105-115; WindMover_c.cpp 50-66; the movers of currents have no use for the last three). -/
structure St (R : Type) where
  list : Option (List R)
  setAt : Rat
  start : Rat
  first : Bool
  sig2 : Rat
  sigT : Rat
  diff : Rat
deriving DecidableEq

/-- The settings of such a mover and what it computes. -/
structure Cfg (γ E D R : Type) where
  /-- whether it is one of the C++ classes -/
  cpp : Bool
  /-- whether it is a mover of winds -/
  wind : Bool
  /-- whether it is active in step `k`: `on` and the active range (movers.py 149-173) -/
  active : Nat → Bool
  delay : Rat
  duration : Rat
  /-- the seconds from the start of the model to a step -/
  time : Nat → Rat
  dt : Rat
  /-- the standard deviations for the time elapsed (py_wind_movers.py 289-292; WindMover_c.cpp 335-338) -/
  sig2Of : Rat → Rat
  sigTOf : Rat → Rat
  /-- `sqrt(6 * 100 / |time_step|)` (py_wind_movers.py 192; WindMover_c.cpp 477) -/
  diffOf : Rat
  /-- a row, with the repetitions for angles that are too large (py_wind_movers.py 316-342; WindMover_c.cpp 141-155) -/
  row : Rat → Rand γ R
  /-- new windages (rand.py 14-115) -/
  windage : E → Rand γ E
  /-- the move without uncertainty -/
  plain : Nat → List E → List D
  /-- the move with uncertainty (py_wind_movers.py 356-410; WindMover_c.cpp 360-417) -/
  perturb : Rat → Rat → Rat → List R → Nat → List E → Rand γ (List D)

variable {γ E D R : Type}

/-- There is no list: an empty one for the Python classes (py_wind_movers.py 247; 362), no array for the C++ classes
(WindMover_c.cpp 271, 370). -/
def St.missing (c : Cfg γ E D R) (s : St R) : Bool :=
  match s.list with
  | none => true
  | some l => !c.cpp && l.isEmpty

/-- The rows of the list. -/
def St.rows (s : St R) : List R := s.list.getD []

/-- `prepare_for_model_run` (py_wind_movers.py 150-158; py_current_movers.py 343-351; WindMover_c.cpp 446-452 with 115-128): what is not
named keeps its value. -/
def St.begin (s : St R) : St R := { s with first := true, list := none, setAt := 0 }

/-- `update_uncertainty` (py_wind_movers.py 226-300; py_current_movers.py 229-284; WindMover_c.cpp 247-357; CurrentMover_c.cpp 172-293).
Rows are appended with the standard deviations of the step before. -/
def update (c : Cfg γ E D R) (num : Nat) (el : Rat) (s : St R) : Rand γ (St R) := fun g =>
  if el < c.delay then
    if c.cpp then ({ s with list := none, setAt := if s.list = none then s.setAt else 0 }, g) else (s, g)
  else
    let size := s.rows.length
    let re : Bool := s.missing c || decide (el < s.setAt) || decide (num < size)
    let new := if s.missing c = false ∧ size < num then times (num - size) (c.row s.sigT) g else ([], g)
    let s1 : St R := { s with sig2 := c.sig2Of el, sigT := c.sigTOf el }
    if re then
      let rows := times num (c.row s1.sigT) new.2
      ({ s1 with list := some rows.1, setAt := el }, rows.2)
    else if s.setAt + c.duration ≤ el then
      let rows := times (size + new.1.length) (c.row s1.sigT) new.2
      ({ s1 with list := some rows.1, setAt := el }, rows.2)
    else ({ s1 with list := some (s.rows ++ new.1) }, new.2)

/-- The time elapsed: the C++ movers of winds count from the end of the step (WindMover_c.cpp 469; py_wind_movers.py 189;
CurrentMover_c.cpp 311). -/
def elapsed (c : Cfg γ E D R) (k : Nat) (s : St R) : Rat :=
  |c.time k + (if c.cpp && c.wind then c.dt else 0) - s.start|

/-- New windages, if it is a mover of winds. -/
def windages (c : Cfg γ E D R) (els : List E) : Rand γ (List E) := fun g =>
  if c.wind then each c.windage els g else (els, g)

/-- The uncertainty in `prepare_for_model_step`, for the uncertain elements only. -/
def uncertainty (c : Cfg γ E D R) (unc : Bool) (k : Nat) (num : Nat) (s : St R) : Rand γ (St R) := fun g =>
  if unc then
    let u := update c num (elapsed c k s) s g
    ({ u.1 with diff := c.diffOf }, u.2)
  else (s, g)

/-- `prepare_for_model_step` for a container (py_wind_movers.py 160-194; py_current_movers.py 353-376; c_wind_movers.py 126-151 with
movers.py 347-380, WindMover_c.cpp 455-485 and CurrentMover_c.cpp 303-316).  `WindMover` draws windages first and returns when there are no
elements; the C++ classes draw them last. -/
def prep (c : Cfg γ E D R) (unc : Bool) (k : Nat) (els : List E) (s : St R) : Rand γ (List E × St R) := fun g =>
  if c.active k then
    let s1 : St R := if s.first then { s with start := c.time k } else s
    if c.cpp then
      let u := uncertainty c unc k els.length s1 g
      let w := windages c els u.2
      ((w.1, u.1), w.2)
    else if c.wind && els.isEmpty then ((els, s1), g)
    else
      let w := windages c els g
      let u := uncertainty c unc k els.length s1 w.2
      ((w.1, u.1), u.2)
  else ((els, s), g)

/-- `get_move` for a container: nothing when the mover is not active; without uncertainty for the forecast and when there is no
list (py_wind_movers.py 357-363, 432-446; py_current_movers.py 198-226, 318; WindMover_c.cpp 370, 538-619). -/
def move (c : Cfg γ E D R) (unc : Bool) (k : Nat) (els : List E) (s : St R) : Rand γ (List D) := fun g =>
  if c.active k then
    if unc && !s.missing c then c.perturb s.sig2 s.sigT s.diff s.rows k els g else (c.plain k els, g)
  else ([], g)

/-- `model_step_is_done` for a container; `gone` says which elements are marked to be removed (py_wind_movers.py 196-214;
py_current_movers.py 378-397; movers.py 468-492 with cy_mover.pyx 101-128 and WindMover_c.cpp 158-204). -/
def done (c : Cfg γ E D R) (gone : E → Bool) (unc : Bool) (k : Nat) (els : List E) (s : St R) : St R :=
  if c.active k then
    let kept := ((s.rows.zip els).filter (fun p => !gone p.2)).map Prod.fst
    if unc = false || s.missing c || (c.cpp && s.rows.length != els.length) || els.isEmpty then { s with first := false }
    else if c.cpp && kept.isEmpty then { s with first := false, list := none, setAt := 0 }
    else { s with first := false, list := some kept }
  else s

/-- A mover of the model: one that keeps something, or one that keeps nothing from step to step (`RandomMover`, `RandomMover3D`,
`SimpleMover`, `RiseVelocityMover`). -/
inductive Mover (γ E D R : Type)
  | keeps (on : Bool) (c : Cfg γ E D R) (s : St R)
  | free (f : Bool → Nat → List E → Rand γ (List D))

/-- What the model consists of besides its movers: releases before and after the movement, refloating, adding a move, beaching with
all that follows, and which elements are removed. -/
structure World (γ E D : Type) where
  release : Bool → Nat → Bool → List E → Rand γ (List E)
  refloat : Nat → List E → Rand γ (List E)
  shift : List E → List D → List E
  after : Bool → Nat → List E → Rand γ (List E)
  gone : E → Bool

/-- A model: its parts, the movers, the forecast and, if uncertainty is on, the uncertain elements, the number of the step (`none` is
-1), and the generators of the process. -/
structure Model (γ E D R : Type) where
  world : World γ E D
  movers : List (Mover γ E D R)
  els : List E
  unc : Option (List E)
  k : Option Nat
  gens : Gens γ

/-- `Model.rewind` (398-419): the containers are emptied and the generators seeded; nothing is done to the movers. -/
def rewind (init : γ) (m : Model γ E D R) : Model γ E D R :=
  { m with k := none, els := [], unc := m.unc.map fun _ => [], gens := seeded init }

/-- `prepare_for_model_run` of the movers that are on (897-901). -/
def Mover.begin : Mover γ E D R → Mover γ E D R
  | .keeps on c s => .keeps on c (if on then s.begin else s)
  | .free f => .free f

/-- A mover that is off is never active (movers.py 165-173). -/
def cfgOf (on : Bool) (c : Cfg γ E D R) : Cfg γ E D R := { c with active := fun k => on && c.active k }

/-- `prepare_for_model_step` of a mover for both containers (960-962). -/
def Mover.prep (k : Nat) (m : Mover γ E D R) (els : List E) (unc : Option (List E)) :
    Rand γ (Mover γ E D R × List E × Option (List E)) := fun g =>
  match m with
  | .free f => ((.free f, els, unc), g)
  | .keeps on c s =>
    let a := Repeat.prep (cfgOf on c) false k els s g
    match unc with
    | none => ((.keeps on c a.1.2, a.1.1, none), a.2)
    | some u =>
      let b := Repeat.prep (cfgOf on c) true k u a.1.2 a.2
      ((.keeps on c b.1.2, a.1.1, some b.1.1), b.2)

/-- All movers in turn. -/
def prepAll (k : Nat) : List (Mover γ E D R) → List E → Option (List E) →
    Rand γ (List (Mover γ E D R) × List E × Option (List E))
  | [], els, unc, g => (([], els, unc), g)
  | m :: ms, els, unc, g =>
    let a := m.prep k els unc g
    let b := prepAll k ms a.1.2.1 a.1.2.2 a.2
    ((a.1.1 :: b.1.1, b.1.2.1, b.1.2.2), b.2)

/-- `get_move` of a mover for a container. -/
def Mover.move (unc : Bool) (k : Nat) (els : List E) : Mover γ E D R → Rand γ (List D)
  | .free f, g => f unc k els g
  | .keeps on c s, g => Repeat.move (cfgOf on c) unc k els s g

/-- The moves of a container (980-1013): refloating, then the moves of all movers, computed from the positions at the beginning, are
added; then beaching.  Nothing happens without elements. -/
def moveAll (w : World γ E D) (unc : Bool) (k : Nat) (ms : List (Mover γ E D R)) (els : List E) : Rand γ (List E) := fun g =>
  if els.isEmpty then ([], g)
  else
    let a := w.refloat k els g
    let b := each (fun m => Mover.move unc k a.1 m) ms a.2
    w.after unc k (b.1.foldl w.shift a.1) b.2

/-- `model_step_is_done` of a mover for both containers (1125-1127). -/
def Mover.done (gone : E → Bool) (k : Nat) (els : List E) (unc : Option (List E)) : Mover γ E D R → Mover γ E D R
  | .free f => .free f
  | .keeps on c s =>
    let a := Repeat.done (cfgOf on c) gone false k els s
    match unc with
    | none => .keeps on c a
    | some u => .keeps on c (Repeat.done (cfgOf on c) gone true k u a)

/-- A computation for the uncertain elements, if there are any containers of them. -/
def onUnc (f : List E → Rand γ (List E)) (unc : Option (List E)) : Rand γ (Option (List E)) := fun g =>
  match unc with
  | none => (none, g)
  | some u => let a := f u g; (some a.1, a.2)

/-- `Model.step` (1159-1213): in step -1 the run is set up and the first elements are released; otherwise release of the first half,
`setup_time_step`, `move_elements`, `step_is_done` with the removal of elements, release of the second half. -/
def step (m : Model γ E D R) : Model γ E D R :=
  match m.k with
  | none =>
    let a := m.world.release false 0 false m.els m.gens
    let b := onUnc (m.world.release true 0 false) m.unc a.2
    { m with movers := m.movers.map Mover.begin, els := a.1, unc := b.1, k := some 0, gens := b.2 }
  | some k =>
    let a := m.world.release false (k + 1) false m.els m.gens
    let b := onUnc (m.world.release true (k + 1) false) m.unc a.2
    let p := prepAll k m.movers a.1 b.1 b.2
    let x := moveAll m.world false k p.1.1 p.1.2.1 p.2
    let y := onUnc (moveAll m.world true k p.1.1) p.1.2.2 x.2
    let ms := p.1.1.map (Mover.done m.world.gone k x.1 y.1)
    let e := m.world.release false (k + 1) true (x.1.filter fun e => !m.world.gone e) y.2
    let u := onUnc (m.world.release true (k + 1) true) (y.1.map fun u => u.filter fun e => !m.world.gone e) e.2
    { m with movers := ms, els := e.1, unc := u.1, k := some (k + 1), gens := u.2 }

/-- `n` steps. -/
def steps : Nat → Model γ E D R → Model γ E D R
  | 0, m => m
  | n + 1, m => steps n (step m)

/-- The elements that outputters get to see in `n` steps. -/
def history : Nat → Model γ E D R → List (List E × Option (List E))
  | 0, _ => []
  | n + 1, m => ((step m).els, (step m).unc) :: history n (step m)

/-- Two models in one process: the generators are those of the process, so a model goes on with the numbers that the other left. -/
def alternate : Nat → Model γ E D R → Model γ E D R → List (List E × Option (List E))
  | 0, _, _ => []
  | n + 1, m, m' =>
    let a := step m
    let b := step { m' with gens := a.gens }
    (a.els, a.unc) :: alternate n { a with gens := b.gens } b

end Verif.Run.Repeat
