import Verif.MapStep.Model
/-
Model of the weathering part of a model step as it is called: every weatherer
in turn, every sub-step of it, each on its own view of the elements and with
its own entry in the mass balance; response operations mark elements before the
elements are moved.

Source (under /repo/py_gnome/gnome): model.py 1043-1076 (`weather_elements`),
1083-1104 (`_split_into_substeps`); weatherers/cleanup.py 133-199, 305-331,
343-379, 684-729, 855-883; weatherers/evaporation.py 213-245;
spill_container.py 42-53.

Simplifications: those of Verif/MapStep/Model.lean; what a weatherer takes from
each element of its view is a given function of all the elements (its own
formula is the subject of other files); entries of the mass balance are
numbered and exist; marking is a given function from the element to its new
fate.
-/
namespace Verif.MapStep.Calls
open Verif.MapStep

/-- One call of `weather_elements`: the entry it books to, the flag of its view
and what it takes from the element of each index. -/
structure Call where
  key : Nat
  flag : Nat
  loss : List Elem → Nat → ℚ

/-- In the view of a flag (spill_container.py 42-53). -/
def inView (flag : Nat) (e : Elem) : Bool := (e.fate &&& flag == flag) && decide (e.mass > 0)

/-- A container with the entries of its mass balance other than 'beached',
'off_maps' and 'amount_released'. -/
structure St where
  sc : SC
  book : Nat → ℚ

/-- The masses after a call. -/
def callEls (c : Call) (es : List Elem) : List Elem :=
  es.mapIdx (fun i e => if inView c.flag e then { e with mass := e.mass - c.loss es i } else e)

/-- What a call adds to the mass balance (`sc.mass_balance[key] += ...`). -/
def callAmount (c : Call) (es : List Elem) : ℚ :=
  (es.mapIdx (fun i e => if inView c.flag e then c.loss es i else 0)).sum

/-- A call of `weather_elements`. -/
def call (c : Call) (s : St) : St :=
  { sc := { s.sc with els := callEls c s.sc.els }
    book := fun k => if k = c.key then s.book k + callAmount c s.sc.els else s.book k }

/-- `for w in weatherers: for sub-step: w.weather_elements` (model.py
1069-1074). -/
def weatherAll (cs : List Call) (s : St) : St := cs.foldl (fun s c => call c s) s

/-- The calls of a step: weatherer by weatherer, and for each all the
sub-steps. -/
def schedule (ws : List (Nat → Call)) (n : Nat) : List Call :=
  ws.flatMap (fun w => (List.range n).map w)

/-- Removal of `rm` from the elements of a view in equal shares, at most all of
it (cleanup.py 361-373, 706-718, 868-876). -/
def removal (key flag : Nat) (rm : ℚ) : Call :=
  { key, flag
    loss := fun es i =>
      let tot := ((es.filter (inView flag)).map Elem.mass).sum
      min (rm / tot) 1 * (es.map Elem.mass).getD i 0 }

/-- Marking of elements for a response (cleanup.py 133-199): only the fate
changes. -/
def mark (f : Nat → Elem → Nat) (sc : SC) : SC :=
  { sc with els := sc.els.mapIdx (fun i e => { e with fate := f i e }) }

/-- What happens in a run. -/
inductive Op where
  | rel (ns : List New)
  | prep (f : Nat → Elem → Nat)
  | step (p : ℚ) (rs : List ℚ) (deltas : List (Nat → P3)) (calls : List Call)

/-- Move, weather, remove (model.py 1208-1211). -/
def stepC (M : RMap) (p : ℚ) (rs : List ℚ) (ds : List (Nat → P3)) (cs : List Call) (s : St) : Option St :=
  (moveElements M p rs ds s.sc).map (fun m =>
    let w := weatherAll cs { s with sc := m }
    { w with sc := remove w.sc })

def exec (M : RMap) : Op → St → Option St
  | .rel ns, s => some { s with sc := release M ns s.sc }
  | .prep f, s => some { s with sc := mark f s.sc }
  | .step p rs ds cs, s => stepC M p rs ds cs s

def run (M : RMap) : List Op → St → Option St
  | [], s => some s
  | o :: os, s => (exec M o s).bind (run M os)

/-- The start of a run: no elements, all entries zero. -/
def St.empty : St := ⟨SC.empty, fun _ => 0⟩

end Verif.MapStep.Calls
