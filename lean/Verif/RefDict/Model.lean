import Verif.Py

/-!
# Reference registry and default references

Model of `gnome/gnomeobject.py` 107-127 (`Refs`), 344-364 (`gather_ref_as`), 366-391 (`_attach_default_refs`),
`gnome/model.py` 764-794 (`Model._attach_default_refs`) and `gnome/spills/spill.py` 484-487, `substance.py` 225-229.
-/

namespace Verif.RefDict
open Verif.Py

/-! ## `Refs` -/

section
variable {κ ν : Type} [DecidableEq κ] [DecidableEq ν]

/-- What a user can do with the registry.  `ν` is the identity of objects. -/
inductive Op (κ ν : Type) where
  | setItem (k : κ) (v : ν)
  | update (l : List (κ × ν))
  | setDefault (k : κ) (v : ν)

/-- `Refs.__setitem__`, 112-116: `none` is the ValueError, the dictionary is then unchanged. -/
def setItem (d : Dict κ ν) (k : κ) (v : ν) : Option (Dict κ ν) :=
  match d.get? k with
  | some w => if w = v then some (d.set k v) else none
  | none => some (d.set k v)

/-- One operation: new registry, and whether it raised.  `update` and `setdefault` are inherited from `dict` and do not
call `__setitem__`. -/
def step (d : Dict κ ν) : Op κ ν → Dict κ ν × Bool
  | .setItem k v => match setItem d k v with
      | some d' => (d', false)
      | none => (d, true)
  | .update l => (l.foldl (fun e p => e.set p.1 p.2) d, false)
  | .setDefault k v => if d.has k then (d, false) else (d.set k v, false)

/-- A history of operations. -/
def run (d : Dict κ ν) (ops : List (Op κ ν)) : Dict κ ν := ops.foldl (fun e o => (step e o).1) d
end

/-! ## Default references -/

/-- An object as seen by the reference system: its identity, the names it serves (`_ref_as`, 354-357; a single name is
a list of one, no attribute the empty list), the names it requires (`_req_refs`), the flag `make_default_refs` and the
references it has (`None` = absent).  Equality of objects in `ob not in refs[n]` is by value in the code; it decides only about
later entries of a list, which nothing uses, identity is taken here. -/
structure Obj where
  id : Nat
  refAs : List Nat
  req : List Nat
  auto : Bool
  refs : Nat → Option Nat

/-- one name of one object in `gather_ref_as`, 358-364 -/
def gatherOne (refs : Dict Nat (List Nat)) (o : Nat) (n : Nat) : Dict Nat (List Nat) :=
  match refs.get? n with
  | some l => if o ∈ l then refs else refs.set n (l ++ [o])
  | none => refs.set n [o]

/-- `gather_ref_as`, 344-364 -/
def gather (refs : Dict Nat (List Nat)) (src : List Obj) : Dict Nat (List Nat) :=
  src.foldl (fun r o => o.refAs.foldl (fun r n => gatherOne r o.id n) r) refs

/-- one required name in `_attach_default_refs`, 388-391 -/
def attachOne (refs : Dict Nat (List Nat)) (cur : Nat → Option Nat) (n : Nat) : Nat → Option Nat :=
  match (refs.get? n).getD [] with
  | [] => cur
  | p :: _ => if cur n = none then (fun m => if m = n then some p else cur m) else cur

/-- `_attach_default_refs`, 385-391 (no `_req_refs` attribute: empty list) -/
def attach (refs : Dict Nat (List Nat)) (o : Obj) : Obj :=
  if o.auto then { o with refs := o.req.foldl (attachOne refs) o.refs } else o

/-- The model: its collections and map; `spills` are all objects that get references through a spill (release, substance,
the substance's own weatherers, spill: spill.py 484-487). -/
structure M where
  environment : List Obj
  map : List Obj
  movers : List Obj
  weatherers : List Obj
  outputters : List Obj
  spills : List Obj

/-- Objects in the order in which they are asked to provide references, model.py 778-782. -/
def M.providers (m : M) : List Obj := m.environment ++ m.map ++ m.movers ++ m.weatherers ++ m.outputters

/-- `Model._attach_default_refs`, 764-794, called with an empty dictionary by `setup_model_run` (882-883). The model
itself requires nothing; the map provides but is not attached to. -/
def M.attachAll (m : M) : M :=
  let refs := gather (gather (gather (gather (gather [] m.environment) m.map) m.movers) m.weatherers) m.outputters
  { m with
    environment := m.environment.map (attach refs)
    movers := m.movers.map (attach refs)
    weatherers := m.weatherers.map (attach refs)
    outputters := m.outputters.map (attach refs)
    spills := m.spills.map (attach refs) }

end Verif.RefDict
