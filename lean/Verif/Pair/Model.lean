import Verif.OC.Props
/-!
# Model of `SpillContainerPair` (the spills of a model, with their copies for the uncertainty run)

Source: `/repo/py_gnome/gnome/spill_container.py` lines 1099-1336; the two `spills` collections are the
`OrderedCollection` model of `Verif.OC`.
-/
namespace Verif.Pair
open Verif.Py Verif.OC

/-- object ids -/
inductive Uid
  | user (n : Nat)
  | made (n : Nat)
  deriving DecidableEq, Repr

/-- A spill: its id (`user` = object of the caller, `made` = copy made by the pair; `uncertain_copy`, spill.py lines
363-387, deep-copies everything except the id, and a new id is made: gnomeobject.py lines 261-310), its settings `val`
(everything `==` compares) and, for the statement only, the id of the spill it was copied from. -/
structure Obj where
  id : Uid
  val : Nat
  org : Option Uid
  deriving DecidableEq, Repr

abbrev Coll := OC.State Obj Uid

/-- the pair; `next` numbers the copies (a new id is never one that is in use) -/
structure St where
  cert : Coll
  unc : Option Coll
  next : Nat

/-- `OrderedCollection(dtype=Spill)` -/
def emptyColl : Coll := ⟨[], []⟩

/-- `SpillContainerPair(uncertain)` lines 1104-1118 -/
def init (uncertain : Bool) : St := ⟨emptyColl, if uncertain then some emptyColl else none, 0⟩

/-- `spill.uncertain_copy()` -/
def copy (next : Nat) (e : Obj) : Obj := ⟨.made next, e.val, some e.id⟩

/-- copies of the spills in a list, with consecutive new ids -/
def copies (next : Nat) : List Obj → List Obj
  | [] => []
  | e :: es => copy next e :: copies (next + 1) es

/-- iteration over a collection (the model of `__iter__` can raise or give `None`; both end the iteration here) -/
def objs (s : Coll) : List Obj := (OC.iter s).filterMap (fun r => match r with | .ok o => o | .error _ => none)

/-- `SpillContainer.uncertain_copy` lines 769-780 -/
def uncertainCopy (next : Nat) (s : Coll) : Coll :=
  (OC.addMany Obj.id (fun _ => true) emptyColl (copies next (objs s))).1

/-- how the caller names a spill: position or id -/
inductive Ident
  | pos (i : Int)
  | id (k : Uid)

/-- `spills[ident]` -/
def get (s : Coll) : Ident → Except Err (Option Obj)
  | .pos i => OC.getPos s i
  | .id k => OC.getId s k

/-- `del spills[ident]` -/
def del (s : Coll) : Ident → OC.Res Obj Uid
  | .pos i => OC.removePos Obj.id s i
  | .id k => OC.removeId s k

/-- `spills.replace(ident, new)` -/
def repl (s : Coll) (e : Obj) : Ident → OC.Res Obj Uid
  | .pos i => OC.replacePos Obj.id (fun _ => true) s i e
  | .id k => OC.replaceId Obj.id (fun _ => true) s k e

/-- `_add_item` for a single spill, lines 1166-1174 -/
def add (p : St) (e : Obj) : St :=
  { cert := (OC.add1 Obj.id p.cert e).1
    unc := p.unc.map (fun u => (OC.add1 Obj.id u (copy p.next e)).1)
    next := p.next + 1 }

/-- `remove` lines 1207-1218 -/
def remove (p : St) (ident : Ident) : St × Option Err :=
  match p.unc with
  | none => ({ p with cert := (del p.cert ident).1 }, (del p.cert ident).2.1)
  | some u =>
    match get p.cert ident with
    | .error e => (p, some e)
    | .ok none => (p, some .valueError)
    | .ok (some o) =>
      match OC.indexOf p.cert o.id with
      | .error e => (p, some e)
      | .ok idx =>
        let r := OC.removePos Obj.id u (idx : Int)
        match r.2.1 with
        | some e => ({ p with unc := some r.1 }, some e)
        | none => ({ p with unc := some r.1, cert := (del p.cert ident).1 }, (del p.cert ident).2.1)

/-- `__setitem__` lines 1225-1229; `self.index` (lines 1303-1311) finds the new spill among the certain ones -/
def setItem (p : St) (ident : Ident) (e : Obj) : St × Option Err :=
  let r := repl p.cert e ident
  match r.2.1 with
  | some err => ({ p with cert := r.1 }, some err)
  | none =>
    match p.unc with
    | none => ({ p with cert := r.1 }, none)
    | some u =>
      match OC.indexOf r.1 e.id with
      | .error err => ({ p with cert := r.1 }, some err)
      | .ok ix =>
        let r' := OC.replacePos Obj.id (fun _ => true) u (ix : Int) (copy p.next e)
        ({ cert := r.1, unc := some r'.1, next := p.next + 1 }, r'.2.1)

/-- `uncertain` setter lines 1140-1150 -/
def toggle (p : St) (b : Bool) : St :=
  match p.unc, b with
  | some _, false => { p with unc := none }
  | none, true => { p with unc := some (uncertainCopy p.next p.cert), next := p.next + (objs p.cert).length }
  | _, _ => p

/-- `clear` lines 1322-1326 -/
def clear (p : St) : St := { p with cert := OC.clear p.cert, unc := p.unc.map OC.clear }

/-- `OrderedCollection.__eq__` (orderedcollection.py lines 269-283) on collections of spills -/
def sameSpills (a b : Coll) : Bool := OC.len a == OC.len b && (objs a).map Obj.val == (objs b).map Obj.val

/-- `rewind` lines 1120-1128 (the effect on the element data is modelled in `Verif.Container`) -/
def rewind (p : St) : St :=
  match p.unc with
  | none => p
  | some u =>
    if sameSpills p.cert u then p
    else { p with unc := some (uncertainCopy p.next p.cert), next := p.next + (objs p.cert).length }

/-- the caller changes the settings of one of the spills (objects are mutable) -/
def modColl (k : Uid) (v : Nat) (s : Coll) : Coll :=
  { s with elems := s.elems.map (fun o => o.map (fun e => if e.id = k then { e with val := v } else e)) }

def modify (p : St) (k : Uid) (v : Nat) : St :=
  { p with cert := modColl k v p.cert, unc := p.unc.map (modColl k v) }

inductive Op
  | add (e : Obj)
  | remove (i : Ident)
  | setItem (i : Ident) (e : Obj)
  | toggle (b : Bool)
  | clear
  | rewind
  | modify (k : Uid) (v : Nat)

def step (p : St) : Op → St
  | .add e => add p e
  | .remove i => (remove p i).1
  | .setItem i e => (setItem p i e).1
  | .toggle b => toggle p b
  | .clear => clear p
  | .rewind => rewind p
  | .modify k v => modify p k v

/-- a history; exceptions are caught by the caller -/
def run (p : St) (ops : List Op) : St := ops.foldl step p

end Verif.Pair
