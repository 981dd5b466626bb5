/-!
# Model of the one substance of the spills of a model

Source: `/repo/py_gnome/gnome/spill_container.py`: `SpillContainer.__init__` 371-376, `_reset__substances_spills` 392-406, `_set_substancespills` 421-461,
`_spills_changed` 514-520, `rewind` 740-764, `prepare_for_model_run` 782-850 (the part about the substance); `SpillContainerPair`: `uncertain` 1140-1150,
`_add_item` 1166-1174, `remove` 1207-1218.

A substance is what `==` compares of it, a number; 0 is the one that does not weather. Collections are lists (`Verif.OC` shows that of them). A copy for the
uncertainty run is shown with the id of the spill it was made from. Each operation returns whether it ended without an exception.
-/
namespace Verif.SpillSet.Subst

/-- a spill -/
structure Sp where
  id : Nat
  on : Bool
  sub : Nat
deriving DecidableEq, Repr

/-- a `SpillContainer`: `spills`, `substance`, `_oil_comp_array_len` -/
structure Cont where
  spills : List Sp := []
  sub : Option Nat := some 0
  comps : Nat := 1
deriving DecidableEq

/-- the substance of `_set_substancespills` 441-453, unless it raises `ValueError` -/
def check (l : List Sp) : Option Nat :=
  match (l.filter Sp.on).map Sp.sub with
  | [] => some 0
  | s :: r => if r.all (fun t => t == s) then some s else none

/-- `_set_substancespills` 421-461; `nc` is `num_components` of the substances that have it -/
def recheck (nc : Nat → Option Nat) (c : Cont) : Cont × Bool :=
  match check c.spills with
  | none => (c, false)
  | some s => ({ c with sub := some s, comps := (nc s).getD 1 }, true)

/-- `spills += e` -/
def addC (nc : Nat → Option Nat) (c : Cont) (e : Sp) : Cont × Bool :=
  if e.id ∈ c.spills.map Sp.id then (c, true) else recheck nc { c with spills := c.spills ++ [e] }

/-- `del spills[i]` -/
def delC (nc : Nat → Option Nat) (c : Cont) (i : Nat) : Cont × Bool :=
  if i < c.spills.length then recheck nc { c with spills := c.spills.eraseIdx i } else (c, false)

/-- `spill.on = b`, `spill.substance = s` of the spill `i` -/
def setC (c : Cont) (i : Nat) (b : Bool) (s : Nat) : Cont :=
  { c with spills := c.spills.map (fun e => if e.id = i then { e with on := b, sub := s } else e) }

/-- `rewind` 740-764 -/
def rewindC (nc : Nat → Option Nat) (c : Cont) : Cont × Bool := recheck nc { c with sub := none, comps := 1 }

/-- a `SpillContainerPair`: `_spill_container`, `_uncertain`, `_u_spill_container` (which may be missing) -/
structure Pair where
  cert : Cont := {}
  flag : Bool := false
  unc : Option Cont := none
deriving DecidableEq

/-- `add` of a spill, `_add_item` 1166-1174: the copy is made and added after the spill itself -/
def add (nc : Nat → Option Nat) (p : Pair) (e : Sp) : Pair × Bool :=
  match addC nc p.cert e with
  | (c, false) => ({ p with cert := c }, false)
  | (c, true) =>
    if p.flag then
      match p.unc with
      | none => ({ p with cert := c }, false)
      | some u =>
        match recheck nc { u with spills := u.spills ++ [e] } with
        | (u', b) => ({ p with cert := c, unc := some u' }, b)
    else ({ p with cert := c }, true)

/-- `remove` 1207-1218 of the spill with the id `i` -/
def remove (nc : Nat → Option Nat) (p : Pair) (i : Nat) : Pair × Bool :=
  if i ∈ p.cert.spills.map Sp.id then
    if p.flag then
      match p.unc with
      | none => (p, false)
      | some u => match delC nc u ((p.cert.spills.map Sp.id).idxOf i) with
        | (u', false) => ({ p with unc := some u' }, false)
        | (u', true) => match delC nc p.cert ((p.cert.spills.map Sp.id).idxOf i) with
          | (c, b) => ({ p with cert := c, unc := some u' }, b)
    else match delC nc p.cert ((p.cert.spills.map Sp.id).idxOf i) with
      | (c, b) => ({ p with cert := c }, b)
  else (p, false)

/-- `uncertain_copy` 769-780: a new container with a copy of each spill -/
def copies (nc : Nat → Option Nat) (u : Cont) : List Sp → Option Cont
  | [] => some u
  | e :: l => match recheck nc { u with spills := u.spills ++ [e] } with
    | (u', true) => copies nc u' l
    | (_, false) => none

/-- the setter of `uncertain` 1140-1150: the flag is set first -/
def uncertain (nc : Nat → Option Nat) (p : Pair) (b : Bool) : Pair × Bool :=
  if p.flag && !b then ({ p with flag := false, unc := none }, p.unc.isSome)
  else if !p.flag && b then
    match copies nc {} p.cert.spills with
    | some u => ({ p with flag := true, unc := some u }, true)
    | none => ({ p with flag := true }, false)
  else (p, true)

/-- `rewind` of the pair 1118-1126 -/
def rewind (nc : Nat → Option Nat) (p : Pair) : Pair × Bool :=
  match rewindC nc p.cert with
  | (c, false) => ({ p with cert := c }, false)
  | (c, true) =>
    if p.flag then
      match p.unc with
      | none => ({ p with cert := c }, false)
      | some u => match rewindC nc u with
        | (u', false) => ({ p with cert := c, unc := some u' }, false)
        | (u', true) =>
          if c.spills = u'.spills then ({ p with cert := c, unc := some u' }, true)
          else match copies nc {} c.spills with
            | some u'' => ({ p with cert := c, unc := some u'' }, true)
            | none => ({ p with cert := c, unc := some u' }, false)
    else ({ p with cert := c }, true)

/-- `prepare_for_model_run` of each of `items()`, `model.py` 878-879 -/
def prepare (nc : Nat → Option Nat) (p : Pair) : Pair × Bool :=
  if p.flag then
    match p.unc with
    | none => (p, false)
    | some u => match recheck nc p.cert with
      | (c, false) => ({ p with cert := c }, false)
      | (c, true) => match recheck nc u with
        | (u', b) => ({ p with cert := c, unc := some u' }, b)
  else match recheck nc p.cert with
    | (c, b) => ({ p with cert := c }, b)

/-- what a user does; the settings of a spill are set on the spill of the user, not on the copy -/
inductive Op
  | add (e : Sp)
  | remove (i : Nat)
  | set (i : Nat) (b : Bool) (s : Nat)
  | uncertain (b : Bool)
  | rewind
  | prepare
deriving Repr

/-- an operation -/
def step (nc : Nat → Option Nat) (p : Pair) : Op → Pair × Bool
  | .add e => add nc p e
  | .remove i => remove nc p i
  | .set i b s => ({ p with cert := setC p.cert i b s }, true)
  | .uncertain b => uncertain nc p b
  | .rewind => rewind nc p
  | .prepare => prepare nc p

/-- operations one after the other; the user goes on after an exception -/
def run (nc : Nat → Option Nat) (p : Pair) (l : List Op) : Pair := l.foldl (fun p o => (step nc p o).1) p

end Verif.SpillSet.Subst
