import Verif.Py
/-!
# Model of `gnome.utilities.orderedcollection.OrderedCollection`

Source: `/repo/py_gnome/gnome/utilities/orderedcollection.py`.
Objects have an arbitrary type `α`; `sid` is the string id `_s_id` (lines 47-52), of arbitrary type `ι`.
`inst` says whether `isinstance(e, self.dtype)` (elements of any other type are "not an instance and not iterable").
-/
namespace Verif.OC
open Verif.Py

/-- `_elems` (with `None` holes) and `_d_index` (lines 41-43). The index values are Python ints,
they can become negative through `replace` with a negative position (lines 139-154). -/
structure State (α ι : Type) where
  elems : List (Option α)
  index : Dict ι Int

/-- Callbacks fired (`fire_event`, lines 363-366); one entry per event, the set of registered callbacks
is left out: each registered callback sees the sub-sequence of events it registered for. -/
inductive Event (α : Type)
  | add (e : α) | remove (e : α) | replace (e : α)
  deriving DecidableEq, Repr

section
variable {α ι : Type} [DecidableEq ι] (sid : α → ι) (inst : α → Bool)

/-- insertion into a sorted list of ints -/
def insertInt (a : Int) : List Int → List Int
  | [] => [a]
  | b :: l => if a ≤ b then a :: b :: l else b :: insertInt a l

/-- `sorted` on ints (Python's builtin; any sorting algorithm gives the same list) -/
def sortInts : List Int → List Int
  | [] => []
  | a :: l => insertInt a (sortInts l)

/-- `sorted(self._d_index.values())` (lines 71, 182, 188) -/
def sortedVals (s : State α ι) : List Int := sortInts (s.index.map Prod.snd)

/-- `self._elems[i]` for a Python int `i`: IndexError if out of range; the slot may be `None`. -/
def slot (s : State α ι) (i : Int) : Except Err (Option α) :=
  match pyGet s.elems i with
  | some o => .ok o
  | none => .error .indexError

/-- `__init__`, lines 16-45, for a list of elements that are all of the right type. -/
def init (es : List α) : State α ι where
  elems := es.map some
  index := (es.zipIdx).foldl (fun d p => d.set (sid p.1) (p.2 : Int)) []

/-- `remake`, lines 54-62. -/
def remake (s : State α ι) : State α ι :=
  if s.elems.any Option.isNone then
    let es := s.elems.filterMap id
    { elems := es.map some
      index := (es.zipIdx).foldl (fun d p => d.set (sid p.1) (p.2 : Int)) s.index }
  else s

/-- `get` with an int, lines 69-72 (the result is `None` if the slot is empty). -/
def getPos (s : State α ι) (i : Int) : Except Err (Option α) :=
  match pyGet (sortedVals s) i with
  | some idx => slot s idx
  | none => .error .indexError

/-- `get` with an id string, lines 73-75. -/
def getId (s : State α ι) (k : ι) : Except Err (Option α) :=
  match s.index.get? k with
  | some idx => slot s idx
  | none => .error .keyError

/-- `len(self)`, line 184. -/
def len (s : State α ι) : Nat := s.index.length

/-- `list(self)` (`__iter__`, lines 187-189). -/
def iter (s : State α ι) : List (Except Err (Option α)) := (sortedVals s).map (slot s)

/-- `elem in self`, lines 191-201. -/
def contains (s : State α ι) (e : α) : Bool := s.index.has (sid e)

/-- `values()`, lines 375-377. -/
def values (s : State α ι) : List α := s.elems.filterMap id

/-- `index(elem)` for an object with an `id` or an id string, lines 157-182. -/
def indexOf (s : State α ι) (k : ι) : Except Err Nat :=
  match s.index.get? k with
  | some idx => .ok ((sortedVals s).idxOf idx)
  | none => .error .valueError

/-- An operation's effect: new state, exception raised (if any), events fired. -/
abbrev Res (α ι : Type) := State α ι × Option Err × List (Event α)

/-- `add` of one element of the right type, lines 79-87. -/
def add1 (s : State α ι) (e : α) : State α ι × List (Event α) :=
  if s.index.has (sid e) then (s, [])
  else ({ elems := s.elems ++ [some e], index := s.index.set (sid e) (s.elems.length : Int) }, [.add e])

/-- `add` of a list, lines 88-101: elements before an ill-typed one are added, then TypeError. -/
def addMany (s : State α ι) : List α → Res α ι
  | [] => (s, none, [])
  | e :: es =>
    if inst e then
      let r := add1 sid s e
      let r' := addMany r.1 es
      (r'.1, r'.2.1, r.2 ++ r'.2.2)
    else (s, some .typeError, [])

/-- second half of `remove`, lines 119-125: `obj_id` is an id in the index. -/
def removeKey (s : State α ι) (k : ι) : Res α ι :=
  match s.index.get? k with
  | none => (s, some .keyError, [])
  | some idx =>
    match pyIdx s.elems.length idx with
    | none => (s, some .indexError, [])
    | some n =>
      match s.elems[n]? with
      | some (some e) =>
        ({ elems := s.elems.set n none, index := s.index.del k }, none, [.remove e])
      | _ => ({ elems := s.elems.set n none, index := s.index.del k }, none, [])

/-- `remove` with an id string, lines 112-125 (`self[ident]` raises KeyError for an unknown id). -/
def removeId (s : State α ι) (k : ι) : Res α ι :=
  if s.index.has k then removeKey s k else (s, some .keyError, [])

/-- `remove` with an int position, lines 115-125. -/
def removePos (s : State α ι) (i : Int) : Res α ι :=
  match getPos s i with
  | .error e => (s, some e, [])
  | .ok none => (s, some .keyError, [])     -- `_s_id(None)` is not in the index
  | .ok (some e) => removeKey s (sid e)

/-- last part of `replace`, lines 151-155, `raw` is the list position used for `_elems[idx] = new`
(always in range here, callers got it from a successful lookup) and `idx` the int stored in the index. -/
def replaceAt (s : State α ι) (key : ι) (raw : Nat) (idx : Int) (e : α) : Res α ι :=
  if s.index.has key then
    ({ elems := s.elems.set raw (some e), index := (s.index.del key).set (sid e) idx }, none, [.replace e])
  else (s, some .keyError, [])

/-- `replace` with an id string, lines 135-137 and 142-155. -/
def replaceId (s : State α ι) (k : ι) (e : α) : Res α ι :=
  if inst e then
    match s.index.get? k with
    | none => (s, some .keyError, [])
    | some idx =>
      match pyIdx s.elems.length idx with
      | none => (s, some .indexError, [])
      | some raw => replaceAt sid s k raw idx e
  else (s, some .typeError, [])

/-- `replace` with an int, lines 135-141 and 151-155: the int is used as a raw position in `_elems`
and is stored in the index as is, even when negative. An empty slot has no id in the index: KeyError. -/
def replacePos (s : State α ι) (i : Int) (e : α) : Res α ι :=
  if inst e then
    match pyIdx s.elems.length i with
    | none => (s, some .indexError, [])
    | some raw =>
      match s.elems[raw]? with
      | some (some old) => replaceAt sid s (sid old) raw i e
      | _ => (s, some .keyError, [])
  else (s, some .typeError, [])

/-- `clear`, lines 368-373. -/
def clear (_ : State α ι) : State α ι := { elems := [], index := [] }

/-- The mutating API. -/
inductive Op (α ι : Type)
  | add (e : α)
  | addMany (es : List α)
  | removeId (k : ι)
  | removePos (i : Int)
  | replaceId (k : ι) (e : α)
  | replacePos (i : Int) (e : α)
  | remake
  | clear

/-- One API call. `add` of a single ill-typed element: not an instance, not iterable: TypeError (lines 88-101). -/
def step (s : State α ι) : Op α ι → Res α ι
  | .add e => if inst e then let r := add1 sid s e; (r.1, none, r.2) else (s, some .typeError, [])
  | .addMany es => addMany sid inst s es
  | .removeId k => removeId s k
  | .removePos i => removePos sid s i
  | .replaceId k e => replaceId sid inst s k e
  | .replacePos i e => replacePos sid inst s i e
  | .remake => (remake sid s, none, [])
  | .clear => (clear s, none, [])

/-- A history of API calls; exceptions are caught by the caller, who goes on. -/
def run (s : State α ι) : List (Op α ι) → State α ι × List (Option Err) × List (Event α)
  | [] => (s, [], [])
  | op :: ops =>
    let r := step sid inst s op
    let r' := run r.1 ops
    (r'.1, r.2.1 :: r'.2.1, r.2.2 ++ r'.2.2)

end
end Verif.OC
