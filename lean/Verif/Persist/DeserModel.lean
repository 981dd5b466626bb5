/-!
# Objects made from JSON

Source: `py_gnome/gnome/persist/base_schema.py` `ObjType._impl` (68-107), `_deser` (141-160), `deserialize` (167-213),
`ObjTypeSchema.process_subnode` (702-775); `py_gnome/gnome/gnomeobject.py` `new_from_dict` (455-471), `update_from_dict` (492-550).

Simplifications: an object has one value and a list of references to objects, all of which can be updated; the references in JSON are
written out, as `serialize` does (serialize, 119-139). Objects that are made get ids of their own (`id` is read-only, 593, and dropped by
`new_from_dict`), so that a dictionary of references that `update_from_dict` makes for itself (494-495) has none of the ids of the
JSON. Objects are addresses in a heap.
-/
namespace Verif.Persist.Deser

mutual
/-- An object in JSON: its id, if it has one, its value and the objects in it. -/
inductive J where
  | obj (id : Option Nat) (v : Int) (kids : Js)
inductive Js where
  | nil
  | cons (j : J) (r : Js)
end

/-- An object: its value and the addresses of the objects that it refers to. -/
structure Obj where
  v : Int
  kids : List Nat
  deriving DecidableEq, Repr

/-- The objects so far, and `refs`: ids of the JSON with the addresses of objects. -/
structure St where
  heap : List Obj
  refs : List (Nat × Nat)
  deriving DecidableEq, Repr

def lookup (refs : List (Nat × Nat)) (i : Nat) : Option Nat := (refs.find? (·.1 = i)).map (·.2)

/-- `refs.get(cstruct['id'])`, if there is an id -/
def known (id : Option Nat) (s : St) : Option Nat := id.bind (lookup s.refs)

/-- `_deser` (141-160) after the objects within are made: an object of this id that was made meanwhile, or a new one. -/
def finish (id : Option Nat) (v : Int) (r : List Nat × St) : Nat × St :=
  match known id r.2 with
  | some a => (a, r.2)
  | none => (r.2.heap.length,
      ⟨r.2.heap ++ [⟨v, r.1⟩], match id with | some i => (i, r.2.heap.length) :: r.2.refs | none => r.2.refs⟩)

/-- The second loop of `update_from_dict` (521-533): the attributes are set. -/
def setObj (a : Nat) (v : Int) (r : List Nat × St) : St := ⟨r.2.heap.set a ⟨v, r.1⟩, r.2.refs⟩

mutual
/-- `deserialize` (167-213): an object that is known is updated, with references of its own. -/
def deserJ : J → St → Nat × St
  | .obj id v kids, s =>
    match known id s with
    | some a => (a, ⟨(setObj a v (updL kids ⟨s.heap, []⟩)).heap, s.refs⟩)
    | none => finish id v (deserL kids s)
/-- The attributes of an object that is made, in order (`_impl`). -/
def deserL : Js → St → List Nat × St
  | .nil, s => ([], s)
  | .cons j r, s => ((deserJ j s).1 :: (deserL r (deserJ j s).2).1, (deserL r (deserJ j s).2).2)
/-- `process_subnode` (702-775) for a reference: an object that is known is updated with the same references, another one made. -/
def updJ : J → St → Nat × St
  | .obj id v kids, s =>
    match known id s with
    | some a => (a, setObj a v (updL kids s))
    | none => finish id v (deserL kids s)
/-- The attributes of an object that is updated (505-518). -/
def updL : Js → St → List Nat × St
  | .nil, s => ([], s)
  | .cons j r, s => ((updJ j s).1 :: (updL r (updJ j s).2).1, (updL r (updJ j s).2).2)
end

/-- `cls.deserialize(json)`: the object, in the heap of the objects made. -/
def deserialize (j : J) : Nat × List Obj := ((deserJ j ⟨[], []⟩).1, (deserJ j ⟨[], []⟩).2.heap)

end Verif.Persist.Deser
