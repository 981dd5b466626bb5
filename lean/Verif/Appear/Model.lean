import Verif.Py

/-!
# The appearance of objects

Source: `py_gnome/gnome/utilities/appearance.py` `Appearance` (84-124); `py_gnome/gnome/gnomeobject.py` `to_dict` (473-490),
`update_from_dict` (492-550).

Simplifications: values are numbers (nothing is done to them); the names of the schema are given, those that may be updated and
those that are only read.
-/
namespace Verif.Appear
open Verif.Py

/-- The names of a schema. -/
structure Schema where
  upd : List String
  ro : List String

/-- An object: its attributes and `appearance_keys`. -/
structure Obj where
  attrs : Dict String Nat
  keys : List String
  deriving DecidableEq

/-- `GnomeId.update_from_dict` (492-550): sets the names of the schema that are given. -/
def baseUpdate (upd : List String) (d : Dict String Nat) (a : Dict String Nat) : Dict String Nat :=
  upd.foldl (setOne d) a
where
  setOne (d a : Dict String Nat) (k : String) : Dict String Nat :=
    match d.get? k with
    | some v => a.set k v
    | none => a

/-- `for name in updatable + read_only_attrs: dict_.pop(name)` (101-104); a name that is missing is a KeyError. -/
def popAll : List String → Dict String Nat → Option (Dict String Nat)
  | [], d => some d
  | n :: ns, d => if d.has n then popAll ns (d.del n) else none

/-- `for k, v in dict_.items(): …` (105-108). -/
def setRest (o : Obj) (d : Dict String Nat) : Obj :=
  d.foldl (fun o kv => ⟨o.attrs.set kv.1 kv.2, if kv.1 ∈ o.keys then o.keys else o.keys ++ [kv.1]⟩) o

/-- `Appearance.update_from_dict` (98-108): the object afterwards, and whether KeyError was raised. -/
def update (s : Schema) (o : Obj) (d : Dict String Nat) : Obj × Bool :=
  let o' : Obj := ⟨baseUpdate s.upd d o.attrs, o.keys⟩
  match popAll (s.upd ++ s.ro) d with
  | none => (o', true)
  | some rest => (setRest o' rest, false)

/-- `to_dict` (110-114), as far as an attribute is concerned; `none` if it is not in the dictionary. Missing attributes are `None`
(`__getattr__`, 116-124), here `some none`. -/
def toDict (s : Schema) (o : Obj) (k : String) : Option (Option Nat) :=
  if k ∈ s.upd ∨ k ∈ s.ro ∨ k ∈ o.keys then some (o.attrs.get? k) else none

end Verif.Appear
