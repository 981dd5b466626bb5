import Verif.Persist.Model

/-!
# What it means for a loaded object to be the saved one
-/

namespace Verif.Persist

variable {P B : Type}

/-- The objects reachable from one. -/
inductive Part (root : Obj P) : Obj P → Prop where
  | self : Part root root
  | kid {i n d fl ks k} : Part root (.node i n d fl ks) → k ∈ ks → Part root k

/-- One id, one object. -/
def Coherent (root : Obj P) : Prop :=
  ∀ a b, Part root a → Part root b → a.id = b.id → a = b

mutual
/-- The same object with other ids: name, data, contents of the data files and references agree. -/
def Same (φ : Nat → Nat) (fs : P → B) : Obj P → Obj B → Prop
  | .node i n d fl ks, .node i' n' d' fl' ks' =>
    i' = φ i ∧ n' = n ∧ d' = d ∧ fl' = fl.map fs ∧ SameAll φ fs ks ks'
/-- The same for lists of references. -/
def SameAll (φ : Nat → Nat) (fs : P → B) : List (Obj P) → List (Obj B) → Prop
  | [], [] => True
  | o :: os, o' :: os' => Same φ fs o o' ∧ SameAll φ fs os os'
  | _, _ => False
end

/-- Loading gives the object back: an object shared in the one is shared in the other, and different
objects are different. -/
def Back (fs : P → B) (t : Obj P) (t' : Obj B) : Prop :=
  ∃ φ : Nat → Nat, (∀ a b, Part t a → Part t b → φ a.id = φ b.id → a.id = b.id) ∧ Same φ fs t t'

/-- `p` is a data file of some object of `t`. -/
def HasFile (t : Obj P) (p : P) : Prop := ∃ i n d fl ks, Part t (.node i n d fl ks) ∧ p ∈ fl

/-- `n` is the name of some object of `t`. -/
def HasName (t : Obj P) (n : Str) : Prop := ∃ i d fl ks, Part t (.node i n d fl ks)

end Verif.Persist
