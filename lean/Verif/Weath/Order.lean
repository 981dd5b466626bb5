import Mathlib.Data.List.Sort

/-!
# Order of weatherers

Model of `gnome/weatherers/__init__.py` 43-92 (`sort_order`, `weatherers_idx`, `weatherer_sort`) and `gnome/model.py` 756-762
(`Model._order_weatherers`).

Simplifications: a weatherer is an object identity with its class.  Python's `sorted` (a stable merge sort) is
`List.mergeSort`; it raises TypeError (`none`) when it compares a `None` key, and in a list of at least two elements every
element is compared.  `!=` of the lists of weatherers compares values; equal values of the same class have the same rank
and keep their order, so only identity matters here.
-/

namespace Verif.Weath

/-- The weatherer classes known to the order, `sort_order` 43-60, and any other class (also subclasses of these). -/
inductive Cls where
  | ChemicalDispersion | Skimmer | Burn | RocBurn | RocSkim | RocDisperse | Beaching | HalfLife | Evaporation
  | NaturalDispersion | Dissolution | Biodegradation | Emulsification | FayGravityViscous | ConstantArea | Langmuir
  | other (name : Nat)
deriving DecidableEq, Repr

/-- `sort_order`, 43-60. -/
def sortOrder : List Cls :=
  [.ChemicalDispersion, .Skimmer, .Burn, .RocBurn, .RocSkim, .RocDisperse, .Beaching, .HalfLife, .Evaporation,
   .NaturalDispersion, .Dissolution, .Biodegradation, .Emulsification, .FayGravityViscous, .ConstantArea, .Langmuir]

/-- `weatherers_idx.get(cls)`, 69 and 92. -/
def weathererSort (c : Cls) : Option Nat :=
  if c ∈ sortOrder then some (sortOrder.idxOf c) else none

/-- A weatherer instance. -/
structure W where
  id : Nat
  cls : Cls
deriving DecidableEq, Repr

/-- `sorted(weatherers, key=weatherer_sort)`, line 758. -/
def pySorted (l : List W) : Option (List W) :=
  if l.length ≤ 1 then some l
  else if l.all (fun w => (weathererSort w.cls).isSome) then
    some (l.mergeSort (fun a b => decide ((weathererSort a.cls).getD 0 ≤ (weathererSort b.cls).getD 0)))
  else none

/-- `_order_weatherers`, 756-762: the collection afterwards; `none` if it raises (and then nothing is changed). -/
def orderWeatherers (l : List W) : Option (List W) :=
  match pySorted l with
  | none => none
  | some s => if l ≠ s then some s else some l

end Verif.Weath
