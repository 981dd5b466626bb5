import Mathlib.Data.List.Basic
/-!
# Model of the questions that a model answers about its objects, and of adding weatherers by name

Source: `/repo/py_gnome/gnome/model.py` `contains_object` 673-690, `find_by_class` 692-710, `find_by_attr` 712-751, `add_weathering` 357-389;
`/repo/py_gnome/gnome/weatherers/__init__.py` `weatherers_by_name`, `standard_weatherering_sets` 70-82.

Simplifications: an object is its number, the classes it is an instance of, its attributes (a word, a list of words or something else that cannot be looked through) and
the objects it holds. Names are compared after `lower()`, so they are given in lower case.
-/
namespace Verif.Run.Ask

inductive Attr
  | word (s : String)
  | words (l : List String)
deriving DecidableEq

/-- an object and the numbers of the objects that it holds (release and substance of a spill, wind of a mover, ...) -/
structure Obj where
  id : Nat
  classes : List String
  attr : String → Option Attr
  held : List Nat

/-- the map and the collections of a model in the order of 677-681 -/
structure M where
  map : Obj
  environment : List Obj
  spills : List Obj
  movers : List Obj
  weatherers : List Obj
  outputters : List Obj

/-- one collection of 682-688: no class but `Model` has `contains_object`, so what objects hold is not looked at -/
def inColl (id : Nat) : List Obj → Bool
  | [] => false
  | o :: t => if id = o.id then true else inColl id t

/-- `contains_object` 673-690 -/
def contains (m : M) (id : Nat) : Bool :=
  if m.map.id = id then true
  else [m.environment, m.spills, m.movers, m.weatherers, m.outputters].any (inColl id)

/-- what a search gives: nothing, one object or a list -/
inductive Found
  | none
  | one (o : Obj)
  | list (l : List Obj)

/-- the loop of `find_by_class` and `find_by_attr` with the test of an item -/
def search (p : Obj → Bool) (all : Bool) (acc : List Obj) : List Obj → Found
  | [] => if acc = [] then .none else .list acc
  | o :: t => if p o then (if all then search p all (acc ++ [o]) t else .one o) else search p all acc t

/-- `find_by_class` 692-710 -/
def byClass (cls : String) (coll : List Obj) (all : Bool) : Found := search (fun o => o.classes.contains cls) all [] coll

/-- the test of 738-745: a word is equal, of several words one is equal, without the attribute not -/
def attrIs (attr value : String) (o : Obj) : Bool :=
  match o.attr attr with
  | .none => false
  | .some (.word s) => s == value
  | .some (.words l) => l.any (value == ·)

/-- `find_by_attr` 712-751 -/
def byAttr (attr value : String) (coll : List Obj) (all : Bool) : Found := search (attrIs attr value) all [] coll

/-! ## adding weatherers -/

/-- `weatherers_by_name` 70-77 -/
def known : List String := ["evaporation", "dispersion", "emulsification", "dissolution", "half_life_weatherer"]

/-- `standard_weatherering_sets` 78-80 -/
def standard : List String := ["evaporation", "dispersion", "emulsification"]

/-- what is asked for: a word or a list of names -/
inductive Which
  | word (s : String)
  | names (l : List String)

/-- the names: a word that is no set is looked through letter by letter 377-382 -/
def namesOf : Which → List String
  | .word s => if s = "standard" then standard else s.toList.map (fun c => String.ofList [c])
  | .names l => l

/-- 382-389: the weatherers of the model (by name) after the names so far, and whether a name was refused with ValueError -/
def addAll (have_ : List String) : List String → List String × Bool
  | [] => (have_, true)
  | n :: t => if n ∈ known then addAll (have_ ++ [n]) t else (have_, false)

/-- `add_weathering` 357-389 -/
def addWeathering (have_ : List String) (w : Which) : List String × Bool := addAll have_ (namesOf w)

end Verif.Run.Ask
