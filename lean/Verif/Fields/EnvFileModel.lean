import Mathlib.Data.List.Basic

/-!
# Environment objects from a file

`env_from_netCDF` and `ice_env_from_netCDF` (py_gnome/gnome/environment/environment.py 147-264).

Simplifications: an object is its class and what it was given to refer to; objects are numbered in the order of the list that is returned.
Whether `from_netCDF` of a class succeeds depends on the class and on which references it is given that are not `None` (it makes the others
from the file itself, environment_objects.py 844-870, 930-944; these are not in the list). The grid is made once and given to all (199-202).
-/
namespace Verif.Fields.EnvFile

/-- The classes: which are kinds of which, which are gridded (`Variable` or `VectorVariable`), what they need to refer to (`_req_refs`). -/
structure Classes where
  isa : Nat → Nat → Bool
  gridded : Nat → Bool
  req : Nat → List (String × Nat)

/-- An object that is returned: its class, and the objects of the list given to it, by number. -/
structure Obj where
  cls : Nat
  refs : List (String × Nat)
deriving DecidableEq

/-- Keyword arguments for references: the name, and the number of the object or `None`. -/
abbrev Kw := List (String × Option Nat)

/-- `clskwargs[ref] = o` -/
def Kw.put (kw : Kw) (r : String) (o : Option Nat) : Kw := kw.filter (fun p => p.1 ≠ r) ++ [(r, o)]

/-- `ref in clskwargs.keys()` -/
def Kw.has (kw : Kw) (r : String) : Bool := kw.any fun p => p.1 = r

/-- The references that are given and not `None`. -/
def Kw.given (kw : Kw) : List (String × Nat) := kw.filterMap fun p => p.2.map fun i => (p.1, i)

/-- `for o in new_env: if isinstance(o, klass): clskwargs[ref] = o` (223-225): the last one stays. -/
def scan (K : Classes) (klass : Nat) (r : String) (env : List Obj) (kw : Kw) : Kw :=
  env.zipIdx.foldl (fun kw p => if K.isa p.1.cls klass then kw.put r (some p.2) else kw) kw

/-- `attempt_from_netCDF` (163-171): the object, or `None` on any exception. -/
def attempt (can : Nat → List String → Bool) (c : Nat) (kw : Kw) : Option Obj :=
  if can c (kw.given.map Prod.fst) then some ⟨c, kw.given⟩ else none

/-- The loop over the references that are needed (222-238): one that is not found is filled with an object of the class *itself*. -/
def fill (K : Classes) (can : Nat → List String → Bool) (c : Nat) : List (String × Nat) → List Obj × Kw → List Obj × Kw
  | [], st => st
  | (r, klass) :: rest, (env, kw) =>
    let kw := scan K klass r env kw
    if kw.has r then fill K can c rest (env, kw)
    else match attempt can c kw with
      | some o => fill K can c rest (env ++ [o], kw.put r (some env.length))
      | none => fill K can c rest (env, kw.put r none)

/-- The loop over the classes (209-248). -/
def makeAll (K : Classes) (can : Nat → List String → Bool) : List Nat → List Obj → List Obj
  | [], env => env
  | c :: rest, env =>
    if K.gridded c && !(env.any fun o => K.isa o.cls c) then
      let st := fill K can c (K.req c) (env, [])
      match attempt can c st.2 with
      | some o => makeAll K can rest (st.1 ++ [o])
      | none => makeAll K can rest st.1
    else makeAll K can rest env

/-- `Environment._subclasses` (38): `__metaclass__` (44) has no effect, so nothing is ever added to it. -/
def subclasses : List Nat := []

/-- `env_from_netCDF` (147-250). -/
def envFromFile (K : Classes) (can : Nat → List String → Bool) (clsList : Option (List Nat)) : List Obj :=
  makeAll K can (clsList.getD subclasses) []

/-- `ice_env_from_netCDF` (253-264): the classes that are aware of ice, of those known. -/
def iceEnvFromFile (K : Classes) (can : Nat → List String → Bool) (iceAware : Nat → Bool) : List Obj :=
  envFromFile K can (some (subclasses.filter iceAware))

end Verif.Fields.EnvFile
