/-!
# Model of merging a model into another and of adding environment objects

Source: `/repo/py_gnome/gnome/model.py` `merge` (1614-1638), `_add_to_environ_collec` (1346-1372), `_callback_add_mover` (1374-1377),
`_callback_add_weatherer_env` (1384-1392), `add_env` (2008-2019), `_reset_num_time_steps` (659-671).

Collections are lists of objects without repetitions (C01); `x in collection` compares identities (C01). An object of the
environment is a tree: the objects it refers to (`wind`, `waves`, `water`, `current`, in this order) are below it. What `rewind` does
is left out.
-/
namespace Verif.Run.Merge

/-- an object with its identity and the environment objects it refers to -/
inductive Obj
  | mk (ident : Nat) (refs : List Obj)

def Obj.ident : Obj → Nat
  | .mk i _ => i

def Obj.refs : Obj → List Obj
  | .mk _ rs => rs

/-- is an object in a collection? -/
def has (l : List Obj) (o : Obj) : Bool := l.any (fun x => x.ident == o.ident)

mutual
/-- `self.environment += o` for an object that may be there already; the callback adds what it refers to -/
def addEnv (env : List Obj) : Obj → List Obj
  | .mk i rs => if has env (.mk i rs) then env else addRefs (env ++ [.mk i rs]) rs
/-- `_add_to_environ_collec` for the objects referred to -/
def addRefs (env : List Obj) : List Obj → List Obj
  | [] => env
  | o :: os => addRefs (addEnv env o) os
end

/-- the state of a model that `merge` touches; `rest` are the other attributes, `none` if `None` -/
structure M where
  step : Option Int
  num : Option Int
  duration : Int
  rest : Nat → Option Nat
  movers : List Obj
  weatherers : List Obj
  env : List Obj
  outputters : List Obj
  spills : List Obj

/-- `_reset_num_time_steps` -/
def numFor (step : Option Int) (duration : Int) : Option Int := step.map (fun s => 1 + duration.fdiv s)

/-- the loop over the items of a collection whose additions are followed by `_add_to_environ_collec` (movers, weatherers) -/
def mergeItems (mine env : List Obj) : List Obj → List Obj × List Obj
  | [] => (mine, env)
  | o :: os => if has mine o then mergeItems mine env os else mergeItems (mine ++ [o]) (addRefs env o.refs) os

/-- the same for collections without consequences for the environment (outputters, spills) -/
def mergePlain (mine : List Obj) : List Obj → List Obj
  | [] => mine
  | o :: os => if has mine o then mergePlain mine os else mergePlain (mine ++ [o]) os

/-- the same for the environment itself -/
def mergeEnv (env : List Obj) : List Obj → List Obj
  | [] => env
  | o :: os => if has env o then mergeEnv env os else mergeEnv (addEnv env o) os

/-- `a.merge(b)` (1614-1638): attributes that are `None` are taken over one by one (1618-1621), then the collections in the order
of `_oc_list` (170), then the spills -/
def merge (a b : M) : M :=
  let m := mergeItems a.movers a.env b.movers
  let w := mergeItems a.weatherers m.2 b.weatherers
  { step := a.step.or b.step
    num := a.num.or b.num
    duration := a.duration
    rest := fun k => (a.rest k).or (b.rest k)
    movers := m.1
    weatherers := w.1
    env := mergeEnv w.2 b.env
    outputters := mergePlain a.outputters b.outputters
    spills := mergePlain a.spills b.spills }

end Verif.Run.Merge
