import Verif.Weath.Order

/-!
# Which weatherers are used in a run

Sources: `py_gnome/gnome/model.py` `setup_model_run` steps 1 and 2 (815-862), `_order_weatherers` (756-762);
`_ref_as` of `FayGravityViscous`, `ConstantArea` ('spreading') and `Langmuir` ('langmuir') in `weatherers/spreading.py`.

Simplifications: of the array types of a weatherer only whether 'area' is among them; objects are known by id.
-/

namespace Verif.Run
open Verif.Weath

/-- `_ref_as` as far as it is read (824-831). -/
inductive Role
  | spreading | langmuir | none
  deriving DecidableEq, Repr

/-- A weatherer: its id and class, its role, whether its array types contain 'area', and `on`. -/
structure V where
  w : W
  role : Role
  area : Bool
  on : Bool
  deriving DecidableEq, Repr

/-- The variables of the loop 820-833: whether 'area' is in `weather_data`, `spread`, `langmuir`, and the objects
as changed so far. -/
structure Pass where
  area : Bool
  spread : Option Nat
  lang : Option Nat
  done : List V
  deriving DecidableEq, Repr

/-- One iteration (821-833). -/
def visit (s : Pass) (v : V) : Pass :=
  let area := if v.on then s.area || v.area else s.area
  match v.role with
  | .spreading => ⟨area, some v.w.id, s.lang, s.done ++ [{ v with on := false }]⟩
  | .langmuir => ⟨area, s.spread, some v.w.id, s.done ++ [{ v with on := false }]⟩
  | .none => ⟨area, s.spread, s.lang, s.done ++ [v]⟩

/-- The loop 820-833. -/
def pass (l : List V) : Pass := l.foldl visit ⟨false, none, none, []⟩

/-- `item.on = True` for the object `i`. -/
def turnOn (l : List V) (i : Nat) : List V := l.map fun v => if v.w.id = i then { v with on := true } else v

/-- A new `FayGravityViscous`. -/
def newSpread (i : Nat) : V := ⟨⟨i, .FayGravityViscous⟩, .spreading, true, true⟩

/-- A new `Langmuir`. -/
def newLang (i : Nat) : V := ⟨⟨i, .Langmuir⟩, .langmuir, true, true⟩

/-- Step 1 (815-850); `i` and `j` are the ids of new objects. -/
def special (i j : Nat) (l : List V) : List V :=
  let p := pass l
  if p.area then
    let l1 := match p.spread with
      | none => p.done ++ [newSpread i]
      | some k => turnOn p.done k
    match p.lang with
    | none => l1 ++ [newLang j]
    | some k => turnOn l1 k
  else p.done

/-- `sorted(self.weatherers, key=weatherer_sort)` (758). -/
def leV (a b : V) : Bool := decide ((weathererSort a.w.cls).getD 0 ≤ (weathererSort b.w.cls).getD 0)

/-- Steps 1 and 2 (815-862); all classes are known to the order (else C45). -/
def setup (i j : Nat) (l : List V) : List V := (special i j l).mergeSort leV

end Verif.Run
