import Mathlib.Data.List.Basic
/-!
# Objects switched on and off during a run

Model of what `Model.setup_model_run` prepares (`/repo/py_gnome/gnome/model.py` 897-911: movers and weatherers only if they are on), of what a step needs of it
(`setup_time_step` 960-979, `weather_elements` 1069-1077), and of the switch `on`, an ordinary attribute that users and the web interface set at any time.

* `CurrentMover` and `WindMover`: `is_first_step` and `model_start_time` (`gnome/movers/py_current_movers.py` 113, 343-388; `gnome/movers/py_wind_movers.py` 112, 150-206):
  `model_start_time` does not exist before the first active step of a run that was prepared.
* weatherers: entries of the mass balance, made by `prepare_for_model_run` when they are on and added to in every step: `evaporated` (`gnome/weatherers/evaporation.py` 69-82,
  227), `natural_dispersion` and `sedimentation` (`natural_dispersion.py` 65-76, 151, 165), `bio_degradation` (`bio_degradation.py` 84-97, 227), `dissolution`
  (`dissolution.py` 80-88, 516), `skimmed`, `burned`, `chem_dispersed` (`cleanup.py` 295-303, 375, 565-574, 725, 799-805, 878); `Emulsification` only sets its entry
  (`emulsification.py` 56-66).  The mass balance is emptied when the model is rewound (`gnome/spill_container.py` 764).

Simplifications: the active range covers the run; elements have been released; a `KeyError` or `AttributeError` is `none`.
-/
namespace Verif.Run.OnOff

/-- What the user and the model do: begin a run (rewind and step 0), switch object `i`, make a step at a time. -/
inductive Op where
  | begin (t : Int)
  | switch (i : Nat) (on : Bool)
  | step (t : Int)
deriving DecidableEq

/-- A mover: `on`, `is_first_step`, `model_start_time`. -/
structure Mover where
  on : Bool
  first : Bool
  start : Option Int
deriving DecidableEq

/-- a mover that has just been made (py_current_movers.py 113) -/
def Mover.fresh (on : Bool) : Mover := ⟨on, false, none⟩

/-- `prepare_for_model_run`, called if the mover is on (model.py 899-902; py_current_movers.py 347) -/
def Mover.begin (m : Mover) : Mover := if m.on then { m with first := true } else m

/-- A step with uncertainty (py_current_movers.py 365-388): the seconds since `model_start_time`, `none` of them for a mover that is off. -/
def Mover.step (t : Int) (m : Mover) : Option (Option Nat × Mover) :=
  if m.on then
    let s := if m.first then some t else m.start
    s.map fun s => (some (t - s).natAbs, { m with first := false, start := some s })
  else some (none, m)

/-- A weatherer: `on` and the entries of the mass balance that it adds to. -/
structure Weath where
  on : Bool
  keys : List String
deriving DecidableEq

/-- The model: movers, weatherers and the entries of the mass balance. -/
structure M where
  movers : List Mover
  weath : List Weath
  balance : List String
deriving DecidableEq

/-- all movers of a step, one after the other -/
def moveAll (t : Int) : List Mover → Option (List (Option Nat) × List Mover)
  | [] => some ([], [])
  | m :: ms =>
    match m.step t with
    | none => none
    | some (e, m') => (moveAll t ms).map fun r => (e :: r.1, m' :: r.2)

/-- Whether a weatherer finds the entries that it adds to. -/
def Weath.finds (b : List String) (w : Weath) : Bool := !w.on || w.keys.all fun k => b.contains k

/-- Set the `i`-th switch; the movers are counted before the weatherers. -/
def M.switch (i : Nat) (on : Bool) (m : M) : M :=
  if i < m.movers.length then { m with movers := m.movers.modify i fun x => { x with on := on } }
  else { m with weath := m.weath.modify (i - m.movers.length) fun x => { x with on := on } }

/-- One operation: what the movers saw in it, and the model after. -/
def M.op (o : Op) (m : M) : Option (List (Option Nat) × M) :=
  match o with
  | .begin t =>
    let m1 : M := { m with movers := m.movers.map Mover.begin, balance := (m.weath.filter (·.on)).flatMap (·.keys) }
    if m1.weath.all (Weath.finds m1.balance) then (moveAll t m1.movers).map fun r => (r.1, { m1 with movers := r.2 }) else none
  | .switch i on => some ([], m.switch i on)
  | .step t => if m.weath.all (Weath.finds m.balance) then (moveAll t m.movers).map fun r => (r.1, { m with movers := r.2 }) else none

/-- A history. -/
def M.run : List Op → M → Option (List (List (Option Nat)) × M)
  | [], m => some ([], m)
  | o :: os, m =>
    match m.op o with
    | none => none
    | some (e, m') => (M.run os m').map fun r => (e :: r.1, r.2)

end Verif.Run.OnOff
