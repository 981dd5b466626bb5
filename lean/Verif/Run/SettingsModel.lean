import Verif.Clock.Model

/-!
# The settings of a model, saved and loaded

Source: `py_gnome/gnome/model.py` (`ModelSchema` 96-158, `__init__` 197-338, `load` 1519-1553), `GnomeId.new_from_dict`, `to_dict`
(`py_gnome/gnome/gnomeobject.py` 455-490), `ObjType._impl` (`py_gnome/gnome/persist/base_schema.py` 68-105), the clock in `Verif.Clock.Model`.

Simplifications: a value in a save file is the attribute itself (the texts of times are the subject of C239), an attribute that is `None` is not in the file and so not
passed to the constructor (`base_schema.py:78-81`). The collections, the map and the appearance are left out (C79, C196, C337). The time zone and the location are values that
stand for themselves.
-/
namespace Verif.Run.Settings
open Verif.Py Verif.Clock

/-- The modes that there are (`model.py:168`). -/
def modes : List String := ["gnome", "adios", "roc"]

/-- The arguments of the constructor (`model.py:197-221`) that are not collections; the step is `none` for `time_step=None`. -/
structure Args where
  name : String
  step : Option StepArg
  start : Int
  dur : Int
  substeps : Int
  uncertain : Bool
  cache : Bool
  mode : Option String
  defaults : Bool
  location : List Int
  activated : Bool
  backward : Bool
  tz : Int

/-- A model: its clock and its other settings. -/
structure Mod where
  name : String
  clock : State
  substeps : Int
  cache : Bool
  mode : String
  defaults : Bool
  location : List Int
  activated : Bool
  tz : Int
deriving DecidableEq

/-- `Model.__init__` (`model.py:254-338`); the argument `make_default_refs` is not looked at (332). -/
def make (a : Args) : Except Err Mod :=
  if a.substeps < 1 then .error .valueError
  else
    match a.mode with
    | some m => if m ∈ modes then
        match init a.start a.dur a.step a.backward a.uncertain with
        | .error e => .error e
        | .ok c => .ok ⟨a.name, c, a.substeps, a.cache, m, true, a.location, a.activated, a.tz⟩
      else .error .valueError
    | none =>
      match init a.start a.dur a.step a.backward a.uncertain with
      | .error e => .error e
      | .ok c => .ok ⟨a.name, c, a.substeps, a.cache, "gnome", true, a.location, a.activated, a.tz⟩

/-- What the save file says of the settings (`ModelSchema`, 96-158): the step in seconds as a fraction of a million, if there is one. -/
structure Saved where
  name : String
  step : Option (Int × Nat)
  substeps : Int
  start : Int
  dur : Int
  uncertain : Bool
  cache : Bool
  num : Option Int
  defaults : Bool
  mode : String
  location : List Int
  activated : Bool
  backward : Bool
  tz : Int
deriving DecidableEq

/-- `to_dict` of a model for saving. -/
def save (m : Mod) : Saved :=
  ⟨m.name, m.clock.ts.map (fun t => (t, 1000000)), m.substeps, m.clock.start, m.clock.dur, m.clock.uncertain, m.cache, m.clock.num, m.defaults, m.mode,
    m.location, m.activated, m.clock.backward, m.tz⟩

/-- `new_from_dict` (`gnomeobject.py:455-471`): what is read only (`weathering_substeps` 99, `num_time_steps` 109) is not passed on, and what is not passed has the
default of the constructor: 1 substep, a step of 15 minutes. -/
def load (s : Saved) : Except Err Mod :=
  make
    { name := s.name
      step := some (match s.step with
        | some (p, q) => .number p q
        | none => .delta (900 * 1000000))
      start := s.start
      dur := s.dur
      substeps := 1
      uncertain := s.uncertain
      cache := s.cache
      mode := some s.mode
      defaults := s.defaults
      location := s.location
      activated := s.activated
      backward := s.backward
      tz := s.tz }

end Verif.Run.Settings
