import Mathlib.Algebra.Order.Field.Rat
/-!
# Model of the checks made before a run

Source: `/repo/py_gnome/gnome/model.py` (`check_inputs`, `validate`, `_validate_env_coll`, `find_by_attr`, `step`) and
`/repo/py_gnome/gnome/gnomeobject.py` (`validate_refs`).

Times are microseconds since an epoch, durations and steps microseconds.  The answers of the map (`on_map`, `on_land`), of
the substance (`pour_point`, `density_at_temp`) and of the water object (`get`) are parameters.  A message is a value of
`Msg`, not a string; whatever the text contains is an argument.  Names of objects have an arbitrary type; here they are
natural numbers.
-/
namespace Verif.Run.Check

/-- the attributes `validate_refs` and `validate` look at (gnomeobject.py 393, model.py 1852) -/
inductive Ref | wind | water | waves
  deriving DecidableEq, Repr

/-- the three of them, in the order of the code -/
def refs : List Ref := [.wind, .water, .waves]

/-- which `validate` an object has -/
inductive Kind
  /-- `GnomeObject.validate` (gnomeobject.py 418-443) -/
  | plain
  /-- `Wind.validate` (environment/wind.py 746-757): the flag says that all speeds are 0 -/
  | windObj (calm : Bool)
  /-- `Waves.validate` (environment/waves.py 92-94) -/
  | wavesObj
  deriving DecidableEq, Repr

/-- the `_ref_as` of an object: not there, a string, or a list of strings; strings that are no `Ref` are `none` -/
inductive RefAs
  | absent
  | one (r : Option Ref)
  | many (rs : List (Option Ref))
  deriving DecidableEq, Repr

/-- an object in one of the collections of the model. `on` is `none` if the object has no such attribute;
`attr r` is `none` if it has no attribute `r`, `some false` if that is `None`, `some true` if it is set. -/
structure Item where
  name : Nat
  on : Option Bool
  kind : Kind
  defaults : Bool
  attr : Ref → Option Bool
  refAs : RefAs

/-- what the checks ask about a spill (`water` is `spill.substance.water`: temperature, density, and the density of the
oil at that temperature) -/
structure SpillIn where
  name : Nat
  on : Bool
  depth : ℚ
  startOnMap : Bool
  endOnMap : Bool
  startOnLand : Bool
  endOnLand : Bool
  moving : Bool
  release : Int
  endRelease : Int
  weatherable : Bool
  pour : ℚ
  water : Option (ℚ × ℚ × ℚ)

/-- a mover: `on` and `get_bounds()` as west, south, east, north -/
structure MoverIn where
  name : Nat
  on : Bool
  west : ℚ
  south : ℚ
  east : ℚ
  north : ℚ

/-- what the checks ask about a model; `step` is `time_step`, `items` are movers, weatherers, environment and outputters
in this order, `env` the environment collection, `weathering` is `has_weathering` -/
structure Inputs where
  start : Int
  duration : Int
  step : Int
  backward : Bool
  weathering : Bool
  items : List Item
  env : List Item
  spills : List SpillIn
  movers : List MoverIn
  west : ℚ
  south : ℚ
  east : ℚ
  north : ℚ

/-- the messages; all are warnings but `before` -/
inductive Msg
  | noRefObject (item : Nat) (r : Ref)
  | calmWind (item : Nat)
  | notInEnvironment (r : Ref)
  | noSpills
  | aboveSurface (depth : ℚ)
  | outsideMap (spill : Nat)
  | onLand (spill : Nat)
  | releasedLater (spill : Nat)
  | releasedBefore (spill : Nat) (rt st : Int)
  | pourPoint (temp pour : ℚ)
  | oneTooLate
  | allTooLate
  | apart (mover : Nat)
  deriving DecidableEq, Repr

/-- exceptions (`GnomeRuntimeError` of `check_inputs`, `RuntimeError` of `step`) -/
inductive Err
  | continuousBackwards
  | sinker
  | signs
  | weatheringBackwards
  | invalid (msgs : List Msg)
  deriving DecidableEq, Repr

/-- `validate_refs` (gnomeobject.py 393-416) -/
def validateRefs (i : Item) : List Msg × Bool :=
  refs.foldl (fun acc r =>
    if i.attr r = some false then (acc.1 ++ [.noRefObject i.name r], if i.defaults then acc.2 else false) else acc)
    ([], true)

/-- `validate` of an object -/
def Item.validate (i : Item) : List Msg × Bool :=
  match i.kind with
  | .plain => validateRefs i
  | .windObj calm => (if calm then [.calmWind i.name] else [], true)
  | .wavesObj => ([], true)

/-- `hasattr(item, 'on') and not item.on` (model.py 1837) -/
def Item.off (i : Item) : Bool := i.on == some false

/-- does the test of `find_by_attr('_ref_as', ref, …)` hold of an object (lines 735-748)? An object without the attribute is
passed over. -/
def RefAs.matches : RefAs → Ref → Bool
  | .absent, _ => false
  | .one r, v => r == some v
  | .many rs, v => rs.any (fun r => r == some v)

/-- `find_by_attr('_ref_as', ref, self.environment)` (lines 714-752) -/
def findByRef (env : List Item) (r : Ref) : Option Item := env.find? (fun i => i.refAs.matches r)

/-- the loop of `validate` (lines 1834-1855): messages, validity and the set of required names (a list without
repetitions) -/
def validateLoop : List Item → List Msg × Bool × List Ref
  | [] => ([], true, [])
  | i :: is =>
    let rest := validateLoop is
    if i.off then rest else
    let v := i.validate
    (v.1 ++ rest.1, v.2 && rest.2.1,
      if i.defaults then refs.filter (fun r => (i.attr r).isSome || rest.2.2.contains r) else rest.2.2)

/-- `_validate_env_coll` (lines 1866-1890) -/
def validateEnv (env : List Item) (rs : List Ref) : List Msg × Bool :=
  let missing := rs.filter (fun r => (findByRef env r).isNone)
  (missing.map .notInEnvironment, missing.isEmpty)

/-- `validate` (lines 1821-1864). The required names are a Python set: the order of its messages is not determined, here it
is the one of `refs`. -/
def validate (m : Inputs) : List Msg × Bool :=
  let v := validateLoop m.items
  let e := validateEnv m.env v.2.2
  (v.1 ++ e.1, v.2.1 && e.2)

/-- messages about the place of a spill (lines 1666-1706); the text for the end position is the one for the start
position -/
def placeMsgs (s : SpillIn) : List Msg :=
  (if 0 ≤ s.depth then [] else [.aboveSurface s.depth]) ++
  (if !s.startOnMap then [.outsideMap s.name]
   else if s.moving && !s.endOnMap then [.outsideMap s.name] else []) ++
  (if s.startOnLand then [.onLand s.name]
   else if s.moving && s.endOnLand then [.onLand s.name] else [])

/-- is the spill released within the interval (lines 1710-1715)? -/
def inTime (m : Inputs) (s : SpillIn) : Bool :=
  if m.backward then decide (m.start + m.duration < s.release) else decide (s.release < m.start + m.duration)

/-- messages about the time of release and whether they make the model invalid (lines 1717-1733) -/
def timeMsgs (m : Inputs) (s : SpillIn) : List Msg × Bool :=
  if (s.release > m.start ∧ m.step > 0) ∨ (s.release < m.start ∧ m.step < 0) then ([.releasedLater s.name], true)
  else if (s.release < m.start ∧ m.step > 0) ∨ (s.release > m.start ∧ m.step < 0) then
    ([.releasedBefore s.name s.release m.start], false)
  else ([], true)

/-- the checks of the oil (lines 1743-1768) -/
def oilMsgs (s : SpillIn) : Except Err (List Msg) :=
  if s.weatherable then
    match s.water with
    | none => .ok []
    | some (temp, rhoWater, rhoOil) =>
      if rhoWater < rhoOil then .error .sinker
      else .ok (if temp < s.pour then [.pourPoint temp s.pour] else [])
  else .ok []

/-- the checks of one spill that is on -/
def spillCheck (m : Inputs) (s : SpillIn) : Except Err (List Msg × Bool) :=
  if s.release ≠ s.endRelease ∧ m.step < 0 then .error .continuousBackwards
  else match oilMsgs s with
    | .error e => .error e
    | .ok o => .ok (placeMsgs s ++ (timeMsgs m s).1 ++ o, (timeMsgs m s).2)

/-- the loop over the spills (lines 1660-1768): messages and validity -/
def spillLoop (m : Inputs) : List SpillIn → Except Err (List Msg × Bool)
  | [] => .ok ([], true)
  | s :: ss =>
    if s.on then
      match spillCheck m s with
      | .error e => .error e
      | .ok r =>
        match spillLoop m ss with
        | .error e => .error e
        | .ok r' => .ok (r.1 ++ r'.1, r.2 && r'.2)
    else spillLoop m ss

/-- the message for spills that are all too late (lines 1770-1783): the wording depends on the number of all spills -/
def lateMsgs (m : Inputs) : List Msg :=
  if (m.spills.any (·.on)) && !(m.spills.any (fun s => s.on && inTime m s)) then
    (if 1 < m.spills.length then [.allTooLate] else [.oneTooLate])
  else []

/-- a mover and the map do not overlap (lines 1796-1797) -/
def apart (m : Inputs) (v : MoverIn) : Bool :=
  decide (v.east < m.west) || decide (v.west > m.east) || decide (v.north < m.south) || decide (v.south > m.north)

/-- messages about movers that are apart from the map (lines 1788-1804) -/
def moverMsgs (m : Inputs) : List Msg :=
  (m.movers.filter (fun v => v.on && apart m v)).map (fun v => .apart v.name)

/-- `isWeatherable` (line 1744) -/
def anyWeatherable (m : Inputs) : Bool := m.spills.any (fun s => s.on && s.weatherable)

/-- the last checks (lines 1806-1827); the second test of the duration repeats the first one and is never reached -/
def backwardCheck (m : Inputs) : Option Err :=
  if m.step < 0 then
    if m.duration > 0 then some .signs
    else if m.weathering && anyWeatherable m then some .weatheringBackwards
    else none
  else none

/-- `check_inputs` (lines 1640-1819) -/
def checkInputs (m : Inputs) : Except Err (List Msg × Bool) :=
  match spillLoop m m.spills with
  | .error e => .error e
  | .ok r =>
    match backwardCheck m with
    | some e => .error e
    | none =>
      .ok ((validate m).1 ++ (if m.spills.isEmpty then [.noSpills] else []) ++ r.1 ++ lateMsgs m ++ moverMsgs m,
        (validate m).2 && r.2)

/-- the beginning of the first `step` (lines 1171-1182) after `setup_model_run`: the messages, or the exception -/
def firstStep (m : Inputs) : Except Err (List Msg) :=
  match checkInputs m with
  | .error e => .error e
  | .ok (msgs, true) => .ok msgs
  | .ok (msgs, false) => .error (.invalid msgs)

/-- `num_time_steps` (lines 662-671) -/
def numSteps (m : Inputs) : Int := 1 + m.duration.fdiv m.step

end Verif.Run.Check
