import Mathlib.Data.Rat.Defs
import Mathlib.Data.List.Dedup

/-!
# The kinds of values in a save file

Sources: `py_gnome/gnome/persist/extend_colander.py` `LocalDateTime` (24-58), `NumpyFixedLen` (77-97), `DatetimeValue2dArray` (126-157),
`DatetimeValue1dArray` (160-184), `FilenameSchema` (222-246); `py_gnome/gnome/persist/validators.py` (20-66); their use in
`py_gnome/gnome/environment/wind.py` (41-81), `running_average.py` (31-60), `weatherers/manual_beaching.py` (28-55), `movers/simple_mover.py` (30-37),
`persist/base_schema.py` (954-961); `py_gnome/gnome/basic_types.py` (64-71).

Trusted: colander (types, `Range`, `Tuple`, `Sequence`), numpy, Python's ISO format. Simplifications: a time as text is what Python's parser makes of it; a
number is exact, but there are NaN and the infinities.
-/
namespace Verif.Persist.Types

/-- A number as Python's `float` has it. -/
inductive F | nan | ninf | pinf | fin (q : ℚ)
  deriving DecidableEq

/-- `<` of Python's `float`. -/
def F.lt : F → F → Bool
  | .nan, _ => false
  | _, .nan => false
  | .ninf, .ninf => false
  | .ninf, _ => true
  | _, .ninf => false
  | .pinf, _ => false
  | _, .pinf => true
  | .fin a, .fin b => a < b

/-- colander's `Range(min, max)` with one or both ends: refused when `value < min` or `value > max`. -/
def inRange (lo : Option ℚ) (hi : Option ℚ) (x : F) : Bool := !(lo.any fun m => x.lt (.fin m)) && !(hi.any fun m => (F.fin m).lt x)

/-- A time in a model: without a zone, in microseconds; with a zone, its wall clock and the offset from UTC; or no end. -/
inductive Time | naive (us : Int) | aware (us offset : Int) | inf | minusInf
  deriving DecidableEq

/-- A time as text. -/
inductive Text | naive (us : Int) | aware (us offset : Int) | inf | minusInf | other
  deriving DecidableEq

/-- `LocalDateTime.serialize` (`extend_colander.py:36-49`). -/
def saveTime : Time → Text
  | .naive t => .naive t
  | .aware t _ => .naive t
  | .inf => .inf
  | .minusInf => .minusInf

/-- `LocalDateTime.deserialize` (`extend_colander.py:51-58`). -/
def loadTime : Text → Option Time
  | .naive t => some (.naive t)
  | .aware t _ => some (.naive t)
  | .inf => some .inf
  | .minusInf => some .minusInf
  | .other => none

/-- `convertible_to_seconds` (`validators.py:25-33`); `mk` says for which times `time.mktime` works. -/
def convertible (mk : Int → Bool) : Time → Bool
  | .inf => true
  | .minusInf => true
  | .naive t => mk t
  | .aware t _ => mk t

/-- Whole seconds of a time (`datetime64[s]`, `basic_types.py:64-71`); there is none for the times without end. -/
def seconds : Time → Option Int
  | .naive t => some (t / 1000000)
  | .aware t _ => some (t / 1000000)
  | .inf => none
  | .minusInf => none

/-- An entry of a series in a file: a list of values, two for a time and a value. -/
inductive Entry (V : Type) | pair (t : Text) (v : V) | other

/-- One entry (`Tuple.deserialize` with the validators of its parts; `wind.py:41-66`). -/
def loadEntry {V : Type} (mk : Int → Bool) (ok : V → Bool) : Entry V → Option (Int × V)
  | .other => none
  | .pair t v => (loadTime t).bind fun t => if convertible mk t && ok v then (seconds t).map fun s => (s, v) else none

/-- `np.unique(values['time'])` has as many entries (`validators.py:36-52`). -/
def noDuplicates (ts : List Int) : Bool := ts.dedup.length = ts.length

/-- `values['time'][np.argsort(values['time'])] == values['time']` (`validators.py:55-66`). -/
def ascending (ts : List Int) : Bool := ts.mergeSort (fun a b => decide (a ≤ b)) = ts

/-- `DatetimeValue2dArray.deserialize` and the validator of the series (`extend_colander.py:148-157`, `wind.py:75-80`). -/
def loadSeries {V : Type} (mk : Int → Bool) (ok : V → Bool) (es : List (Entry V)) : Option (List (Int × V)) :=
  (es.mapM (loadEntry mk ok)).bind fun s => if noDuplicates (s.map Prod.fst) && ascending (s.map Prod.fst) then some s else none

/-- `DatetimeValue2dArray.serialize` (`extend_colander.py:134-146`). -/
def saveSeries {V : Type} (s : List (Int × V)) : List (Entry V) := s.map fun p => .pair (saveTime (.naive (p.1 * 1000000))) p.2

/-- The value of a wind: speed and direction (`wind.py:41-56`). -/
def windOk (v : F × F) : Bool := inRange (some 0) none v.1 && inRange (some 0) (some 360) v.2

/-- The value of observed beaching (`manual_beaching.py:35-38`). -/
def amountOk (v : F) : Bool := inRange (some 0) none v

/-- `NumpyFixedLen.serialize` with `n` parts (`extend_colander.py:83-90`; `Tuple` asks for that length). -/
def saveFixed (n : Nat) (v : List F) : Option (List F) := if v.length = n then some v else none

/-- `NumpyFixedLen.deserialize` (`extend_colander.py:92-96`): `np.array(cstruct)` of a list of numbers, without the check of `Tuple`. -/
def loadFixed (_n : Nat) (v : List F) : Option (List F) := some v

/-- A file name, or several. -/
inductive Files | one (f : String) | many (fs : List String)
  deriving DecidableEq

/-- The names (`Sequence(accept_scalar=True)`, `extend_colander.py:223-225`). -/
def Files.list : Files → List String
  | .one f => [f]
  | .many l => l

/-- A single name stands for itself (`extend_colander.py:234-236,243-246`). -/
def single : List String → Files
  | [a] => .one a
  | l => .many l

/-- `FilenameSchema.serialize` (`extend_colander.py:227-236`); `base` is the last part of a path. -/
def saveFiles (base : String → String) (raw : Bool) (f : Files) : Files := single (if raw then f.list else f.list.map base)

/-- `FilenameSchema.deserialize` (`extend_colander.py:238-246`). -/
def loadFiles (f : Files) : Files := single f.list

end Verif.Persist.Types
