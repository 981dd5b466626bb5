import Mathlib.Data.Rat.Defs
/-!
# Model of `Water`

Source: `/repo/py_gnome/gnome/environment/water.py`. Numbers are rationals. `nucos` is a parameter: the valid units of each
property and the conversions (`Nuc`); so is `gsw.rho`. Keys of the dict of units that are no properties of water are kept by the
code and never read; they are left out. The cache of `_get_density` (324-340) remembers a function of its arguments and is left out.
-/
namespace Verif.Water

/-- the properties with units, `_units_type` 172-180 -/
inductive Attr
  | temperature | salinity | sediment | waveHeight | fetch | viscosity | density
deriving DecidableEq, Repr

/-- `nucos` and `gsw` -/
structure Nuc where
  valid : Attr → List String
  conv : Attr → String → String → ℚ → ℚ
  rho : ℚ → ℚ → ℚ

/-- `_gnome_units` 189-197 -/
def si : Attr → String
  | .temperature => "K" | .salinity => "psu" | .sediment => "kg/m^3" | .waveHeight => "m" | .fetch => "m"
  | .density => "kg/m^3" | .viscosity => "m^2/s"

/-- the numbers held (there is none for the density, a property) and `_units` -/
structure Wat where
  temperature : ℚ
  salinity : ℚ
  sediment : ℚ
  waveHeight : Option ℚ
  fetch : Option ℚ
  viscosity : ℚ
  units : Attr → String

inductive Err
  | invalidUnit | noSetter | notGiven
deriving DecidableEq, Repr

/-- `density` 342-351 with `_get_density` -/
def density (n : Nuc) (w : Wat) : ℚ := n.rho w.salinity (n.conv .temperature (w.units .temperature) "C" w.temperature)

/-- `getattr(self, attr)` -/
def value (n : Nuc) (w : Wat) : Attr → Option ℚ
  | .temperature => some w.temperature | .salinity => some w.salinity | .sediment => some w.sediment
  | .waveHeight => w.waveHeight | .fetch => w.fetch | .viscosity => some w.viscosity
  | .density => some (density n w)

/-- the end of `get`, 299-309 -/
def getIn (n : Nuc) (w : Wat) (a : Attr) (u : String) (v : ℚ) : Except Err ℚ :=
  if u = w.units a then .ok v
  else if u ∈ n.valid a then .ok (n.conv a (w.units a) u v)
  else .error .invalidUnit

/-- `get` 278-309 -/
def get (n : Nuc) (w : Wat) (a : Attr) (unit : Option String) : Except Err (Option ℚ) :=
  match value n w a with
  | none => .ok none
  | some v =>
    match unit with
    | none => if si a = w.units a then .ok (some v) else (getIn n w a (si a) v).map some
    | some u => (getIn n w a u v).map some

/-- `setattr(self, attr, value)`; the density has no setter -/
def setValue (w : Wat) (a : Attr) (v : ℚ) : Except Err Wat :=
  match a with
  | .temperature => .ok { w with temperature := v }
  | .salinity => .ok { w with salinity := v }
  | .sediment => .ok { w with sediment := v }
  | .waveHeight => .ok { w with waveHeight := some v }
  | .fetch => .ok { w with fetch := some v }
  | .viscosity => .ok { w with viscosity := v }
  | .density => .error .noSetter

/-- `self.units[attr] = unit` -/
def putUnit (w : Wat) (a : Attr) (u : String) : Wat := { w with units := fun b => if b = a then u else w.units b }

/-- `set` 311-321 -/
def set (n : Nuc) (w : Wat) (a : Attr) (v : ℚ) (u : String) : Except Err Wat :=
  if u ∉ n.valid a then .error .invalidUnit
  else (setValue w a v).map (fun w' => putUnit w' a u)

/-- the setter of `units` 360-376: the water left behind and the exception -/
def setUnits (n : Nuc) (w : Wat) : List (Attr × String) → Wat × Option Err
  | [] => (w, none)
  | (a, u) :: rest => if u ∉ n.valid a then (w, some .invalidUnit) else setUnits n (putUnit w a u) rest

/-- `__init__` 201-247 without the warning -/
def new (n : Nuc) (t s sed : ℚ) (wh f : Option ℚ) (units : Option (List (Attr × String))) : Except Err Wat :=
  let w : Wat := ⟨t, s, sed, wh, f, 1 / 1000000, si⟩
  match units with
  | none => .ok w
  | some us =>
    match setUnits n w us with
    | (w', none) => .ok w'
    | (_, some e) => .error e

/-- `WaterProperty.at` 62-69: `np.zeros((len(points),)) + temp`; `None` cannot be added -/
def at_ {P : Type} (n : Nuc) (w : Wat) (a : Attr) (points : List P) (u : String) : Except Err (List ℚ) :=
  match get n w a (some u) with
  | .error e => .error e
  | .ok none => .error .notGiven
  | .ok (some v) => .ok (points.map (fun _ => 0 + v))

/-- what a user does with a water -/
inductive Op
  | set (a : Attr) (v : ℚ) (u : String)
  | assign (a : Attr) (v : ℚ)
  | units (us : List (Attr × String))

/-- calls that raise leave what the code has done until then -/
def step (n : Nuc) (w : Wat) : Op → Wat
  | .set a v u => match set n w a v u with | .ok w' => w' | .error _ => w
  | .assign a v => match setValue w a v with | .ok w' => w' | .error _ => w
  | .units us => (setUnits n w us).1

def run (n : Nuc) (w : Wat) (ops : List Op) : Wat := ops.foldl (step n) w

end Verif.Water
