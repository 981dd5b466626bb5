import Mathlib.Analysis.SpecialFunctions.Complex.Arg
import Mathlib.Tactic.NormNum
import Mathlib.Tactic.Ring
import Mathlib.Tactic.Linarith

/-!
# Asking gridded currents and winds

Sources: `py_gnome/gnome/environment/environment_objects.py` `SteadyUniformCurrent` (51-138),
`GridCurrent.at` (498-558), `GridWind.at` (600-678), `GridWind.transform_result` (680-699),
`IceAwareWind.at` (947-984).

Not in the repository and taken as given: `gridded` (`_get_hash`, `_get_memoed`, `_memoize_result`): results
are kept in a table by the hash of points and time, which is what they are given (519, 527, 555; 631, 637,
675), and may be thrown out of it at any time; hashes of different points and times differ.

Simplifications: exact reals, `arctan2` is the argument of a complex number, `round(…, 15)` is left out;
one point at a time in `transform_result`.
-/

namespace Verif.Fields

/-! ## Remembered results -/

/-- A question: the points and the time (`key`), the unit, whether to extrapolate, and `_mem`. -/
structure Query where
  key : Nat
  units : Option String
  extrap : Bool
  mem : Bool
  deriving DecidableEq, Repr

/-- What a question is about, apart from whether the table is used. -/
def Query.same (p q : Query) : Prop := p.units = q.units ∧ p.extrap = q.extrap

/-- A gridded current or wind: its settings (data, angle, units, time zone) and the table of results. -/
structure Fld (σ ρ : Type) where
  cfg : σ
  memo : List (Nat × ρ)

/-- `at` of `GridCurrent` (517-558) and of `GridWind` up to the change of coordinates (622-676).  `comp` is the
computation below (`super().at` and the angle), `none` when it raises. -/
def ask {σ ρ : Type} (comp : σ → Query → Option ρ) (f : Fld σ ρ) (q : Query) : Option ρ × Fld σ ρ :=
  match q.mem, f.memo.lookup q.key with
  | true, some r => (some r, f)
  | _, _ =>
    match comp f.cfg q with
    | none => (none, f)
    | some r => (some r, if q.mem then { f with memo := (q.key, r) :: f.memo } else f)

/-- What happens to a field: a question, a change of its settings (none of the setters in the repository
touches `_result_memo`), or a result leaving the table. -/
inductive Ev (σ : Type) where
  | ask (q : Query)
  | set (s : σ)
  | drop (key : Nat)

/-- One event, with the answer to a question. -/
def step {σ ρ : Type} (comp : σ → Query → Option ρ) (f : Fld σ ρ) : Ev σ → Option (Option ρ) × Fld σ ρ
  | .ask q => let r := ask comp f q; (some r.1, r.2)
  | .set s => (none, { f with cfg := s })
  | .drop k => (none, { f with memo := f.memo.filter fun e => e.1 != k })

/-- A history. -/
def run {σ ρ : Type} (comp : σ → Query → Option ρ) (f : Fld σ ρ) : List (Ev σ) → Fld σ ρ
  | [] => f
  | e :: es => run comp (step comp f e).2 es

/-! ## Coordinates of winds -/

/-- `transform_result` (680-699) for 'r-theta': speed and `arctan2(v, u)` in degrees. -/
noncomputable def gridPolar (w : ℂ) : ℝ × ℝ := (‖w‖, w.arg * 180 / Real.pi)

/-- `transform_result` for 'r'. -/
noncomputable def gridSpeed (w : ℂ) : ℝ := Real.sqrt (w.re ^ 2 + w.im ^ 2)

/-- `IceAwareWind.at` with 'r-theta' (956-984): the floor `min_val` and the factor for ice are applied to the
columns of the result, here speed and direction.  `f` is `ice_vel_factor` of a concentration from 0.2 to 0.8. -/
noncomputable def icePolar (minVal f : ℝ) (w : ℂ) : ℝ × ℝ :=
  let p := gridPolar w
  ((1 - f) * max minVal p.1, (1 - f) * max minVal p.2)

/-! ## The steady current -/

/-- `SteadyUniformCurrent`: `_speed`, `_direction`, `_u`, `_v`. -/
structure Steady where
  speed : ℝ
  direction : ℝ
  u : ℝ
  v : ℝ

/-- `_set_uv` (90-94). -/
noncomputable def setUV (speed direction : ℝ) : Steady :=
  ⟨speed, direction, speed * Real.sin (direction * Real.pi / 180), speed * Real.cos (direction * Real.pi / 180)⟩

/-- The constructor (64-84): `fac` metres per second in the unit given. -/
noncomputable def mkSteady (speed direction fac : ℝ) : Steady := setUV (fac * speed) direction

/-- The setters (96-112). -/
inductive Set_ where
  | speed (x : ℝ)
  | direction (x : ℝ)

noncomputable def Steady.set (s : Steady) : Set_ → Steady
  | .speed x => setUV x s.direction
  | .direction x => setUV s.speed x

/-- `at` (124-141): the same vector at each of `n` points of 2 or 3 coordinates, whatever unit is asked
for. -/
noncomputable def Steady.at_ (s : Steady) (n dim : Nat) (_units : Option ℝ) : List (List ℝ) :=
  List.replicate n ([s.u, s.v] ++ List.replicate (dim - 2) 0)

end Verif.Fields
