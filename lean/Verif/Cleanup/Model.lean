import Mathlib.Data.Rat.Floor
/-
Model of the response operations (skimming, burning, chemical dispersion) and
of manual beaching.

Source: /repo/py_gnome/gnome/weatherers/cleanup.py and manual_beaching.py.

Simplifications: numbers are exact rationals; a view of the elements with a
fate flag is read from and written back to the elements themselves (the
aliasing of views is the subject of Verif/Fate); one substance; conversion of
the user's units to kg is multiplication by one factor (RemoveMass._get_mass,
cleanup.py 38-50: linear in the amount for mass and for volume units).
-/
namespace Verif.Cleanup

/-! ### active duration within a step -/

/-- An operation's active range. -/
structure Range where
  start : ℚ
  stop : ℚ

/-- Whether it is active in the step (cleanup.py 83-87; `on` is true). -/
def active (r : Range) (t dt : ℚ) : Bool := decide (t + dt > r.start ∧ r.stop > t)

/-- `_timestep` as set for an active step (cleanup.py 52-73). -/
def timestep (r : Range) (t dt : ℚ) : ℚ :=
  let ts := dt
  let ts := if t < r.start then dt - (r.start - t) else ts
  let ts := if r.stop < t + dt then r.stop - t else ts
  ts

/-- Duration for which the operation works in one step. -/
def worked (r : Range) (t dt : ℚ) : ℚ := if active r t dt then timestep r t dt else 0

/-- Total over `n` consecutive model steps from `t0`. -/
def workedTotal (r : Range) (t0 dt : ℚ) : Nat → ℚ
  | 0 => 0
  | n + 1 => workedTotal r t0 dt n + worked r (t0 + n * dt) dt

/-! ### elements -/

/-- An element: fate flags, mass, water fraction, component masses. -/
structure El where
  fate : Nat
  mass : ℚ
  fw : ℚ
  comps : List ℚ
  deriving DecidableEq

/-- Bit flags (basic_types.py 89-100). -/
def surfaceWeather : Nat := 2
def skimFlag : Nat := 8
def burnFlag : Nat := 16
def disperseFlag : Nat := 32

/-- Elements of a view: `fate_status & flag == flag` and positive mass
(spill_container.py 42-53). -/
def sel (flag : Nat) (e : El) : Bool := (e.fate &&& flag == flag) && decide (0 < e.mass)

/-! ### marking -/

/-- Mass of oil, or of the oil/water mixture (cleanup.py 172-177). -/
def curr (mix : Bool) (e : El) : ℚ := if mix then e.mass / (1 - e.fw) else e.mass

/-- `np.cumsum`, continuing from `acc`. -/
def cumsum (acc : ℚ) : List ℚ → List ℚ
  | [] => []
  | x :: xs => (acc + x) :: cumsum (acc + x) xs

/-- Give the first `n` available elements the new fate (view[:n] = new, written
back to the container). -/
def relabel (new : Nat) : Nat → List El → List El
  | _, [] => []
  | n, e :: es =>
    if sel surfaceWeather e then
      match n with
      | 0 => e :: relabel new 0 es
      | n + 1 => { e with fate := new } :: relabel new n es
    else e :: relabel new n es

/-- `_update_LE_status_codes` (cleanup.py 133-199); `none`: IndexError. -/
def mark (mix : Bool) (new : Nat) (target : ℚ) (es : List El) : Option (List El) :=
  let cm := (es.filter (sel surfaceWeather)).map (curr mix)
  if target ≥ cm.sum then some (relabel new cm.length es)
  else
    match (cumsum 0 cm).findIdx? (fun s => decide (s ≥ target)) with
    | none => none
    | some ix => some (relabel new (ix + 1) es)

/-- `Skimmer.prepare_for_model_step` of an active step (cleanup.py 305-331):
marks when no element has a fate equal to `skim`. -/
def prepareSkim (target : ℚ) (es : List El) : Option (List El) :=
  if es.countP (fun e => e.fate == skimFlag) = 0 then
    mark true (skimFlag ||| surfaceWeather) target es
  else some es

/-- `Burn.prepare_for_model_step` (cleanup.py 597-610), as far as marking. -/
def prepareBurn (target : ℚ) (es : List El) : Option (List El) :=
  if es.countP (fun e => e.fate == burnFlag) = 0 then mark true burnFlag target es
  else some es

/-- `ChemicalDispersion.prepare_for_model_step` (cleanup.py 819-837), as far as
marking. -/
def prepareDisperse (target : ℚ) (es : List El) : Option (List El) :=
  if es.countP (fun e => e.fate == disperseFlag) = 0 then mark false disperseFlag target es
  else some es

/-! ### removal -/

/-- Masses of a view. -/
def viewMass (flag : Nat) (es : List El) : ℚ := ((es.filter (sel flag)).map El.mass).sum

/-- `_avg_frac_oil` (cleanup.py 201-217). -/
def avgFracOil (flag : Nat) (es : List El) : ℚ :=
  let v := es.filter (sel flag)
  if 0 < (v.map El.mass).sum then
    1 - (v.map (fun e => e.mass * e.fw)).sum / (v.map El.mass).sum
  else 1 - 0

/-- `mass_components = (1 - frac) * mass_components; mass = sum` for the view
(cleanup.py 371-373, 716-718, 874-876; manual_beaching.py 283-285). -/
def scale (frac : ℚ) (e : El) : El :=
  let c := e.comps.map (fun x => (1 - frac) * x)
  { e with comps := c, mass := c.sum }

def scaleView (flag : Nat) (frac : ℚ) (es : List El) : List El :=
  es.map (fun e => if sel flag e then scale frac e else e)

/-- Elements after a removal and the amount added to the mass balance. -/
structure Out where
  es : List El
  added : ℚ

/-- `Skimmer.weather_elements` (cleanup.py 343-379). `rate` in user's units per
second, `kg` the conversion to kg. -/
def skim (rate kg eff ts : ℚ) (es : List El) : Out :=
  if (es.filter (sel skimFlag)).length = 0 then ⟨es, 0⟩
  else
    let rm := kg * (rate * avgFracOil skimFlag es * ts) * eff
    let total := viewMass skimFlag es
    let frac := min (rm / total) 1
    let rm := frac * total
    ⟨scaleView skimFlag frac es, rm⟩

/-- `Burn.weather_elements` (cleanup.py 684-729): `volRate` the oil volume burn
rate, `rho` the standard density. -/
def burn (volRate rho eff ts : ℚ) (es : List El) : Out :=
  if (es.filter (sel burnFlag)).length = 0 then ⟨es, 0⟩
  else
    let vol := volRate * eff * ts
    let total := viewMass burnFlag es
    let rm := rho * vol
    let rm := if rm > total then total else rm
    let frac := rm / total
    ⟨scaleView burnFlag frac es, rm⟩

/-- `ChemicalDispersion.weather_elements` (cleanup.py 855-883). -/
def disperse (rate ts : ℚ) (es : List El) : Out :=
  if (es.filter (sel disperseFlag)).length = 0 then ⟨es, 0⟩
  else
    let rm := rate * ts
    let total := viewMass disperseFlag es
    let frac := min (rm / total) 1
    let rm := frac * total
    ⟨scaleView disperseFlag frac es, rm⟩

/-- `Beaching.weather_elements` (manual_beaching.py 264-291), given the mass
to remove. The view is the default one, `surface_weather`. -/
def beach (rm : ℚ) (es : List El) : Out :=
  if (es.filter (sel surfaceWeather)).length = 0 then ⟨es, 0⟩
  else
    let total := viewMass surfaceWeather es
    let frac := rm / total
    if frac > 1 then ⟨scaleView surfaceWeather 1 es, total⟩
    else ⟨scaleView surfaceWeather frac es, rm⟩

/-- One weathering pass of a step with `n` sub-steps: `weather_elements` is
called once per sub-step, and each time uses the duration that was set once for
the whole step (model.py 1066-1074; cleanup.py 89, 356). -/
def skimStep (rate kg eff ts : ℚ) (es : List El) : Nat → Out
  | 0 => ⟨es, 0⟩
  | n + 1 =>
    let o := skimStep rate kg eff ts es n
    let o' := skim rate kg eff ts o.es
    ⟨o'.es, o.added + o'.added⟩

/-! ### efficiency -/

/-- A float attribute that may be unset, or NaN. -/
inductive Eff where
  | none
  | nan
  | val (x : ℚ)
  deriving DecidableEq

/-- The `efficiency` setter (cleanup.py 117-131): an invalid number keeps the
old value, converted by `astype('float')`, which turns `None` into NaN. -/
def setEff (old new : Eff) : Eff :=
  match new with
  | .none => .none
  | .nan => match old with | .none => .nan | o => o
  | .val x => if 0 ≤ x ∧ x ≤ 1 then .val x else match old with | .none => .nan | o => o

/-- The constructor (cleanup.py 97-101). -/
def initEff (e : Eff) : Eff := setEff .none e

/-- The mass that `ChemicalDispersion.prepare_for_model_step` computes
(cleanup.py 831): `None` cannot be multiplied, TypeError. -/
def sprayMass (mass frac : ℚ) : Eff → Option Eff
  | .none => none
  | .nan => some .nan
  | .val x => some (.val (mass * frac * x))

/-! ### manual beaching -/

/-- A beaching series: the active start, then the observation times with the
observed masses (manual_beaching.py 114-130, 182-204). -/
structure Series where
  start : ℚ
  obs : List (ℚ × ℚ)

/-- `_timeseries['time']`: the active start prepended. -/
def Series.times (s : Series) : List ℚ := s.start :: s.obs.map Prod.fst

/-- `_rate = dm / dt` (manual_beaching.py 182-219). -/
def rates : ℚ → List (ℚ × ℚ) → List ℚ
  | _, [] => []
  | t, (t', m) :: rest => m / (t' - t) :: rates t' rest

/-- `np.where(model_time >= times)[0][-1]` (manual_beaching.py 227-228). -/
def lastIdx (t : ℚ) (times : List ℚ) : Option Nat :=
  ((List.range times.length).filter (fun (i : Nat) => decide (t ≥ times.getD i 0))).getLast?

/-- The `while time_remain > 0` loop (manual_beaching.py 247-262), fuel one per
iteration; `none`: IndexError, or not finished. -/
def rmLoop (times rate : List ℚ) : Nat → Nat → ℚ → ℚ → ℚ → Option ℚ
  | 0, _, _, _, _ => none
  | f + 1, i, startT, remain, rm =>
    if remain > 0 then
      match times[i + 1]?, rate[i]? with
      | some t', some r =>
        let dt := min remain (t' - startT)
        rmLoop times rate f (i + 1) t' (remain - dt) (rm + r * dt)
      | _, _ => none
    else some rm

/-- `_remove_mass` (manual_beaching.py 167-262). -/
def removeMass (s : Series) (ts t : ℚ) : Option ℚ :=
  match lastIdx t s.times with
  | none => none
  | some i => rmLoop s.times (rates s.start s.obs) (s.obs.length + 1) i t ts 0

/-- The active range: from the active start to the last observation
(manual_beaching.py 129-130). -/
def Series.range (s : Series) : Range :=
  ⟨s.start, (s.times.getLast?).getD s.start⟩

/-- The mass asked for in the model step beginning at `t`. -/
def beachStep (s : Series) (t dt : ℚ) : Option ℚ :=
  if active s.range t dt then removeMass s (timestep s.range t dt) t else some 0

/-- Total asked for over `n` steps from `t0`. -/
def beachTotal (s : Series) (t0 dt : ℚ) : Nat → Option ℚ
  | 0 => some 0
  | n + 1 =>
    match beachTotal s t0 dt n, beachStep s (t0 + n * dt) dt with
    | some a, some b => some (a + b)
    | _, _ => none

end Verif.Cleanup
