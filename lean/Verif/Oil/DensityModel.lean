import Mathlib.Data.Rat.Floor
import Mathlib.Data.List.Sort
/-!
# Model of the density of an oil at a temperature

Source: `/repo/py_gnome/gnome/spills/gnome_oil.py` lines 35-58 (`density_at_temp`, `vol_expansion_coeff`) and 400-612
(`bounding_temperatures`, `get_densities`, `GnomeOil.density_at_temp`, `_get_reference_densities`,
`_vol_expansion_coeff`). Floats are rationals. The weathered fraction of a measurement is compared with zero exactly
(the further test with `np.isclose`, line 512, is on the value 0.0 that `get_densities` has put there).
-/
namespace Verif.Oil

/-- one measurement of the density: `densities[i]`, `density_ref_temps[i]`, `density_weathering[i]` -/
structure Meas where
  rho : ℚ
  temp : ℚ
  weath : ℚ
  deriving DecidableEq, Repr

/-- the parts of a `GnomeOil` that matter here -/
structure DOil where
  meas : List Meas
  pour : ℚ
  api : ℚ

/-- `density_at_temp` lines 35-45; `x / 0` is not a number in the code, 0 here (never reached in the theorems) -/
def atTemp (ref tref T k : ℚ) : ℚ := ref / (1 - k * (tref - T))

/-- `vol_expansion_coeff` lines 48-58 -/
def volExp (r0 t0 r1 t1 : ℚ) : ℚ := if t0 = t1 then 0 else (r0 - r1) / (r0 * (t1 - t0))

/-- `get_densities` lines 444-472: fresh oil only, sorted (a stable sort) by temperature -/
def fresh (ms : List Meas) : List Meas :=
  List.insertionSort (fun a b => a.temp ≤ b.temp) (ms.filter (fun m => m.weath = 0))

/-- lines 425-427: a list of one becomes a list of twice the same -/
def dbl (l : List Meas) : List Meas := if l.length ≤ 1 then l ++ l else l

/-- line 434 `np.argmin(geq_temps)`: the first measurement hotter than `T`, 0 if there is none -/
def argmin (l : List Meas) (T : ℚ) : Nat :=
  let i := l.findIdx (fun m => decide (¬ T ≥ m.temp))
  if i = l.length then 0 else i

/-- lines 434-436 -/
def idx0 (l : List Meas) (T : ℚ) : Nat :=
  if l.all (fun m => decide (T ≥ m.temp)) then l.length - 1
  else if argmin l T > 0 then argmin l T - 1 else argmin l T

/-- lines 438-439 -/
def idx1 (l : List Meas) (T : ℚ) : Nat :=
  if l.all (fun m => decide (¬ T ≥ m.temp)) then 0 else min (idx0 l T + 1) (l.length - 1)

/-- `bounding_temperatures` lines 400-442 for one temperature; with no measurement numpy raises -/
def bounding (l : List Meas) (T : ℚ) : Option (Meas × Meas) :=
  let d := dbl l
  match d[idx0 d T]?, d[idx1 d T]? with
  | some a, some b => some (a, b)
  | _, _ => none

/-- `_get_reference_densities` lines 550-582 (the branch for sequences, which is always the one taken) -/
def refDensity (b : Meas × Meas) (T : ℚ) : ℚ × ℚ :=
  if T > b.1.temp ∧ T > b.2.temp then (b.2.rho, b.2.temp) else (b.1.rho, b.1.temp)

/-- `_vol_expansion_coeff` lines 584-612 -/
def coeff (api : ℚ) (b : Meas × Meas) (T : ℚ) : ℚ :=
  if (T > b.1.temp ∧ T > b.2.temp) ∨ (T < b.1.temp ∧ T < b.2.temp) then
    (if api > 30 then 0.0009 else 0.0008)
  else volExp b.1.rho b.1.temp b.2.rho b.2.temp

/-- lines 514-517 -/
def minTemp (o : DOil) : ℚ := ((fresh o.meas).map (·.temp)).foldl min o.pour

/-- lines 526-531 for a temperature that is already clipped. `bounding_temperatures` is called twice on the same list,
which the first call may have doubled (line 427 changes the list in place). -/
def rhoAt (o : DOil) (T : ℚ) : Option ℚ :=
  match bounding (fresh o.meas) T with
  | none => none
  | some b =>
    let l := if (fresh o.meas).length ≤ 1 then dbl (fresh o.meas) else fresh o.meas
    match bounding l T with
    | none => none
    | some c => some (atTemp (refDensity b T).1 (refDensity b T).2 T (coeff o.api c T))

/-- `GnomeOil.density_at_temp` lines 474-538 for one number; `none` is an exception -/
def densityAt (o : DOil) (T : ℚ) : Option ℚ := rhoAt o (if T < minTemp o then minTemp o else T)

/-- the same for an array of temperatures, lines 519-522, 535-536: also clipped above, at 1000 K -/
def densitiesAt (o : DOil) (Ts : List ℚ) : List (Option ℚ) :=
  Ts.map (fun T => rhoAt o (min (max T (minTemp o)) 1000))

/-- `standard_density` lines 540-548 -/
def standardDensity (o : DOil) : Option ℚ := densityAt o 288.15

end Verif.Oil
