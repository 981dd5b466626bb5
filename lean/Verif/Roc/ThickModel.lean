import Mathlib.Algebra.Order.Field.Rat
import Mathlib.Algebra.BigOperators.Group.List.Basic
/-!
# The thickness of the oil that a response works with

Source: `py_gnome/gnome/weatherers/roc.py` `Response._get_thickness` (77-86), used by `Burn._collect` (1840), `Skim._collect` (2234) and
`Disperse.dosage_from_thickness` (819-827).

Simplifications: numbers are rational; `rho` is `substance.density_at_temp()`. A mean water content of exactly 1 gives infinity in numpy and 0 here; the
statements leave it out. Units: 1 inch = 0.0254 m, 1 gal/acre = 3.785411784e-3 m³ / 4046.8564224 m² (the library of units has its own rounded factors).
-/
namespace Verif.Roc.Thick

/-- An element: `mass`, `frac_water`, `area`. -/
structure El where
  mass : ℚ
  water : ℚ
  area : ℚ
deriving DecidableEq

/-- `ndarray.mean()` of an array that is not empty -/
def mean (l : List ℚ) : ℚ := l.sum / l.length

def inch : ℚ := 254 / 10000

def galPerAcre : ℚ := (3785411784 / 1000000000000) / (40468564224 / 10000000)

/-- `_get_thickness` 77-86, in inches; `.any() > 0` is true if some area is not zero -/
def thickness (rho : ℚ) (els : List El) : ℚ :=
  (if els.any (fun e => e.area ≠ 0) then
    mean (els.map El.mass) / rho / (1 - mean (els.map El.water)) / mean (els.map El.area)
   else 0) / inch

/-- `dosage_from_thickness` 819-827: `_dosage_m`, and `dosage` in gal/acre by way of microns -/
def dosages (rho ratio : ℚ) (els : List El) : ℚ × ℚ :=
  (thickness rho els * inch / ratio, thickness rho els * inch * 1000000 / 1000000 / galPerAcre / ratio)

end Verif.Roc.Thick
