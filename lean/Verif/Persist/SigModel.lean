import Mathlib.Data.Int.Log
import Mathlib.Data.Rat.Floor
/-!
# Model of rounding to significant figures in save files

Source: `/repo/py_gnome/gnome/utilities/__init__.py` `_round_sf_float` (169-189), `round_sf_array` (198-218);
`/repo/py_gnome/gnome/persist/extend_colander.py` `NumpyArraySchema` (253-292).

Numbers are rationals. `"{x:.8}".format(x=x)` writes the decimal with 8 significant figures that is nearest to the exact value
of the double, ties to an even last figure; `float(…)` of that text is taken to be exact, though it is the nearest double. NaN and
infinities, which are kept, are left out. An array is the list of its numbers in order.
-/
namespace Verif.Persist.Sig

/-- nearest integer, ties to even -/
def roundEven (q : ℚ) : ℤ :=
  let f := ⌊q⌋
  let r := q - f
  if r < 1 / 2 then f else if 1 / 2 < r then f + 1 else if f % 2 = 0 then f else f + 1

/-- the weight of the last of `p` significant figures of `x` -/
def unit (p : ℕ) (x : ℚ) : ℚ := (10 : ℚ) ^ (Int.log 10 |x| + 1 - p)

/-- `_round_sf_float` -/
def roundSf (p : ℕ) (x : ℚ) : ℚ := if x = 0 then 0 else roundEven (x / unit p x) * unit p x

/-- `NumpyArraySchema.serialize` with the default precision (273, 284) -/
def serialize (xs : List ℚ) : List ℚ := xs.map (roundSf 8)

/-- `NumpyArraySchema.deserialize` -/
def deserialize (xs : List ℚ) : List ℚ := xs

end Verif.Persist.Sig
