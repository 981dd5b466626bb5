import Mathlib.Data.Rat.Floor
import Mathlib.Algebra.Order.Field.Rat
/-!
# Model of colour maps

Source: `/repo/py_gnome/gnome/utilities/colormaps.py` 49-95 (`ColorMap.__init__`, `ColorMap.get_colors`).

Simplifications: numbers are rational; a number that is turned to `uint8` without a check is cut off towards zero and taken modulo 256, as numpy does with arrays of integers (and, on common machines, of floats; with recent numpy a list of integers outside 0-255 raises an OverflowError instead).
-/
namespace Verif.Canvas.Cmap

/-- `round()`: to nearest, to even in the middle -/
def near (q : ℚ) : Int :=
  if q - ⌊q⌋ < 1 / 2 then ⌊q⌋ else if 1 / 2 < q - ⌊q⌋ then ⌊q⌋ + 1 else if ⌊q⌋ % 2 = 0 then ⌊q⌋ else ⌊q⌋ + 1

/-- `astype(uint8)` -/
def toByte (q : ℚ) : Int := (if 0 ≤ q then ⌊q⌋ else ⌈q⌉) % 256

/-- `clip(min=0, max=255)` -/
def clip (q : ℚ) : ℚ := min (max q 0) 255

/-- `__init__` 64-69: the range, or 0-255 -/
def ends (given : Option (ℚ × ℚ)) : ℚ × ℚ := given.getD (0, 255)

/-- `get_colors` 71-86: the number of the colour -/
def index (r : ℚ × ℚ) (v : ℚ) : Int :=
  let high := if r.2 = r.1 then r.1 + 1 else r.2
  if r.1 = 0 ∧ high = 255 then toByte v else toByte (near (clip ((v - r.1) / (high - r.1) * 255)))

/-- `get_colors(values)` 88-95 with `out_type='int'` -/
def colors {C : Type} (table : Int → C) (given : Option (ℚ × ℚ)) (vs : List ℚ) : List C := vs.map fun v => table (index (ends given) v)

end Verif.Canvas.Cmap
