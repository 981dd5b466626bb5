import Mathlib.Data.Rat.Floor
import Mathlib.Algebra.Order.Field.Rat
import Mathlib.Tactic.Linarith
import Mathlib.Tactic.Ring
/-
Images of ice: colours of the cells, the box of the image, and the text of the
image.

Source (under /repo/py_gnome/gnome): outputters/image.py 97-124
(`set_gradient_colors`), 126-166 (`add_gradient_to_canvas`), 168-181
(`lookup_gradient_color`), 228-292 (`render_images`);
movers/c_current_movers.py 855-903 (`get_grid_bounding_box`).

Simplifications: exact arithmetic; a gradient is the number of its colours with
its scale; one component of the colours is looked at; the bytes of an image in
base 64 are a list of characters.
-/
namespace Verif.Output.IceImage

/-- An entry of `gradient_lu`: `(scale, color_names)`. -/
structure Gradient where
  low : ℚ
  high : ℚ
  colours : Nat

/-- `q_step_range` (image.py 174-175). -/
def stepRange (g : Gradient) : ℚ := (g.high - g.low) / g.colours

/-- `lookup_gradient_color` for one value (177-180): the number of the colour. -/
def lookup (g : Gradient) (v : ℚ) : Int := min (max ⌊v / stepRange g⌋ 0) ((g.colours : Int) - 1)

/-- `np.interp(x, [0, 1, ..], range)` at `x ≥ 0`. -/
def interp : List ℚ → ℚ → ℚ
  | [], _ => 0
  | [a], _ => a
  | a :: b :: rest, x => if x ≤ 1 then a + x * (b - a) else interp (b :: rest) (x - 1)

/-- Entry `i` of `np.linspace(0, m, num=n)`. -/
def linspace (m : ℚ) (n i : Nat) : ℚ := i * (m / (n - 1))

/-- One component of colour `i` of the `n` of a gradient (141-163). -/
def gradColour (range : List ℚ) (n i : Nat) : ℚ := interp range (linspace ((range.length - 1 : Nat) : ℚ) n i)

/-- A box `((left, bottom), (right, top))`. -/
structure Box where
  left : ℚ
  bottom : ℚ
  right : ℚ
  top : ℚ
deriving DecidableEq

/-- The least and greatest of the points of a grid. -/
def extent (p : ℚ × ℚ) (ps : List (ℚ × ℚ)) : Box :=
  ⟨ps.foldl (fun m q => min m q.1) p.1, ps.foldl (fun m q => min m q.2) p.2,
   ps.foldl (fun m q => max m q.1) p.1, ps.foldl (fun m q => max m q.2) p.2⟩

/-- `get_grid_bounding_box` (c_current_movers.py 873-903); a grid has a first point. -/
def boundingBox (g : (ℚ × ℚ) × List (ℚ × ℚ)) (merge : Option Box) : Box :=
  let b := extent g.1 g.2
  match merge with
  | none => b
  | some m =>
    ⟨if b.left > m.left then m.left else b.left, if b.bottom > m.bottom then m.bottom else b.bottom,
     if b.right < m.right then m.right else b.right, if b.top < m.top then m.top else b.top⟩

/-- The loop over the movers (image.py 239-247). -/
def boxOf : List ((ℚ × ℚ) × List (ℚ × ℚ)) → Option Box → Option Box
  | [], b => b
  | g :: gs, b => boxOf gs (some (boundingBox g b))

/-- `"data:image/png;base64,{}".format(b64encode(..))` (290-292): the text of bytes is
`b'..'`. -/
def imageText (b64 : List Char) : List Char :=
  "data:image/png;base64,".toList ++ ['b', '\''] ++ b64 ++ ['\'']

end Verif.Output.IceImage
