import Verif.Fields.SeriesModel
import Mathlib.Analysis.SpecialFunctions.Trigonometric.Basic
/-!
# Vectors of a gridded property in images

Model of `GridPropVisLayer.draw_to_image` (`/repo/py_gnome/gnome/outputters/renderer.py` 784-858), what `Renderer.add_vec_prop` (461-467) shows on every image.

`gridded.time.Time` as in `Verif.Fields.SeriesModel` (`index_of` the first index whose time is not before the time asked for, `interp_alpha` 0 at and before the first time;
with `extrapolate=True` no time is refused).  A record is the list of the values of the points of the grid, `none` where it is masked.  Simplifications: exact real arithmetic;
the points of the picture are in degrees, before `to_pixel_multipoint`; one mask for both components.
-/
namespace Verif.Canvas.PropVec
open Verif.Fields

/-- a place (longitude, latitude) or a velocity (east, north) -/
abbrev Pt := ℝ × ℝ

/-- an array indexed as Python does: negative numbers count from the end; `none` is `IndexError` -/
def pyAt {α : Type} (l : List α) (i : Int) : Option α :=
  if 0 ≤ i then l[i.toNat]? else if 0 ≤ i + l.length then l[(i + l.length).toNat]? else none

/-- `data_u + t_alphas * (data_u2 - data_u)` (802-803), masked where either is -/
noncomputable def mix (a : ℝ) : Option Pt → Option Pt → Option Pt
  | some p, some q => some (p.1 + a * (q.1 - p.1), p.2 + a * (q.2 - p.2))
  | _, _ => none

/-- The values shown at time `t` (788-806); `none` is an `IndexError`. -/
noncomputable def frame (times : List Int) (recs : List (List (Option Pt))) (t : Int) : Option (List (Option Pt)) :=
  let t0 : Int := (indexOf times t : Int) - 1
  (pyAt recs t0).bind fun r0 =>
    (if 1 < times.length then pyAt recs (t0 + 1) else some r0).map fun r1 =>
      List.zipWith (mix ((alpha times t (indexOf times t) : ℚ) : ℝ)) r0 r1

/-- `8.9992801e-06` (824-825) -/
noncomputable def degree : ℝ := 89992801 / 10 ^ 13

/-- the beginnings of the arrows: `start[data_u.mask] = [0., 0.]` (821-822) -/
noncomputable def starts (pts : List Pt) (d : List (Option Pt)) : List Pt :=
  List.zipWith (fun p v => match v with | some _ => p | none => (0, 0)) pts d

/-- the arrow of a point (821-834): beginning and end -/
noncomputable def arrow (scale : ℝ) (p : Pt) : Option Pt → Pt × Pt
  | some v => (p, (p.1 + v.1 * (scale * degree) / Real.cos (p.2 * (Real.pi / 180)), p.2 + v.2 * (scale * degree)))
  | none => ((0, 0), (0, 0))

/-- `projection.image_box`: the corners below left and above right -/
def inBox (b : Pt × Pt) (p : Pt) : Prop := b.1.1 ≤ p.1 ∧ p.1 ≤ b.2.1 ∧ b.1.2 ≤ p.2 ∧ p.2 ≤ b.2.2

open Classical in
/-- The arrows on the image (836-858): those with both ends in the box. -/
noncomputable def drawn (b : Pt × Pt) (scale : ℝ) (pts : List Pt) (d : List (Option Pt)) : List (Pt × Pt) :=
  (List.zipWith (arrow scale) pts d).filter fun a => decide (inBox b a.1 ∧ inBox b a.2)

/-- A grid: nodes and centres of faces (`grid.nodes`, `grid.face_coordinates`). -/
structure Grid where
  nodes : List Pt
  faces : List Pt

/-- Drawing (784-858): the arrows and the grid after.  The nodes are copied (811), the centres are not (819), and `start` is written to (822). -/
noncomputable def draw (g : Grid) (onFaces : Bool) (b : Pt × Pt) (scale : ℝ) (d : List (Option Pt)) : List (Pt × Pt) × Grid :=
  if onFaces then (drawn b scale g.faces d, { g with faces := starts g.faces d })
  else (drawn b scale g.nodes d, g)

end Verif.Canvas.PropVec
