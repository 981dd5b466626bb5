import Mathlib.Analysis.SpecialFunctions.Trigonometric.Basic
/-!
# Model of the vectors and centres of a gridded current that are sent to the web client

Source: `/repo/py_gnome/gnome/environment/gridded_objects_base.py` `VectorVariable.get_data_vectors` 1223-1275, `Grid_S.get_centers` 368-385;
`/repo/py_gnome/gnome/environment/environment_objects.py` `VelocityGrid.get_data_vectors` 236-270.

Simplifications: one record of the surface; tables after cutting off the padding (`get_padding_slices` of the package gridded), first index of rows; real numbers; the mask of the centres is
given (`gen_celltree_mask_from_center_mask` of gridded); a value that is missing is `none`.
-/
namespace Verif.GridCur.Arrow

abbrev Table (α : Type) := List (List α)

/-- entries of a flat table that are not masked: `MaskedArray(...).compressed()` -/
def compress {α : Type} (m : List Bool) (l : List α) : List α := ((l.zip m).filter fun p => !p.2).map Prod.fst

/-- `np.ma.filled(x, 0)` 1246-1247 -/
def fill : Option ℝ → ℝ
  | some x => x
  | none => 0

noncomputable def mean (x y : ℝ) : ℝ := (x + y) / 2

/-- `(raw_u[:, :, 0:-1] + raw_u[:, :, 1:]) / 2` 1248 -/
noncomputable def alongRows (u : Table ℝ) : Table ℝ := u.map fun r => r.dropLast.zipWith mean r.tail

/-- `(raw_v[:, 0:-1, :] + raw_v[:, 1:, :]) / 2` 1249 -/
noncomputable def acrossRows (v : Table ℝ) : Table ℝ := v.dropLast.zipWith (fun a b => a.zipWith mean b) v.tail

/-- a structured grid: centres, their mask, angle of the grid -/
structure Grid where
  lon : Table ℝ
  lat : Table ℝ
  mask : Table Bool
  angle : Table ℝ

/-- `get_centers` 379-384: centres in the order of the tables without those masked -/
def Grid.centres (g : Grid) : List (ℝ × ℝ) := (compress g.mask.flatten g.lon.flatten).zip (compress g.mask.flatten g.lat.flatten)

/-- components on the faces between centres 1242-1269: two lists of the same length, or ValueError -/
noncomputable def staggered (g : Grid) (u v : Table (Option ℝ)) : Option (List (ℝ × ℝ)) :=
  let x := compress g.mask.flatten (alongRows (u.map fun r => r.map fill)).flatten
  let y := compress g.mask.flatten (acrossRows (v.map fun r => r.map fill)).flatten
  if x.length = y.length then some (x.zip y) else none

/-- components at the centres 1258-1269: values that are missing stay masked and go away as well -/
def centred (g : Grid) (u v : Table (Option ℝ)) : Option (List (ℝ × ℝ)) :=
  let x := (compress g.mask.flatten u.flatten).filterMap id
  let y := (compress g.mask.flatten v.flatten).filterMap id
  if x.length = y.length then some (x.zip y) else none

/-- environment_objects.py 263-264, angle in radians -/
noncomputable def turn (a : ℝ) (w : ℝ × ℝ) : ℝ × ℝ := (w.1 * Real.cos a - w.2 * Real.sin a, w.1 * Real.sin a + w.2 * Real.cos a)

/-- `VelocityGrid.get_data_vectors` with an angle: the angles of centres that are not masked; other numbers of vectors are a ValueError -/
noncomputable def turned (g : Grid) (l : List (ℝ × ℝ)) : Option (List (ℝ × ℝ)) :=
  let a := compress g.mask.flatten g.angle.flatten
  if a.length = l.length then some (a.zipWith turn l) else none

end Verif.GridCur.Arrow
