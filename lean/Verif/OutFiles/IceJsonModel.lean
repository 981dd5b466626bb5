import Verif.Canvas.Model
import Mathlib.Data.List.Sort
/-!
# Model of the ice in GeoJSON output

Source: `/repo/py_gnome/gnome/outputters/geo_json.py` `IceGeoJsonOutput.get_coverage_fc`, `get_thickness_fc`, `get_grouped_fc_from_1d_array` 315-352.

Simplifications: numbers are rational; cells are given as the lists of their corners (`IceMover.get_grid_data`), values in the order of the cells (`get_ice_fields`).
-/
namespace Verif.OutFiles.IceJson

abbrev Pt := ℚ × ℚ

/-- nested lists of numbers, as in a file -/
inductive Json
  | num (x : ℚ)
  | arr (l : List Json)

/-- `values.round(decimals)` 329, halves to the even digit -/
def round (dec : Nat) (v : ℚ) : ℚ := (Verif.Canvas.pyRound (v * 10 ^ dec) : ℚ) / 10 ^ dec

/-- `np.unique` 330 -/
def unique (l : List ℚ) : List ℚ := l.dedup.insertionSort (· ≤ ·)

/-- `triangles[np.where(rounded == u)]` 334-335; `none`: IndexError -/
def matching (u : ℚ) (cells : List (List Pt)) (at' : Nat) : List ℚ → Option (List (List Pt))
  | [] => some []
  | v :: t =>
    if v = u then
      match cells[at']?, matching u cells (at' + 1) t with
      | some c, some r => some (c :: r)
      | _, _ => none
    else matching u cells (at' + 1) t

/-- a feature: the number printed as its property and the cells of its geometry -/
structure Feature where
  value : ℚ
  cells : List (List Pt)
deriving DecidableEq

/-- one feature for each value 333-350 -/
def features (dec : Nat) (values : List ℚ) (cells : List (List Pt)) : Option (List Feature) :=
  (unique (values.map (round dec))).mapM fun u => (matching u cells 0 (values.map (round dec))).map (Feature.mk u)

/-- the coordinates that are written: cells, corners, numbers 337-341, 346-348 -/
def Feature.coordinates (f : Feature) : Json := .arr (f.cells.map fun c => .arr (c.map fun p => .arr [.num p.1, .num p.2]))

end Verif.OutFiles.IceJson
