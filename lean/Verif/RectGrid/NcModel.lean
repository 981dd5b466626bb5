import Verif.RectGrid.Model
/-!
# Model of land maps from the mask of a netCDF grid

Source: `/repo/py_gnome/gnome/maps/map.py` `grid_from_nc` 1643-1683, `map_from_rectangular_grid_nc_file` 1686-1705.

Simplifications: the three tables of the file have the same shape (rows of the same latitude); the mask has no missing values.
-/
namespace Verif.RectGrid.Nc

/-- tables `lon`, `lat`, `mask` of the file: first index latitude, second longitude -/
structure File where
  lon : List (List ℚ)
  lat : List (List ℚ)
  mask : List (List ℚ)

/-- all rows of longitudes as the first, all columns of latitudes as the first 1657-1665; otherwise ValueError -/
def regular (f : File) : Bool :=
  f.lon.all (· = f.lon.headD []) && f.lat.all fun row => row.all (· = row.headD 0)

/-- 1672-1673: land where the mask is 0, longitude first, latitudes from the north -/
def raster (f : File) : List (List Nat) :=
  (List.range (f.lat.headD []).length).map fun i => (f.mask.map fun row => if row.getD i 0 = 0 then 1 else 0).reverse

/-- an axis with one more point at the distance of the last two 1677-1680; `none`: IndexError of a single point -/
def extend (l : List ℚ) : Option (List ℚ) :=
  if l.length < 2 then none else some (l ++ [2 * l.getLastD 0 - l.getD (l.length - 2) 0])

/-- `grid_from_nc`; `none`: an exception -/
def grid (f : File) : Option (List (List Nat) × List ℚ × List ℚ) :=
  if regular f then
    match extend (f.lon.headD []), extend (f.lat.map fun row => row.headD 0) with
    | some a, some b => some (raster f, a, b)
    | _, _ => none
  else none

/-- `on_land` of the map of the file -/
def land (refine : Nat) (f : File) (p : ℚ × ℚ) : Option Bool := (grid f).map fun g => onLand refine g.1 g.2.1 g.2.2 p

end Verif.RectGrid.Nc
