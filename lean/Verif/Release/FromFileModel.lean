import Verif.Place.GridModel

/-!
# Releases from files of splots, from NetCDF output and from plumes

Source: `py_gnome/gnome/spills/release.py` `release_from_splot_data` (1640-1660), `InitElemsFromFile` (1558-1637), `VerticalPlumeRelease` (1478-1555), the
methods of `Release` that they have (180-196, 404-415, 445-472); `py_gnome/gnome/spills/spill.py` `release_elements` (431-464).

Simplifications: an element is its position; times are whole seconds; the spill is on and its release prepared. `set_newparticle_positions` and
`num_elements_to_release` of the releases are not part of the model: `release_elements` calls neither, and nothing else does.
-/
namespace Verif.Release.FromFile
open Verif.Place

/-- A position (longitude, latitude, depth). -/
abbrev Pos := ℚ × ℚ × ℚ

/-- A release at given positions: its time, the number of its elements, the positions. -/
structure Rel where
  time : Int
  num : Nat
  positions : List Pos

/-- What can go wrong. -/
inductive Err
  | index
  | value
  deriving DecidableEq

/-- The number in the third column, cut to a whole one (1653: `dtype=int`). -/
def whole (q : ℚ) : Int := if 0 ≤ q then q.floor else -(-q).floor

/-- `release_from_splot_data` (1651-1660): `loadtxt` gives one dimension only for a file of one line, and an empty array for an empty file, for which `pos[:, 2]`
is an `IndexError`; `np.repeat` refuses negative numbers. The number of elements is not given, so it is the default of `Release` (182-183). -/
def fromSplots (time : Int) (rows : List (ℚ × ℚ × ℚ)) : Except Err Rel :=
  if rows.length ≤ 1 then .error .index
  else if rows.any fun r => decide (whole r.2.2 < 0) then .error .value
  else .ok ⟨time, 1000, rows.flatMap fun r => List.replicate (whole r.2.2).toNat (r.1, r.2.1, 0)⟩

/-- `InitElemsFromFile` (1591-1598): the elements of one record; they are kept aside, and the positions of the release stay `None`. -/
def fromNetCDF (time : Int) (elems : List Pos) : Rel := ⟨time, elems.length, []⟩

/-- `VerticalPlumeRelease` (1507-1519): the number of elements given or the default, all at once, no positions. -/
def fromPlume (time : Int) (num : Option Nat) : Rel := ⟨time, num.getD 1000, []⟩

/-- The elements of a spill so far. -/
structure Sp where
  released : Nat
  elems : List Pos

/-- `Spill.release_elements` (431-464) with `Release.num_elements_after_time` (404-415) of a release all at once, and `Release.initialize_elements` (445-472).
The second component is the error raised, if any: then the elements are there, at the positions that new elements have (0, 0, 0), and are counted. -/
def step (r : Rel) (t : Int) (draws : List Nat) (s : Sp) : Sp × Option Err :=
  let expected := if t < r.time then 0 else r.num
  let n := expected - s.released
  if n = 0 then (s, none)
  else match customPositions r.positions n draws with
    | none => (⟨s.released + n, s.elems ++ List.replicate n (0, 0, 0)⟩, some .value)
    | some ps => (⟨s.released + n, s.elems ++ ps⟩, none)

end Verif.Release.FromFile
