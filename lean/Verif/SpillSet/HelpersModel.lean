import Mathlib.Data.Rat.Defs
import Mathlib.Algebra.Order.Field.Rat
import Mathlib.Data.List.GetD

/-!
Model of the functions that make spills, `point_line_spill`, `surface_point_line_spill`, `grid_spill`, `subsurface_spill`,
`spatial_release_spill` and `polygon_release_spill` (`py_gnome/gnome/spills/spill.py` 492-960), with the windages of `Substance`
(`py_gnome/gnome/spills/substance.py` 144-191).

Substances are objects that the caller holds and may hand to several spills: the state is the list of the substances there are, and
a spill has the position of its own in it. A substance is its windages only. The amount and its units are in `Verif.SpillSet.Model`;
here it counts only whether they are accepted. Coordinates are rationals; names, water and `on` are passed on as they are and left out.
-/

namespace Verif.SpillSet.Helpers

/-- A number of seconds, or infinitely many. -/
inductive Persist where
  | secs (q : ℚ)
  | inf
  deriving DecidableEq

/-- The windages of a substance (`_windage_init`, `py_gnome/gnome/spills/initializers.py` 84-111). -/
structure Subst where
  range : List ℚ
  persist : ℚ
  deriving DecidableEq

/-- The windages of a substance made without any (`substance.py` 94-95, 153, 176). -/
def plain : Subst := ⟨[1 / 100, 4 / 100], 900⟩

/-- `windage_range = r` (`substance.py` 151-161), for an `r` that is not None. -/
def setRange (s : Subst) (r : List ℚ) : Subst × Bool :=
  if r.any (fun x => decide (x < 0)) || decide (r.length ≠ 2) then (s, true) else ({ s with range := r }, false)

/-- `windage_persist = p` (`substance.py` 174-186), for a `p` that is not None: infinity is kept as -1. -/
def setPersist (s : Subst) (p : Persist) : Subst × Bool :=
  let q := match p with
    | .inf => -1
    | .secs q => q
  if q = 0 then (s, true) else ({ s with persist := q }, false)

/-- The argument `substance` (`spill.py` 205-235): an object there is (a `NonWeatheringSubstance` or a `GnomeOil`), or something of
which a new one is made (None, a name, data of an oil), or a class, or a name that is not known. -/
inductive Arg where
  | obj (i : Nat)
  | new (s : Subst)
  | bad

/-- What decides on a call of a helper once its release has been made: `good` says that amount and units are accepted
(`spill.py` 295-297, 317-332). -/
structure Call where
  substance : Arg
  good : Bool
  range : Option (List ℚ)
  persist : Option Persist

/-- The windages set by `_setup_spill` (`spill.py` 514-519), with whether it fails. -/
def override (s : Subst) (c : Call) : Subst × Bool :=
  let a := match c.range with
    | none => (s, false)
    | some r => setRange s r
  if a.2 then a
  else match c.persist with
    | none => (a.1, false)
    | some p => setPersist a.1 p

/-- The substances after the constructor of `Spill`, and the one of the spill (`spill.py` 164-165, 222-225). -/
def place (h : List Subst) : Arg → List Subst × Option Nat
  | .obj i => if i < h.length then (h, some i) else (h, none)
  | .new s => (h ++ [s], some h.length)
  | .bad => (h, none)

/-- `_setup_spill` (`spill.py` 492-522): the substances after it, and the substance of the spill unless it fails. -/
def setup (h : List Subst) (c : Call) : List Subst × Option Nat :=
  match place h c.substance with
  | (h', none) => (h', none)
  | (h', some i) =>
    if c.good then
      let o := override (h'.getD i plain) c
      (h'.set i o.1, if o.2 then none else some i)
    else (h', none)

/-- Calls one after the other. -/
def calls (h : List Subst) : List Call → List Subst
  | [] => h
  | c :: l => calls (setup h c).1 l

/-! ## Where the release is -/

/-- `np.array(val).reshape((3,))` (`py_gnome/gnome/spills/release.py` 617-618, 637): three numbers, or it fails. -/
def three : List ℚ → Option (ℚ × ℚ × ℚ)
  | [x, y, z] => some (x, y, z)
  | _ => none

/-- Where and when a release is (`release.py` 520-640): start, end, time of release and of its end. -/
structure Rel where
  start : ℚ × ℚ × ℚ
  stop : ℚ × ℚ × ℚ
  time : ℤ
  endTime : ℤ
  deriving DecidableEq

/-- `PointLineRelease(release_time, start_position, end_release_time, end_position)` (`release.py` 571-581, 333-347, 620-640). -/
def pointLine (start : List ℚ) (stop : Option (List ℚ)) (t : ℤ) (te : Option ℤ) : Option Rel :=
  match te with
  | some e => if t > e then none else build e
  | none => build t
where
  /-- The positions, once the times are accepted (`release.py` 580-581). -/
  build (e : ℤ) : Option Rel :=
    match three start, stop with
    | none, _ => none
    | some p, none => some ⟨p, p, t, e⟩
    | some p, some l => match three l with
      | none => none
      | some q => some ⟨p, q, t, e⟩

/-- A depth of 0 for a position that has none (`spill.py` 582-585). -/
def pad (l : List ℚ) : List ℚ := if l.length = 2 then l.take 2 ++ [0] else l

/-- Depth 0 in any case (`spill.py` 669-671). -/
def flat (l : List ℚ) : List ℚ := l.take 2 ++ [0]

/-- The release of `point_line_spill` (`spill.py` 582-591). -/
def pointLineSpill (start : List ℚ) (stop : Option (List ℚ)) (t : ℤ) (te : Option ℤ) : Option Rel :=
  pointLine (pad start) (stop.map pad) t te

/-- The release of `surface_point_line_spill` (`spill.py` 669-677). -/
def surfaceSpill (start : List ℚ) (stop : Option (List ℚ)) (t : ℤ) (te : Option ℤ) : Option Rel :=
  pointLine (flat start) (stop.map flat) t te

/-- The release of `subsurface_spill` (`spill.py` 839-844): it has no end position. -/
def subsurfaceSpill (start : List ℚ) (t : ℤ) (te : Option ℤ) : Option Rel :=
  pointLine start none t te

end Verif.SpillSet.Helpers
