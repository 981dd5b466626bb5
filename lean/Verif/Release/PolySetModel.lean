import Mathlib.Algebra.Order.Field.Rat
import Mathlib.Algebra.Order.Ring.Abs

/-!
# Weights and thicknesses of a polygon release

Source: `py_gnome/gnome/spills/release.py` `PolygonRelease.__init__` (738-801: the checks), `gen_fc_from_kwargs` (823-834), `thicknesses` (854-868), `weights` (870-884), `get_polys_as_tris` (897-920: the weights), `compute_distribution` (922-935),
`prepare_for_model_run` (937-957), `get_polygons` (976-991), `get_metadata` (993-1007); `gnome/utilities/geometry/geo_routines.py`
`mixed_polys_to_polygon` (67-81).

Simplifications: a feature is the list of its polygons (one, or those of a MultiPolygon) with the properties `weight` and `thickness`,
each absent, null or a number; areas are positive numbers given by a function; the release is not read from a file.
-/
namespace Verif.Release.PolySet

/-- A feature; a property is absent, `some none` (null) or a number. -/
structure Feat (P : Type) where
  shape : List P
  w : Option (Option ℚ)
  t : Option (Option ℚ)
  deriving DecidableEq, Repr

/-- The two properties. -/
inductive Key | weight | thickness
  deriving DecidableEq, Repr

def Key.other : Key → Key
  | .weight => .thickness
  | .thickness => .weight

variable {P : Type}

def Feat.prop (f : Feat P) : Key → Option (Option ℚ)
  | .weight => f.w
  | .thickness => f.t

def Feat.put (f : Feat P) (k : Key) (v : Option (Option ℚ)) : Feat P :=
  match k with
  | .weight => { f with w := v }
  | .thickness => { f with t := v }

/-- `feat.properties.get(k, None)` -/
def value (k : Key) (f : Feat P) : Option ℚ := (f.prop k).join

/-- The properties `thicknesses` and `weights` (854-857, 870-873). -/
def reading (k : Key) (fs : List (Feat P)) : Option (List (Option ℚ)) :=
  if (fs.map (value k)).all (· = none) then none else some (fs.map (value k))

/-- `for feat, t in zip(features, vals): feat.properties[k] = t` -/
def assign (k : Key) : List (Feat P) → List (Option ℚ) → List (Feat P)
  | f :: fs, v :: vs => f.put k (some v) :: assign k fs vs
  | fs, _ => fs

/-- `for feat in features: del feat.properties[k]`, `true`: a KeyError ended it. -/
def delete (k : Key) : List (Feat P) → List (Feat P) × Bool
  | [] => ([], false)
  | f :: fs =>
    if f.prop k = none then (f :: fs, true) else (f.put k none :: (delete k fs).1, (delete k fs).2)

/-- The setters (859-868, 875-884); `true`: an error. -/
def setting (k : Key) (vals : Option (List (Option ℚ))) (fs : List (Feat P)) : List (Feat P) × Bool :=
  match vals with
  | none => delete k fs
  | some l => if reading k.other fs ≠ none then (fs, true) else (assign k fs l, false)

/-- `gen_fc_from_kwargs` (823-834): a list without entries counts as not given. -/
def features (polys : List (List P)) (ws ts : Option (List (Option ℚ))) : List (Feat P) :=
  assign .weight (assign .thickness (polys.map fun s => ⟨s, none, none⟩) (ts.getD [])) (ws.getD [])

/-- The checks of `__init__` (778-793); `none`: ValueError. -/
def make (polys : Option (List (List P))) (ws ts : Option (List (Option ℚ))) : Option (List (Feat P)) :=
  match polys with
  | none => none
  | some ps =>
    match ws, ts with
    | some _, some _ => none
    | some l, none => if l.length ≠ ps.length then none else some (features ps ws ts)
    | none, _ => some (features ps ws ts)

/-- All entries, if none is None (a product with None is a TypeError). -/
def numbers : List (Option ℚ) → Option (List ℚ)
  | [] => some []
  | none :: _ => none
  | some q :: r => (numbers r).map (q :: ·)

/-- `compute_distribution` (922-935) -/
def byVolume (area : List P → ℚ) (fs : List (Feat P)) (ts : List (Option ℚ)) : Option (List ℚ) :=
  (numbers ts).map fun l =>
    (List.zipWith (fun f t => area f.shape * t) fs l).map (· / (List.zipWith (fun f t => area f.shape * t) fs l).sum)

/-- `np.isclose(s, 1.0)` -/
def isOne (s : ℚ) : Bool := |s - 1| ≤ 1 / 100000000 + 1 / 100000

/-- The shares of the features in `prepare_for_model_run` (945-957, 897-920: the triangles of a feature share its weight);
`none`: an error. -/
def prepare (area : List P → ℚ) (fs : List (Feat P)) : Option (List ℚ) :=
  match reading .thickness fs with
  | some ts => (byVolume area fs ts).bind fun l => if isOne l.sum then some l else none
  | none =>
    match reading .weight fs with
    | some ws => (numbers ws).bind fun l => if isOne l.sum then some l else none
    | none =>
      if isOne ((fs.map fun f => area f.shape / (fs.map fun f => area f.shape).sum).sum) then
        some (fs.map fun f => area f.shape / (fs.map fun f => area f.shape).sum)
      else none

/-- `get_polygons` (976-991) with `mixed_polys_to_polygon`: the polygons in order. -/
def polygonsShown (fs : List (Feat P)) : List P := fs.flatMap (·.shape)

/-- `properties.get(k, 0)` (994-995) -/
def shownValue (k : Key) (f : Feat P) : Option ℚ := (f.prop k).getD (some 0)

/-- `get_metadata` (993-1007) -/
def metadata (k : Key) : List (Feat P) → List (Option ℚ)
  | [] => []
  | f :: fs => f.shape.map (fun _ => shownValue k f) ++ metadata k fs

/-- What the user can do to the settings. -/
inductive Op | set (k : Key) (vals : Option (List (Option ℚ)))

def apply (fs : List (Feat P)) : Op → List (Feat P)
  | .set k v => (setting k v fs).1

end Verif.Release.PolySet
