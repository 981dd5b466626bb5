import Verif.Geom.PolyModel

/-!
# Polygon sets and thinning

Model of `gnome/utilities/geometry/polygons.py`: `Polygon.thin` 133-175 and `PolygonSet` 178-403.

Simplifications: coordinates are rationals; the metadata dict is a value of a type `M`; a set made with the `data` argument of
`__init__` (204-206) and `SetPointsData` (264-295, which raises AttributeError or sets an attribute nobody reads) are not
modelled; the int32 index array is a list of naturals.
-/

namespace Verif.Geom

/-- `PolygonSet`: `_PointsArray`, `_IndexArray`, `_MetaDataList` (200-202). -/
structure PSet (M : Type) where
  points : List Pt
  index : List Nat
  mdata : List M
deriving DecidableEq

/-- A `Polygon`: its points and its metadata. -/
structure PolyM (M : Type) where
  pts : List Pt
  mdata : M
deriving DecidableEq

variable {M : Type}

namespace PSet

/-- `PolygonSet()`, 199-202. -/
def empty : PSet M := ⟨[], [0], []⟩

/-- Numpy row assignment `a[-k:, :] = rows` with `k = len(rows)`, line 232.  For `k = 0` the slice `-0:` is the whole array, and
assigning no rows to some rows is a ValueError (`none`); to no rows it does nothing. -/
def setLast (a rows : List Pt) : Option (List Pt) :=
  if rows.length = 0 then (if a.length = 0 then some a else none)
  else some (a.take (a.length - rows.length) ++ rows)

/-- `append(polygon)`, 208-237.  `resize` 230 pads with zeros.  On the exception the set has only been resized by no rows,
that is, not changed. -/
def append (s : PSet M) (p : PolyM M) : Option (PSet M) :=
  match setLast (s.points ++ List.replicate p.pts.length ⟨0, 0⟩) p.pts with
  | none => none
  | some pts => some ⟨pts, s.index ++ [pts.length], s.mdata ++ [p.mdata]⟩

/-- `__len__`, 329-331. -/
def len (s : PSet M) : Nat := s.index.length - 1

/-- Numpy slice `a[i:j]` for `0 ≤ i, j`. -/
def slice (a : List Pt) (i j : Nat) : List Pt := (a.take j).drop i

/-- Body of `__getitem__` for a non-negative index, 352-356: IndexError (`none`) from the arrays themselves. -/
def getNat (s : PSet M) (i : Nat) : Option (PolyM M) :=
  match s.index[i]?, s.index[i + 1]?, s.mdata[i]? with
  | some a, some b, some m => some ⟨slice s.points a b, m⟩
  | _, _, _ => none

/-- `__getitem__`, 342-356. -/
def getItem (s : PSet M) (index : Int) : Option (PolyM M) :=
  if index > (s.index.length : Int) - 1 then none
  else if index < 0 then
    if index < -((s.index.length : Int) - 1) then none
    else getNat s (((s.index.length : Int) - 1 + index).toNat)
  else getNat s index.toNat

/-- `__iter__`, 333-335 (`none`: some item raised). -/
def iter (s : PSet M) : Option (List (PolyM M)) :=
  (List.range (s.index.length - 1)).mapM (fun (i : Nat) => getItem s (i : Int))

/-- `__eq__`, 366-372: points and metadata are compared, not the indices. -/
def beq [DecidableEq M] (s t : PSet M) : Bool := decide (s.points = t.points) && decide (s.mdata = t.mdata)

/-- Appending several polygons one after the other. -/
def appendAll (s : PSet M) : List (PolyM M) → Option (PSet M)
  | [] => some s
  | p :: ps => match append s p with
    | none => none
    | some s' => appendAll s' ps

end PSet

/-- `np.round`: to the nearest integer, ties to even. -/
def npRound (q : Rat) : Int :=
  let f := q.floor
  if q - f < 1 / 2 then f
  else if 1 / 2 < q - f then f + 1
  else if f % 2 = 0 then f else f + 1

/-- `_scaling_fun`, 124-131, of one point. -/
def scalePt (sx sy : Rat) (p : Pt) : Int × Int := (npRound (p.x * sx), npRound (p.y * sy))

/-- The loop of `thin`, 165-169: `prev` is the scaled previous point. -/
def thinLoop (f : Pt → Int × Int) (prev : Int × Int) : List Pt → List Pt
  | [] => []
  | p :: ps => if f p = prev then thinLoop f (f p) ps else p :: thinLoop f (f p) ps

/-- `Polygon.thin(scale)`, 133-175.  `none`: IndexError of an empty polygon (161). -/
def thinWith (f : Pt → Int × Int) (poly : List Pt) : Option (List Pt) :=
  match poly with
  | [] => none
  | o :: rest =>
    let lastSame := decide (o = (o :: rest).getLast (by simp))
    let scanned := if lastSame then (o :: rest).dropLast else o :: rest
    let thinned := o :: thinLoop f (f o) scanned
    if thinned.length > 1 then some (if lastSame then thinned ++ [o] else thinned)
    else some []

/-- `Polygon.thin((sx, sy))`. -/
def thin (sx sy : Rat) (poly : List Pt) : Option (List Pt) := thinWith (scalePt sx sy) poly

/-- `PolygonSet.thin`, 377-403. -/
def PSet.thin (sx sy : Rat) (s : PSet M) : Option (PSet M) :=
  match s.iter with
  | none => none
  | some ps => ps.foldl (fun acc p => match acc with
      | none => none
      | some t => match Geom.thin sx sy p.pts with
        | none => none
        | some q => if q.length = 0 then some t else t.append ⟨q, p.mdata⟩) (some PSet.empty)

end Verif.Geom
