import Verif.Geom.PolyModel

/-!
# Bounding boxes

Model of `gnome/utilities/geometry/BBox.py`.

Doubles here are NaN, the infinities and exact rationals, with the IEEE comparisons (any comparison with NaN is false).
The 2x2 array is a record of four entries.
-/

namespace Verif.Geom

/-- A double: NaN, -inf, a finite number (exact), +inf. -/
inductive Dbl where
  | nan | ninf | fin (q : Rat) | pinf
deriving DecidableEq, Repr

namespace Dbl

/-- IEEE `a <= b`. -/
def le : Dbl → Dbl → Bool
  | .nan, _ => false
  | _, .nan => false
  | .ninf, _ => true
  | _, .pinf => true
  | .fin a, .fin b => decide (a ≤ b)
  | _, _ => false

/-- IEEE `a < b`. -/
def lt : Dbl → Dbl → Bool
  | .nan, _ => false
  | _, .nan => false
  | .ninf, .ninf => false
  | .ninf, _ => true
  | .pinf, .pinf => false
  | _, .pinf => true
  | .fin a, .fin b => decide (a < b)
  | _, _ => false

/-- IEEE `a == b`. -/
def eq : Dbl → Dbl → Bool
  | .nan, _ => false
  | _, .nan => false
  | a, b => decide (a = b)

/-- `np.isnan`. -/
def isNan : Dbl → Bool
  | .nan => true
  | _ => false

/-- `np.isinf`. -/
def isInf : Dbl → Bool
  | .ninf => true
  | .pinf => true
  | _ => false

/-- The binary `np.minimum`, which `ndarray.min` folds: NaN wins. -/
def npMin (a b : Dbl) : Dbl := if isNan a then a else if isNan b then b else if lt b a then b else a

/-- The binary `np.maximum`, which `ndarray.max` folds: NaN wins. -/
def npMax (a b : Dbl) : Dbl := if isNan a then a else if isNan b then b else if lt a b then b else a

end Dbl

/-- The entries `[[x0, y0], [x1, y1]]` (`BBox.py` 18-19). -/
structure Box where
  x0 : Dbl
  y0 : Dbl
  x1 : Dbl
  y1 : Dbl
deriving DecidableEq, Repr

/-- A point with double coordinates. -/
structure DPt where
  x : Dbl
  y : Dbl
deriving DecidableEq, Repr

namespace Box

/-- `np.isnan(box).all()`: `IsNull`, 151-152. -/
def isNull (b : Box) : Bool := b.x0.isNan && b.y0.isNan && b.x1.isNan && b.y1.isNan

/-- `np.isinf(box).all()`, line 70. -/
def allInf (b : Box) : Bool := b.x0.isInf && b.y0.isInf && b.x1.isInf && b.y1.isInf

/-- The constructor `BBox(data)`, 33-59: ValueError (`none`) if a minimum is above its maximum. -/
def new (b : Box) : Option Box :=
  if b.x1.lt b.x0 || b.y1.lt b.y0 then none else some b

/-- `Overlaps`, 61-76. -/
def overlaps (s b : Box) : Bool :=
  if s.allInf || b.allInf then true
  else b.x0.le s.x1 && s.x0.le b.x1 && b.y0.le s.y1 && s.y0.le b.y1

/-- `Inside`, 78-93: `b` is inside of `s`. -/
def inside (s b : Box) : Bool :=
  s.x0.le b.x0 && b.x1.le s.x1 && s.y0.le b.y0 && b.y1.le s.y1

/-- `PointInside`, 95-114. -/
def pointInside (s : Box) (p : DPt) : Bool :=
  s.x0.le p.x && p.x.le s.x1 && p.y.le s.y1 && s.y0.le p.y

/-- `Merge`, 116-136: the new value of `self`. -/
def merge (s b : Box) : Box :=
  if s.isNull then b
  else if b.isNull then s
  else
    { x0 := if b.x0.lt s.x0 then b.x0 else s.x0
      y0 := if b.y0.lt s.y0 then b.y0 else s.y0
      x1 := if s.x1.lt b.x1 then b.x1 else s.x1
      y1 := if s.y1.lt b.y1 then b.y1 else s.y1 }

/-- `__eq__`, 194-204. -/
def beq (s b : Box) : Bool :=
  if s.isNull && b.isNull then true
  else s.x0.eq b.x0 && s.y0.eq b.y0 && s.x1.eq b.x1 && s.y1.eq b.y1

/-- `AsPoly`, 138-149, for a box with finite entries. -/
def asPoly (x0 y0 x1 y1 : Rat) : List Pt := [⟨x0, y0⟩, ⟨x0, y1⟩, ⟨x1, y1⟩, ⟨x1, y0⟩]

/-- `NullBBox()`, 263-275. -/
def null : Box := ⟨.nan, .nan, .nan, .nan⟩

/-- `InfBBox()`, 278-285. -/
def inf : Box := ⟨.ninf, .ninf, .pinf, .pinf⟩

/-- `fromPoints(Points)`, 227-241: `min(0)` and `max(0)` of the columns; of no points they raise ValueError (`none`). -/
def fromPoints : List DPt → Option Box
  | [] => none
  | p :: ps => some
      { x0 := ps.foldl (fun m q => m.npMin q.x) p.x
        y0 := ps.foldl (fun m q => m.npMin q.y) p.y
        x1 := ps.foldl (fun m q => m.npMax q.x) p.x
        y1 := ps.foldl (fun m q => m.npMax q.y) p.y }

/-- `fromBBArray(BBarray)`, 244-259. -/
def fromBBArray : List Box → Option Box
  | [] => none
  | b :: bs => some
      { x0 := bs.foldl (fun m q => m.npMin q.x0) b.x0
        y0 := bs.foldl (fun m q => m.npMin q.y0) b.y0
        x1 := bs.foldl (fun m q => m.npMax q.x1) b.x1
        y1 := bs.foldl (fun m q => m.npMax q.y1) b.y1 }

end Box
end Verif.Geom
