import Mathlib.Data.Rat.Floor

/-!
# The view of a map and its grid lines

Source: `py_gnome/gnome/utilities/map_canvas.py` `Viewport` (742-847), `MapCanvas.zoom`, `shift_viewport` (168-175),
`GridLines` (479-652).

Simplifications: rational coordinates; the image box of the projection is given.
-/
namespace Verif.Canvas

abbrev Pt := ℚ × ℚ

/-- `Viewport` (742-787): the box, the centre, the width and the height are kept side by side. -/
structure View where
  lo : Pt
  hi : Pt
  center : Pt
  width : ℚ
  height : ℚ
  deriving DecidableEq

/-- `recompute_dim` (795-800). -/
def recomputeDim (v : View) : View :=
  let w := v.hi.1 - v.lo.1
  let h := v.hi.2 - v.lo.2
  ⟨v.lo, v.hi, (v.hi.1 - w / 2, v.hi.2 - h / 2), w, h⟩

/-- `recompute_BB` (802-807). -/
def recomputeBB (v : View) : View :=
  ⟨(v.center.1 - v.width / 2, v.center.2 - v.height / 2), (v.center.1 + v.width / 2, v.center.2 + v.height / 2),
   v.center, v.width, v.height⟩

/-- The constructor with a box (785-787). -/
def ofBox (lo hi : Pt) : View := recomputeDim ⟨lo, hi, (0, 0), 0, 0⟩

/-- The constructor with a centre and a size (773-784). -/
def ofCenter (c : Pt) (w h : ℚ) : View := recomputeBB ⟨(0, 0), (0, 0), c, w, h⟩

/-- What can be done to a view: the setters (816-847), `scale` (789-793), `shift_viewport` (172-175). -/
inductive Op
  | setBox (lo hi : Pt)
  | setCenter (c : Pt)
  | setWidth (w : ℚ)
  | setHeight (h : ℚ)
  | scale (m : ℚ)
  | shift (d : Pt)

/-- One operation. `width if width else self._width`: zero is ignored. -/
def apply (v : View) : Op → View
  | .setBox lo hi => recomputeDim { v with lo := lo, hi := hi }
  | .setCenter c => recomputeBB { v with center := c }
  | .setWidth w => recomputeBB { v with width := if w = 0 then v.width else w }
  | .setHeight h => recomputeBB { v with height := if h = 0 then v.height else h }
  | .scale m => recomputeBB { v with width := v.width * m, height := v.height * m }
  | .shift d => recomputeBB { v with center := (v.center.1 + d.1, v.center.2 + d.2) }

/-- Any number of operations. -/
def run (v : View) (ops : List Op) : View := ops.foldl apply v

/-! ## Grid lines -/

/-- `DEG_STEPS` (516-534). -/
def degSteps : List ℚ := [1/1000, 25/10000, 5/1000, 1/100, 25/1000, 5/100, 1/10, 25/100, 5/10, 1, 2, 3, 4, 5, 10, 15, 20, 30, 40]

/-- `DMS_STEPS` (488-508). -/
def dmsSteps : List ℚ := [15/3600, 30/3600, 1/60, 2/60, 3/60, 4/60, 5/60, 10/60, 15/60, 20/60, 30/60,
  1, 2, 3, 4, 5, 10, 15, 20, 30, 40]

/-- `bisect.bisect` on an ascending list: how many entries are at most `x`. -/
def bisect (l : List ℚ) (x : ℚ) : Nat := l.countP (· ≤ x)

/-- `get_step_size` (581-590). -/
def stepSize (steps : List ℚ) (ref : ℚ) : ℚ := steps.getD (min (bisect steps |ref|) (steps.length - 1)) 0

/-- `round` of Python: to the nearest, halves to the even one. -/
def pyRound (x : ℚ) : Int :=
  let f := ⌊x⌋
  if x - f < 1 / 2 then f else if 1 / 2 < x - f then f + 1 else if f % 2 = 0 then f else f + 1

/-- The image: its size in pixels and its box in degrees. -/
structure Image where
  w : Nat
  h : Nat
  lo : Pt
  hi : Pt

/-- What `refresh_scale` finds (623-652): the interval and the numbers of lines. -/
structure Scale where
  interval : ℚ
  lon : Int
  lat : Int
  deriving DecidableEq

/-- `refresh_scale` (623-652) for `max_lines` other than 0. -/
def refresh (steps : List ℚ) (maxLines : Nat) (im : Image) : Scale :=
  let ratio : ℚ := im.w / im.h
  if im.w ≥ im.h then
    ⟨stepSize steps ((im.hi.1 - im.lo.1) / maxLines), maxLines, pyRound (maxLines / ratio)⟩
  else ⟨stepSize steps ((im.hi.2 - im.lo.2) / maxLines), pyRound (maxLines * ratio), maxLines⟩

/-- `range(0, n)`. -/
def range (n : Int) : List Int := (List.range n.toNat).map Int.ofNat

/-- `get_lines` (592-621): vertical lines as (longitude, from latitude, to latitude) and horizontal ones. -/
def vertical (s : Scale) (im : Image) : List (ℚ × ℚ × ℚ) :=
  let dx := ((⌊im.lo.1 / s.interval⌋ : ℚ) - 1) * s.interval
  let dy := ((⌊im.lo.2 / s.interval⌋ : ℚ) - 1) * s.interval
  (range (s.lon + 4)).map fun (x : Int) => ((x : ℚ) * s.interval + dx, 0 + dy, (s.lat + 4) * s.interval + dy)

def horizontal (s : Scale) (im : Image) : List (ℚ × ℚ × ℚ) :=
  let dx := ((⌊im.lo.1 / s.interval⌋ : ℚ) - 1) * s.interval
  let dy := ((⌊im.lo.2 / s.interval⌋ : ℚ) - 1) * s.interval
  (range (s.lat + 4)).map fun (y : Int) => ((y : ℚ) * s.interval + dy, 0 + dx, (s.lon + 4) * s.interval + dx)

end Verif.Canvas
