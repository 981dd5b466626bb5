/-
Model of the raster land check.

Source: /repo/py_gnome/gnome/cy_gnome/cy_land_check.pyx and
/repo/py_gnome/gnome/maps/map.py (RasterMap).

Simplifications: int32 coordinates are unbounded integers (see
`C32_no_overflow` for the range in which no intermediate value leaves int32);
the raster is the flat C array it is in the code, and reading it outside of
its length is the separate outcome `oob` (in C: undefined behaviour).
-/
namespace Verif.Land

/-- A C-contiguous `(m, n)` raster of uint8: cell `(x, y)` is at flat index
`x * n + y` (cy_land_check.pyx 113, 147, 160-161; map.py 819-822, 894). -/
structure Grid where
  m : Nat
  n : Nat
  data : List Nat
  size_eq : data.length = m * n

/-- The value at a flat index, `none` when outside of the allocated memory. -/
def readFlat (g : Grid) (i : Int) : Option Nat :=
  if i < 0 then none else g.data[i.toNat]?

/-- `grid[x * n + y]` (cy_land_check.pyx 113, 147, 160, 161). -/
def read (g : Grid) (x y : Int) : Option Nat := readFlat g (x * g.n + y)

/-- `x0 < 0 or x0 >= m or y0 < 0 or y0 >= n` (cy_land_check.pyx 110, 137). -/
def off (g : Grid) (x y : Int) : Bool :=
  x < 0 || x ≥ g.m || y < 0 || y ≥ g.n

/-- `c_overlap_grid` (cy_land_check.pyx 38-62). -/
def overlap (m n : Int) (x1 y1 x2 y2 : Int) : Bool :=
  if x1 < 0 ∧ x2 < 0 then false
  else if y1 < 0 ∧ y2 < 0 then false
  else if x1 ≥ m ∧ x2 ≥ m then false
  else if y1 ≥ n ∧ y2 ≥ n then false
  else true

/-- Outcome of the march: no hit; a hit (previous pixel, hit pixel); a read
outside of the raster's memory; or the loop not finished within the fuel. -/
inductive Res where
  | miss
  | hit (px py hx hy : Int)
  | oob
  | fuel
  deriving DecidableEq, Repr

/-- Direction of march (cy_land_check.pyx 100-107). -/
def sgn (a b : Int) : Int := if a < b then 1 else -1

/-- Advance to the next pixel: new x, y and error term
(cy_land_check.pyx 127-134). -/
def adv (dx dy sx sy x y err : Int) : Int × Int × Int :=
  let e2 := 2 * err
  let ea := if e2 > -dy then err - dy else err
  (if e2 > -dy then x + sx else x, if e2 < dx then y + sy else y,
    if e2 < dx then ea + dx else ea)

/-- The `while True` loop (cy_land_check.pyx 122-167), one unit of fuel per
iteration. `on` is `was_on_grid`. -/
def walk (g : Grid) (dx dy sx sy x1 y1 : Int) :
    Nat → Int → Int → Int → Bool → Res
  | 0, _, _, _, _ => .fuel
  | f + 1, x, y, err, on =>
    if x = x1 ∧ y = y1 then .miss
    else
      let e2 := 2 * err
      let x' := (adv dx dy sx sy x y err).1
      let y' := (adv dx dy sx sy x y err).2.1
      let eb := (adv dx dy sx sy x y err).2.2
      if off g x' y' then
        if on then .miss else walk g dx dy sx sy x1 y1 f x' y' eb on
      else
        match read g x' y' with
        | none => .oob
        | some c =>
          if c ≠ 0 then .hit x y x' y'
          else if on ∧ e2 > -dy ∧ e2 < dx then
            match read g x' (y' - sy) with
            | none => .oob
            | some c1 =>
              if c1 ≠ 0 then
                match read g (x' - sx) y' with
                | none => .oob
                | some c2 =>
                  if c2 ≠ 0 then .hit x y x' (y' - sy)
                  else walk g dx dy sx sy x1 y1 f x' y' eb true
              else walk g dx dy sx sy x1 y1 f x' y' eb true
          else walk g dx dy sx sy x1 y1 f x' y' eb true

/-- `c_find_first_pixel` (cy_land_check.pyx 65-170). -/
def findFirst (g : Grid) (fuel : Nat) (x0 y0 x1 y1 : Int) : Res :=
  if overlap g.m g.n x0 y0 x1 y1 = false then .miss
  else
    let dx : Int := ((x1 - x0).natAbs : Int)
    let dy : Int := ((y1 - y0).natAbs : Int)
    let sx := sgn x0 x1
    let sy := sgn y0 y1
    let err := dx - dy
    if off g x0 y0 then walk g dx dy sx sy x1 y1 fuel x0 y0 err false
    else
      match read g x0 y0 with
      | none => .oob
      | some c =>
        if c ≠ 0 then .hit x0 y0 x0 y0
        else walk g dx dy sx sy x1 y1 fuel x0 y0 err true

/-- An element as `check_land` sees it: position, requested end position,
status code, last water position, all in pixels. -/
structure El where
  pos : Int × Int
  fin : Int × Int
  status : Nat
  lwp : Int × Int
  deriving DecidableEq, Repr

/-- `oil_status.on_land` (basic_types / type_defs OILSTAT_ONLAND = 3). -/
def onLand : Nat := 3

/-- Fuel that is enough for one march (proved: `C32_terminates`). -/
def enough (p q : Int × Int) : Nat :=
  max (q.1 - p.1).natAbs (q.2 - p.2).natAbs + 1

/-- Body of the loop of `check_land` (cy_land_check.pyx 259-284). `none` when
the raster's memory was left. -/
def checkOne (g : Grid) (e : El) : Option El :=
  if e.status = onLand then some e
  else
    match findFirst g (enough e.pos e.fin) e.pos.1 e.pos.2 e.fin.1 e.fin.2 with
    | .hit px py hx hy =>
      some { e with lwp := (px, py), fin := (hx, hy), status := onLand }
    | .miss => some { e with pos := e.fin }
    | _ => none

/-- `check_land` (cy_land_check.pyx 236-285). -/
def checkLand (g : Grid) (es : List El) : Option (List El) := es.mapM (checkOne g)

/-- `div(p, ratio).quot`: C division truncates towards zero
(cy_land_check.pyx 337-340). -/
def coarse (r : Nat) (p : Int × Int) : Int × Int := (p.1.tdiv r, p.2.tdiv r)

/-- One cell of a coarser raster: any land in the block
(map.py 859-864; slices stop at the edge of the raster). -/
def coarseCell (g : Grid) (r i j : Nat) : Nat :=
  if (List.range r).any (fun (a : Nat) => (List.range r).any (fun (b : Nat) =>
      decide (i * r + a < g.m ∧ j * r + b < g.n) &&
        decide (g.data.getD ((i * r + a) * g.n + (j * r + b)) 0 ≠ 0)))
  then 1 else 0

/-- `int(math.ceil(float(base_w) / ratio))` (map.py 855-856). -/
def ceilDiv (w r : Nat) : Nat := (w + r - 1) / r

/-- A coarser raster (map.py 853-866). -/
def coarser (g : Grid) (r : Nat) : Grid where
  m := ceilDiv g.m r
  n := ceilDiv g.n r
  data := (List.range (ceilDiv g.m r * ceilDiv g.n r)).map
    (fun (k : Nat) => coarseCell g r (k / ceilDiv g.n r) (k % ceilDiv g.n r))
  size_eq := by simp

/-- Result of the march over the layers: `none` for a read outside of the
memory. -/
inductive LRes where
  | miss
  | hit (px py hx hy : Int)
  | bad
  deriving DecidableEq, Repr

/-- The march at one layer, in that layer's pixels
(cy_land_check.pyx 336-352). -/
def layerFind (g : Grid) (p q : Int × Int) : Res :=
  findFirst g (enough p q) p.1 p.2 q.1 q.2

/-- The `while True` loop over the layers (cy_land_check.pyx 336-374): `rs`
are the ratios of the coarser layers, in order; the finest layer, of ratio 1,
is the raster itself (map.py 868, 886-895). -/
def layersFind (g : Grid) (p q : Int × Int) : List Nat → LRes
  | [] =>
    match layerFind g (coarse 1 p) (coarse 1 q) with
    | .hit px py hx hy => .hit px py hx hy
    | .miss => .miss
    | _ => .bad
  | r :: rs =>
    match layerFind (coarser g r) (coarse r p) (coarse r q) with
    | .hit _ _ _ _ => layersFind g p q rs
    | .miss => .miss
    | _ => .bad

/-- Body of the loop of `check_land_layers` (cy_land_check.pyx 328-374). -/
def checkLayersOne (g : Grid) (rs : List Nat) (e : El) : Option El :=
  if e.status = onLand then some e
  else
    match layersFind g e.pos e.fin rs with
    | .hit px py hx hy =>
      some { e with lwp := (px, py), fin := (hx, hy), status := onLand }
    | .miss => some { e with pos := e.fin }
    | .bad => none

/-- `check_land_layers` (cy_land_check.pyx 291-380). -/
def checkLandLayers (g : Grid) (rs : List Nat) (es : List El) : Option (List El) :=
  es.mapM (checkLayersOne g rs)

/-- Ratios of the coarser layers chosen for a raster (map.py 886-892, the
last ratio, 1, is the raster itself). -/
def defaultRatios (size : Nat) : List Nat :=
  if size > 16000000 then [128, 32] else if size > 1000000 then [32] else [16]

end Verif.Land
