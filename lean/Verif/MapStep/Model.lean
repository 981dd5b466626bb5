import Verif.Land.Model
import Verif.Geom.ProjModel
/-
Model of one step of moving elements on a map: releasing, refloating, moving,
beaching, leaving the map, weathering, removal.

Source (under /repo/py_gnome/gnome): model.py 981-1041 (`move_elements`,
`_update_fate_status`), 1106-1136 (`step_is_done`), 1237-1268
(`release_elements`); maps/map.py 389-460 (GnomeMap), 590-690 (ParamMap),
960-1154 (RasterMap); cy_gnome/cy_land_check.pyx 291-425; array_types.py
232-245 (initial values); spill_container.py 971-988.

Simplifications: exact arithmetic, `0.5 ** (time_step / halflife)` enters as
the refloat probability `p`; random numbers are a given list; a mover is the
array it returns (a function of the element's index); weathering is a given
loss per element of the view 'surface_weather'; one spill container.
-/
namespace Verif.MapStep
open Verif.Land (Grid checkLayersOne)
open Verif.Geom (Pt Proj inPoly)

/-- A row of a position array: longitude, latitude, depth. -/
structure P3 where
  x : ℚ
  y : ℚ
  z : ℚ
  deriving DecidableEq

/-- Longitude and latitude of a position. -/
def P3.xy (p : P3) : Pt := ⟨p.x, p.y⟩

/-- Position with another longitude and latitude (`a[mask, :2] = ...`). -/
def P3.setXY (p : P3) (q : Pt) : P3 := ⟨q.x, q.y, p.z⟩

def P3.add (p q : P3) : P3 := ⟨p.x + q.x, p.y + q.y, p.z + q.z⟩

def P3.zero : P3 := ⟨0, 0, 0⟩

/-- `oil_status` codes (cy_basic_types.pyx 49-55). -/
def inWater : Nat := 2
def onLand : Nat := 3
def offMaps : Nat := 7
def toBeRemoved : Nat := 12

/-- `fate` flags (basic_types.py 89-100). -/
def nonWeather : Nat := 1
def surfaceWeather : Nat := 2
def subsurfWeather : Nat := 4

/-- An element: `positions`, `next_positions`, `last_water_positions`,
`status_codes`, `mass`, `fate_status`, and whether its spill has a
non-weathering substance. -/
structure Elem where
  pos : P3
  nxt : P3
  lwp : P3
  status : Nat
  mass : ℚ
  fate : Nat
  nw : Bool
  deriving DecidableEq

/-- A raster map: raster, ratios of the coarser layers, projection, map
bounds, refloat half-life (map.py 782-833). -/
structure RMap where
  grid : Grid
  ratios : List Nat
  proj : Proj
  bounds : List Pt
  hl : ℚ

/-- The pixel of a position, `projection.to_pixel(.., asint=True)`. -/
def RMap.pixel (M : RMap) (p : P3) : Int × Int := M.proj.toPixelInt p.xy

/-- `on_map` (map.py 304-322). -/
def onMap (bounds : List Pt) (p : P3) : Bool := inPoly bounds p.xy

/-- A spill container: elements and the entries of `mass_balance` in use. -/
structure SC where
  els : List Elem
  beached : ℚ
  offMap : ℚ
  lost : ℚ
  released : ℚ

/-- Sum of the masses of the elements with a status. -/
def massOf (st : Nat) (es : List Elem) : ℚ := ((es.filter (fun e => e.status = st)).map Elem.mass).sum

/-! ### releasing -/

/-- `_on_land_pixel_array` for one pixel (map.py 978-997): inside of the raster
and equal to 1. -/
def landPoint (g : Grid) (c : Int × Int) : Bool :=
  !(decide (c.1 < 0) || decide (c.2 < 0) || decide (c.1 ≥ g.m) || decide (c.2 ≥ g.n)) &&
    decide (g.data.getD (c.1.toNat * g.n + c.2.toNat) 0 = 1)

/-- What is released: position, mass, fate set by the spill's initialisers,
substance. -/
structure New where
  pos : P3
  mass : ℚ
  fate : Nat
  nw : Bool

/-- A new element: the other arrays have their initial values (array_types.py
232-245); those already on land are marked so (model.py 1254-1258). -/
def mkElem (M : RMap) (n : New) : Elem :=
  { pos := n.pos, nxt := .zero, lwp := .zero,
    status := if landPoint M.grid (M.pixel n.pos) then onLand else inWater,
    mass := n.mass, fate := n.fate, nw := n.nw }

/-- `Model.release_elements` with `aggregate` (model.py 1237-1268,
aggregated_data.py 38-44). -/
def release (M : RMap) (ns : List New) (sc : SC) : SC :=
  { sc with els := sc.els ++ ns.map (mkElem M), released := sc.released + (ns.map New.mass).sum }

/-! ### refloating -/

/-- Whether an element on land with random number `r` refloats (map.py
1127-1146). -/
def refloats (hl p r : ℚ) : Bool :=
  if hl > 0 then decide (r ≤ p) else if hl < 0 then false else true

/-- Assignment to a refloated element (map.py 1148-1154). -/
def float (e : Elem) : Elem := { e with pos := e.lwp, status := inWater }

/-- `refloat_elements` (map.py 1116-1154): the elements on land get the random
numbers in their order. -/
def refloat (hl p : ℚ) : List Elem → List ℚ → List Elem
  | [], _ => []
  | e :: es, rs =>
    if e.status = onLand then
      (if refloats hl p (rs.headD 1) then float e else e) :: refloat hl p es rs.tail
    else e :: refloat hl p es rs

/-! ### moving -/

/-- `next_positions[:] = positions`, then `+= delta` of every mover (model.py
996-1001), for the element of index `i`. All movers give zero for elements that
are not in water (movers/py_current_movers.py 199, py_wind_movers.py 433,
random_movers.py 151, simple_mover.py 114-121, lib_gnome/WindMover_c.cpp 563,
CATSMover_c.cpp 359, Random_c.cpp 87 and the like). -/
def move (deltas : List (Nat → P3)) (i : Nat) (e : Elem) : Elem :=
  { e with nxt := deltas.foldl (fun a d => a.add (if e.status = inWater then d i else .zero)) e.pos }

/-! ### beaching -/

/-- `resurface_airborne_elements` (map.py 441-460). -/
def resurface (e : Elem) : Elem := { e with nxt := { e.nxt with z := max e.nxt.z 0 } }

/-- `_set_off_map_status` (map.py 389-410), the statuses. -/
def offOne (bounds : List Pt) (e : Elem) : Elem :=
  if onMap bounds e.nxt then e else { e with status := offMaps }

/-- `_set_off_map_status` with the mass balance (map.py 405-410). -/
def setOff (bounds : List Pt) (sc : SC) : SC :=
  let els := sc.els.map (offOne bounds)
  { sc with els := els, beached := massOf onLand els, offMap := sc.offMap + massOf offMaps els }

/-- `GnomeMap.beach_elements` (map.py 412-434). -/
def gnomeBeach (bounds : List Pt) (sc : SC) : SC :=
  setOff bounds { sc with els := sc.els.map resurface }

/-- One element in `RasterMap.beach_elements` before the map bounds are looked
at (map.py 1065-1101). `none`: the raster's memory was left (it is not, see
`beachOne_some`). -/
def beachOne (M : RMap) (e0 : Elem) : Option Elem :=
  let e := resurface e0
  match checkLayersOne M.grid M.ratios ⟨M.pixel e.pos, M.pixel e.nxt, e.status, M.pixel e.lwp⟩ with
  | none => none
  | some c =>
    let e1 := if c.status = onLand then
        { e with status := c.status
                 nxt := e.nxt.setXY (M.proj.toLonLatInt c.fin.1 c.fin.2)
                 lwp := e.lwp.setXY (M.proj.toLonLatInt c.lwp.1 c.lwp.2) }
      else { e with status := c.status }
    some (if M.hl = 0 ∧ c.status = onLand then
        { e1 with nxt := e1.nxt.setXY e1.lwp.xy, status := inWater }
      else e1)

/-- `RasterMap.beach_elements` (map.py 1048-1114). -/
def rasterBeach (M : RMap) (sc : SC) : Option SC :=
  match sc.els.mapM (beachOne M) with
  | none => none
  | some els => some (setOff M.bounds { sc with els := els })

/-! ### the end of `move_elements` -/

/-- Off-map elements are marked for removal (model.py 1005-1006). -/
def markOne (e : Elem) : Elem := if e.status = offMaps then { e with status := toBeRemoved } else e

/-- `_update_fate_status` (model.py 1023-1041), one element: on land; then in
water and not marked for a response, by the depth in `positions`; then the
substance. -/
def fateOne (e : Elem) : Elem :=
  let f1 := if e.status = onLand then nonWeather else e.fate
  let w := e.status = inWater ∧ ¬ (f1 &&& 8 = 8) ∧ ¬ (f1 &&& 16 = 16) ∧ ¬ (f1 &&& 32 = 32)
  let f2 := if w ∧ e.pos.z = 0 then surfaceWeather else f1
  let f3 := if w ∧ e.pos.z > 0 then subsurfWeather else f2
  { e with fate := if e.nw then nonWeather else f3 }

/-- `positions[:] = next_positions` (model.py 1013). -/
def arrive (e : Elem) : Elem := { e with pos := e.nxt }

/-- `Model.move_elements` on a raster map (model.py 981-1013). -/
def moveElements (M : RMap) (p : ℚ) (rs : List ℚ) (deltas : List (Nat → P3)) (sc : SC) : Option SC :=
  let els := (refloat M.hl p sc.els rs).mapIdx (move deltas)
  match rasterBeach M { sc with els := els } with
  | none => none
  | some sc' => some { sc' with els := sc'.els.map (fun e => arrive (fateOne (markOne e))) }

/-- The same on a map without land (refloating does nothing, map.py 430-440). -/
def moveGnome (bounds : List Pt) (deltas : List (Nat → P3)) (sc : SC) : SC :=
  let sc' := gnomeBeach bounds { sc with els := sc.els.mapIdx (move deltas) }
  { sc' with els := sc'.els.map (fun e => arrive (fateOne (markOne e))) }

/-! ### weathering and removal -/

/-- In the view 'surface_weather' (spill_container.py 42-53): the flag and a
positive mass; the status is not looked at. -/
def weathers (e : Elem) : Bool := (e.fate &&& surfaceWeather == surfaceWeather) && decide (e.mass > 0)

/-- A weatherer: every element of the view loses `loss i`, which is added to
the weatherer's entry of the mass balance (evaporation.py 213-245). -/
def weather (loss : Nat → ℚ) (sc : SC) : SC :=
  { sc with
    els := sc.els.mapIdx (fun i e => if weathers e then { e with mass := e.mass - loss i } else e)
    lost := sc.lost + (sc.els.mapIdx (fun i e => if weathers e then loss i else 0)).sum }

/-- `SpillContainer.model_step_is_done` (spill_container.py 971-988). -/
def remove (sc : SC) : SC := { sc with els := sc.els.filter (fun e => e.status ≠ toBeRemoved) }

/-- Moving, weathering, removal: one model step without its releases
(model.py 1208-1211). -/
def stepR (M : RMap) (p : ℚ) (rs : List ℚ) (deltas : List (Nat → P3)) (loss : Nat → ℚ) (sc : SC) :
    Option SC :=
  (moveElements M p rs deltas sc).map (fun s => remove (weather loss s))

/-- What can happen in a run. -/
inductive Op where
  | rel (ns : List New)
  | step (p : ℚ) (rs : List ℚ) (deltas : List (Nat → P3)) (loss : Nat → ℚ)

def exec (M : RMap) : Op → SC → Option SC
  | .rel ns, sc => some (release M ns sc)
  | .step p rs ds loss, sc => stepR M p rs ds loss sc

/-- A run. -/
def run (M : RMap) : List Op → SC → Option SC
  | [], sc => some sc
  | o :: os, sc => (exec M o sc).bind (run M os)

/-- The empty container at the start of a run (spill_container.py 846-847). -/
def SC.empty : SC := ⟨[], 0, 0, 0, 0⟩

/-! ### ParamMap -/

/-- `move_particles` for one element (cy_land_check.pyx 396-425), with the
land rectangle `land` (its first two points are the shoreline). `none`:
ValueError, the move is parallel to the shoreline. -/
def moveParticle (a b : Pt) (land : List Pt) (e : Elem) : Option Elem :=
  if e.status = onLand then some e
  else if inPoly land e.nxt.xy then
    let b1 := e.nxt.x - e.pos.x
    let b2 := e.nxt.y - e.pos.y
    let den := (b.x - a.x) * b2 - b1 * (b.y - a.y)
    if den = 0 then none
    else
      let u := (b1 * (a.y - e.pos.y) - b2 * (a.x - e.pos.x)) / den
      let x := a.x + u * (b.x - a.x)
      let y := a.y + u * (b.y - a.y)
      some { e with nxt := e.nxt.setXY ⟨x, y⟩
                    lwp := e.lwp.setXY ⟨e.pos.x + (x - e.pos.x) / 10, e.pos.y + (y - e.pos.y) / 10⟩
                    status := onLand }
  else some { e with pos := e.pos.setXY e.nxt.xy }

/-- `ParamMap.beach_elements` (map.py 649-685): the off-map status is set
before and after the land check, and the masses are added once more. -/
def paramBeach (a b : Pt) (land bounds : List Pt) (sc : SC) : Option SC :=
  let s1 := setOff bounds { sc with els := sc.els.map resurface }
  match s1.els.mapM (moveParticle a b land) with
  | none => none
  | some els =>
    let s2 := setOff bounds { s1 with els := els }
    some { s2 with beached := massOf onLand s2.els, offMap := s2.offMap + massOf offMaps s2.els }

end Verif.MapStep
