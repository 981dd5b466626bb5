import Verif.MapStep.Model
/-
`TideflatMap` around a raster map (maps/tideflat_map.py 27-105), in the same
step as `Model.lean`. The tide flat object is the function `dry` of the step:
its `is_dry` at the model time of the step (108-178; the base class is the
constant false, `SimpleTideflat` a polygon between two times).

`refloat_elements` looks at `next_positions`, which are those of the previous
step; that they are the positions is proved (`PlacedT.still`).
-/
namespace Verif.MapStep

/-- `OILSTAT_ON_TIDEFLAT` (cy_basic_types.pyx 55). -/
def onTideflat : Nat := 32

/-- The part of `TideflatMap.beach_elements` after that of the land map, one
element (tideflat_map.py 65-79). -/
def tideOne (dry : P3 → Bool) (e : Elem) : Elem :=
  if e.status = inWater ∧ dry e.nxt = true then { e with status := onTideflat } else e

/-- `TideflatMap.beach_elements` (59-79). -/
def tideBeach (M : RMap) (dry : P3 → Bool) (sc : SC) : Option SC :=
  (rasterBeach M sc).map (fun s => { s with els := s.els.map (tideOne dry) })

/-- The part of `TideflatMap.refloat_elements` before that of the land map, one
element (91-102). -/
def wetOne (dry : P3 → Bool) (e : Elem) : Elem :=
  if e.status = onTideflat ∧ dry e.nxt = false then { e with status := inWater } else e

/-- `Model.move_elements` (model.py 981-1013) on a `TideflatMap`. -/
def moveT (M : RMap) (dry : P3 → Bool) (p : ℚ) (rs : List ℚ) (deltas : List (Nat → P3)) (sc : SC) : Option SC :=
  let els := (refloat M.hl p (sc.els.map (wetOne dry)) rs).mapIdx (move deltas)
  (tideBeach M dry { sc with els := els }).map
    (fun s => { s with els := s.els.map (fun e => arrive (fateOne (markOne e))) })

/-- What can happen in a run on a `TideflatMap`. -/
inductive OpT where
  | rel (ns : List New)
  | step (dry : P3 → Bool) (p : ℚ) (rs : List ℚ) (deltas : List (Nat → P3)) (loss : Nat → ℚ)

def execT (M : RMap) : OpT → SC → Option SC
  | .rel ns, sc => some (release M ns sc)
  | .step dry p rs ds loss, sc => (moveT M dry p rs ds sc).map (fun s => remove (weather loss s))

/-- A run. -/
def runT (M : RMap) : List OpT → SC → Option SC
  | [], sc => some sc
  | o :: os, sc => (execT M o sc).bind (runT M os)

/-- `SimpleTideflat.is_dry` (tideflat_map.py 162-178), times as integers. -/
def simpleDry (bounds : List Geom.Pt) (start stop t : Int) (q : P3) : Bool :=
  if t < start ∨ t > stop then false else Geom.inPoly bounds q.xy

end Verif.MapStep
