import Verif.Mover.MoveModel

/-!
# Windage

Model of `random_with_persistance` (`gnome/utilities/rand.py` 44-115), of `InitWindages.initialize`
(`gnome/spills/initializers.py` 121-136) and of the use of both by the wind movers (`gnome/movers/c_wind_movers.py` 146-151,
`gnome/movers/py_wind_movers.py` 182-186).

Simplifications: exact real arithmetic; the generator delivers the numbers in `[0, 1]` given as arguments; the three arrays have the
same length because they are columns of the elements.
-/

namespace Verif.Mover

/-- The data of an element: `windage_range`, `windage_persist`, `windages`. -/
structure Wd where
  lo : ℝ
  hi : ℝ
  persist : Int
  windage : ℝ

/-- `u_mask` (rand.py 91). -/
def Wd.updated (w : Wd) : Prop := 0 < w.persist ∧ w.persist ≤ 900

instance (w : Wd) : Decidable w.updated := by unfold Wd.updated; infer_instance

/-- The bounds after rescaling (rand.py 103-111). -/
noncomputable def Wd.scaled (w : Wd) (dt : ℝ) : ℝ × ℝ :=
  let range := (w.hi - w.lo) * √(w.persist / |dt|)
  let mean := (w.hi + w.lo) / 2
  (mean - range / 2, mean + range / 2)

/-- `random_with_persistance` with persistence given (rand.py 68-74, 90-115); `none` for `ValueError`. -/
noncomputable def redraw (dt : ℝ) (r : Nat → ℝ) (ws : List Wd) : Option (List Wd) :=
  haveI := Classical.propDecidable
  if ∃ w ∈ ws, w.hi < w.lo then none
  else
    let same := ∀ w ∈ ws, w.lo = w.hi
    let rescale := ∃ w ∈ ws, w.updated ∧ (w.persist : ℝ) ≠ |dt|
    some (ws.mapIdx fun i w =>
      let old := if same then w.lo else w.windage
      let b := if rescale then w.scaled dt else (w.lo, w.hi)
      { w with windage := if w.updated then uniform b.1 b.2 (r i) else old })

/-- `random_with_persistance` without persistence, as `InitWindages` calls it (rand.py 68-81). -/
noncomputable def draw (r : Nat → ℝ) (ws : List Wd) : Option (List Wd) :=
  haveI := Classical.propDecidable
  if ∃ w ∈ ws, w.hi < w.lo then none
  else some (ws.mapIdx fun i w => { w with windage := uniform w.lo w.hi (r i) })

/-- `InitWindages.initialize` for new elements (initializers.py 129-136). -/
noncomputable def initWindages (lo hi : ℝ) (persist : Int) (r : Nat → ℝ) (n : Nat) : Option (List Wd) :=
  draw r (List.replicate n ⟨lo, hi, persist, 0⟩)

/-- What a step does to the windages: the release of elements, and a call of a wind mover with its step. -/
inductive WdOp where
  | release (lo hi : ℝ) (persist : Int) (r : Nat → ℝ) (n : Nat)
  | step (dt : ℝ) (r : Nat → ℝ)

/-- One operation; with no elements released nothing is drawn (c_wind_movers.py 143-144). -/
noncomputable def wdStep (ws : List Wd) : WdOp → Option (List Wd)
  | .release lo hi persist r n => (initWindages lo hi persist r n).map (ws ++ ·)
  | .step dt r => if ws = [] then some ws else redraw dt r ws

/-- A run. -/
noncomputable def wdRun : List Wd → List WdOp → Option (List Wd)
  | ws, [] => some ws
  | ws, op :: ops => (wdStep ws op).bind fun ws' => wdRun ws' ops

end Verif.Mover
