import Verif.Mover.MoveModel

/-!
# What the moves of a step should be

Stated about lists of elements and of moves alone.
-/

namespace Verif.Mover

/-- The status code of elements floating in the water. -/
def floating (e : LE) : Prop := e.status = 2

/-- One move for every element, and none for the elements that `P` picks. -/
def Still (P : LE → Prop) (els : List LE) (ds : List V) : Prop :=
  ds.length = els.length ∧ ∀ (i : Nat) e, els[i]? = some e → P e → ds[i]? = some (0, 0, 0)

/-- The elements that `P` picks are where they were. -/
def SamePlace (P : LE → Prop) (els : List LE) (ps : List V) : Prop :=
  ps.length = els.length ∧ ∀ (i : Nat) e, els[i]? = some e → P e → ps[i]? = some e.pos

/-- The element is below the surface. -/
def submerged (e : LE) : Prop := 0 < e.pos.2.2

/-- Horizontal part of the scalar product, horizontal cross product and horizontal length. -/
def dot (a b : V) : ℝ := a.1 * b.1 + a.2.1 * b.2.1

def cross (a b : V) : ℝ := a.1 * b.2.1 - a.2.1 * b.1

noncomputable def len (a : V) : ℝ := √(a.1 ^ 2 + a.2.1 ^ 2)

end Verif.Mover
