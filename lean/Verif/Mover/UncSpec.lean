import Verif.Mover.UncModel

/-!
# Uncertain elements and their draws: what is asked for

Independent of how the list is kept: statements about the rows applied to the elements in the steps of a run.
-/

namespace Verif.Mover

variable {D : Type}

/-- C97: an element keeps the numbers drawn for it until they are `dur` seconds old.  In two steps of a run, the later one less
than `dur` after the draw in force at the earlier one, the same row is applied to the same element. -/
def Keeps (dur : Rat) (rows : List (Row D)) : Prop :=
  rows.Pairwise (fun q r => ∀ e d d', (e, d) ∈ q.tab → (e, d') ∈ r.tab → r.elapsed < q.setAt + dur → d' = d)

/-- C97: the numbers applied have been drawn less than `dur` seconds ago, or just now. -/
def Young (dur : Rat) (rows : List (Row D)) : Prop :=
  ∀ r ∈ rows, r.tab ≠ [] → r.setAt ≤ r.elapsed ∧ (r.elapsed < r.setAt + dur ∨ r.setAt = r.elapsed)

/-- C97: each element has at most one row, and only elements of the step have one. -/
def OneEach (rows : List (Row D)) : Prop :=
  ∀ r ∈ rows, (r.tab.map Prod.fst).Nodup ∧ ∀ p ∈ r.tab, p.1 ∈ r.elems

/-- C98: uncertainty applies, in the steps in which the mover is active, to every element from `delay` seconds after the start
of the model on, and to none before. -/
def Delayed (delay dt : Rat) (ins : List (In D)) (rows : List (Row D)) : Prop :=
  ∀ (j : Nat) i r, ins[j]? = some i → rows[j]? = some r → i.active = true → r.elems ≠ [] →
    if delay ≤ |(j : Rat) * dt| then r.tab.map Prod.fst = r.elems else r.tab = []

end Verif.Mover
