import Verif.Cache.Model
/-!
# Specification of the cache: the list of saves since the last rewind, newest first

Only the type of operations and of containers is shared with the model.
-/
namespace Verif.Cache.Spec

/-- one call of `save_timestep` -/
structure Save (V M T : Type) where
  n : Int
  c : SC V M T
  u : Option (SC V M T)
  /-- was the disk cache enabled at that moment? -/
  en : Bool

variable {V M T : Type}

def histStep (st : Bool × List (Save V M T)) : Op V M T → Bool × List (Save V M T)
  | .save n c u => (st.1, ⟨n, c, u, st.1⟩ :: st.2)
  | .rewind => (st.1, [])
  | .setEnabled b => (b, st.2)

/-- the saves since the last rewind, newest first, for a cache created with `enabled = en` -/
def hist (en : Bool) (ops : List (Op V M T)) : List (Save V M T) := (ops.foldl histStep (en, [])).2

/-- the most recent save of step `n` -/
def last (H : List (Save V M T)) (n : Int) : Option (Save V M T) := H.find? (fun s => s.n = n)

/-- the most recent uncertain container saved for step `n` -/
def lastU (H : List (Save V M T)) (n : Int) : Option (SC V M T) :=
  H.findSome? (fun s => if s.n = n then s.u else none)

/-- was step `n` the very last one saved? -/
def isNewest (H : List (Save V M T)) (n : Int) : Bool :=
  match H with | [] => false | s :: _ => s.n = n

end Verif.Cache.Spec
