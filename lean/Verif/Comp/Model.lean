import Verif.Py

/-!
# Composition of a model: collections, callbacks, rewinding

Model of `gnome/model.py`: constructor 250-334, `_register_callbacks` 340-355, `rewind` 398-419, `_add_to_environ_collec`
1337-1371, the callbacks 1373-1395, and the parts of `step` 1159-1226 and `setup_model_run` 797-938 that prepare the spills.

Simplifications: objects are identified with their ids; an ordered collection is the list of its members (that it behaves
like this is C01–C04); what a step computes is left out; the uncertain copies of the spills are left out.
-/

namespace Verif.Comp
open Verif.Py

/-- The environment objects an object refers to: the attributes `wind`, `tide`, `waves`, `water`, `current` that exist and are
not None, in this order (1352-1371).  Only finitely many objects exist: others have no attributes. -/
abbrev Heap := Dict Nat (List Nat)

/-- The referred objects of `x`. -/
def refs (h : Heap) (x : Nat) : List Nat := (h.get? x).getD []

/-- Number of objects with attributes that are not in the environment (to show termination). -/
def missing (h : Heap) (env : List Nat) : Nat := (h.filter (fun p => !env.contains p.1)).length

theorem missing_snoc_le (h : Heap) (env : List Nat) (x : Nat) : missing h (env ++ [x]) ≤ missing h env := by
  unfold missing
  induction h with
  | nil => exact Nat.le_refl _
  | cons p h ih =>
    by_cases hp : p.1 ∈ env
    · simp [hp] at ih ⊢; exact ih
    · by_cases hx : p.1 = x
      · simp [hx] at ih ⊢
        subst hx; simp [hp]; omega
      · simp [hp, hx] at ih ⊢; exact ih

theorem missing_snoc_lt (h : Heap) (env : List Nat) (x : Nat) (hx : x ∉ env) (hh : refs h x ≠ []) :
    missing h (env ++ [x]) < missing h env := by
  induction h with
  | nil => exact absurd rfl hh
  | cons p h ih =>
    by_cases hp : p.1 = x
    · have := missing_snoc_le h env x
      unfold missing at *
      subst hp
      simp [hx] at this ⊢
      omega
    · have hr : refs h x ≠ [] := by
        unfold refs at hh ⊢
        rw [Dict.get?_cons, if_neg hp] at hh
        exact hh
      have := ih hr
      unfold missing at *
      by_cases hq : p.1 ∈ env
      · simp [hq] at this ⊢; exact this
      · simp [hq, hp] at this ⊢; exact this

/-- `_add_to_environ_collec` 1337-1371 for the attributes in `work`: an object that is not in the environment is added, which
fires the callback of the environment (1384-1392) that adds *its* attributes, before the next attribute is looked at. -/
def collect (h : Heap) (env : List Nat) : List Nat → List Nat
  | [] => env
  | x :: work =>
    if _hx : x ∈ env then collect h env work
    else
      if _hr : refs h x = [] then collect h (env ++ [x]) work
      else collect h (env ++ [x]) (refs h x ++ work)
termination_by work => (missing h env, work.length)
decreasing_by
  · apply Prod.Lex.right; simp
  · rcases Nat.lt_or_eq_of_le (missing_snoc_le h env x) with hl | he
    · exact Prod.Lex.left _ _ hl
    · rw [he]; apply Prod.Lex.right; simp
  · exact Prod.Lex.left _ _ (missing_snoc_lt h env x _hx _hr)

/-- The members of the collections, the spills whose release is prepared, and `_current_time_step`. -/
structure St where
  movers : List Nat
  weatherers : List Nat
  env : List Nat
  outputters : List Nat
  spills : List Nat
  prepared : List Nat
  n : Int
deriving DecidableEq

/-- `rewind` 398-419: the counter and, through `spills.rewind`, the releases (release.py 670-674). -/
def rewind (s : St) : St := { s with n := -1, prepared := [] }

/-- The constructor 250-334: the collections are filled *before* the callbacks are registered. -/
def init (env movers weatherers outputters spills : List Nat) : St :=
  { movers, weatherers, env, outputters, spills, prepared := [], n := -1 }

/-- Replacing a member. -/
def repl (l : List Nat) (old new : Nat) : List Nat := l.map (fun x => if x = old then new else x)

/-- What a user can do to the collections, and running a step. -/
inductive Op where
  | addMover (x : Nat) | replMover (old new : Nat) | rmMover (x : Nat)
  | addWeatherer (x : Nat) | replWeatherer (old new : Nat) | rmWeatherer (x : Nat)
  | addEnv (x : Nat) | replEnv (old new : Nat) | rmEnv (x : Nat)
  | addOutputter (x : Nat)
  | addSpill (x : Nat) | rmSpill (x : Nat)
  | setMap | setStart | setStep
  | step
deriving DecidableEq

/-- The effect of an operation; adding a member that is there and removing or replacing one that is not there (an exception)
change nothing and fire no event. -/
def apply (h : Heap) (s : St) : Op → St
  | .addMover x => if x ∈ s.movers then s else
      rewind { s with movers := s.movers ++ [x], env := collect h s.env (refs h x) }
  | .replMover a b => if a ∈ s.movers then
      rewind { s with movers := repl s.movers a b, env := collect h s.env (refs h b) } else s
  | .rmMover x => if x ∈ s.movers then rewind { s with movers := s.movers.erase x } else s
  | .addWeatherer x => if x ∈ s.weatherers then s else
      rewind { s with weatherers := s.weatherers ++ [x], env := collect h s.env (refs h x) }
  | .replWeatherer a b => if a ∈ s.weatherers then
      rewind { s with weatherers := repl s.weatherers a b, env := collect h s.env (refs h b) } else s
  | .rmWeatherer x => { s with weatherers := s.weatherers.erase x }
  | .addEnv x => if x ∈ s.env then s else rewind { s with env := collect h (s.env ++ [x]) (refs h x) }
  | .replEnv a b => if a ∈ s.env then rewind { s with env := collect h (repl s.env a b) (refs h b) } else s
  | .rmEnv x => { s with env := s.env.erase x }
  | .addOutputter x => if x ∈ s.outputters then s else { s with outputters := s.outputters ++ [x] }
  | .addSpill x => if x ∈ s.spills then s else { s with spills := s.spills ++ [x] }
  | .rmSpill x => { s with spills := s.spills.erase x }
  | .setMap => rewind s
  | .setStart => rewind s
  | .setStep => rewind s
  | .step => if s.n = -1 then { s with prepared := s.spills, n := 0 } else { s with n := s.n + 1 }

/-- A history. -/
def run (h : Heap) (s : St) (ops : List Op) : St := ops.foldl (apply h) s

/-- `num_elements_after_time` (release.py 404-415): a release that is not prepared has no elements, whatever the time. -/
def due (s : St) (spill : Nat) (numDue : Int) : Int := if spill ∈ s.prepared then numDue else 0

end Verif.Comp
