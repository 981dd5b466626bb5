import Mathlib.Algebra.Order.Field.Rat

/-!
# Contours and surface concentration

Source: `py_gnome/gnome/utilities/hull.py` `calculate_contours` (112-178); `py_gnome/gnome/utilities/surface_concentration.py`
`compute_surface_concentration` (14-29), `surface_conc_kde` (32-92).

Simplifications: a contour is the list of elements its hull is drawn around; the kernel density estimator is any function of the
elements it is made from (`none` if it cannot be made: fewer than three different longitudes or latitudes, or LinAlgError); ages
are whole seconds.
-/
namespace Verif.Hull

/-! ## Contours -/

/-- Whether a value belongs to class `i` of the cutoffs (148-160). -/
def inClass (cs : List ℚ) (i : Nat) (x : ℚ) : Bool :=
  if i = 0 then x ≤ cs.getD i 0
  else if i = cs.length - 1 then x ≥ cs.getD (i - 1) 0
  else x ≤ cs.getD i 0 ∧ x ≥ cs.getD (i - 1) 0

/-- An element: its spill and the parameter. -/
structure Item where
  spill : Nat
  value : ℚ
  deriving DecidableEq

/-- A contour: its spill, the number of its cutoff and its elements. -/
structure Contour where
  spill : Nat
  cutoff : Nat
  items : List Item
  deriving DecidableEq

/-- `calculate_contours` (112-178): the cutoffs of each spill. -/
def contours (cuts : List (Nat × List ℚ)) (els : List Item) : List Contour :=
  cuts.flatMap fun sc =>
    (List.range sc.2.length).filterMap fun i =>
      let its := (els.filter fun e => e.spill = sc.1).filter fun e => inClass sc.2 i e.value
      if its = [] then none else some ⟨sc.1, i, its⟩

/-! ## Surface concentration -/

/-- An element. The code does not look at whether it floats. -/
structure El where
  spill : Nat
  age : Nat
  mass : ℚ
  floating : Bool
  pos : ℚ × ℚ
  deriving DecidableEq

/-- An estimator. -/
abbrev Kde := List El → Option (El → ℚ)

/-- `bin_length` (55). -/
def bin : Nat := 3600

/-- One turn of the loop (61-89). -/
def turn (kde : Kde) (els : List El) (t : Nat) (c : List ℚ) : List ℚ :=
  match kde (els.filter fun e => e.age < t + bin) with
  | none => c
  | some k => List.zipWith (fun e x => if t ≤ e.age ∧ e.age < t + bin then k e else x) els c

/-- The loop `while t <= max_age` (60-90). -/
def loop (kde : Kde) (els : List El) (maxAge t : Nat) (c : List ℚ) : List ℚ :=
  if t ≤ maxAge then loop kde els maxAge (t + bin) (turn kde els t c) else c
termination_by maxAge + 1 - t
decreasing_by unfold bin; omega

/-- `age.min()`, `age.max()`. -/
def minAge (els : List El) : Nat := els.foldr (fun e m => min e.age m) ((els.head?.map El.age).getD 0)
def maxAge (els : List El) : Nat := els.foldr (fun e m => max e.age m) 0

/-- The concentration of the elements of one spill (45-90). -/
def spillConc (kde : Kde) (els : List El) : List ℚ :=
  loop kde els (maxAge els) (minAge els) (els.map fun _ => 0)

/-- `a[mask] = c`. -/
def scatter (s : Nat) : List El → List ℚ → List ℚ → List ℚ
  | e :: es, r :: rs, c => if e.spill = s then c.headD r :: scatter s es rs c.tail else r :: scatter s es rs c
  | _, r, _ => r

/-- `surface_conc_kde` (32-92). `np.unique` gives the spills once each. -/
def surfaceConc (kde : Kde) (els : List El) : List ℚ :=
  (els.map El.spill).eraseDups.foldl (fun r s => scatter s els r (spillConc kde (els.filter fun e => e.spill = s)))
    (els.map fun _ => 0)

end Verif.Hull
