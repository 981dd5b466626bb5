import Mathlib.Analysis.Calculus.Deriv.Basic
import Verif.Spread.Model

/-!
Specifications for spreading: what other parts of a run may do to an element,
runs, the laws of spreading as functions of time.
-/

namespace Verif.Spread

/-- What the rest of a run leaves alone in an element: its spill, the mass it
was released with and the data of spreading. Density, mass, age, position, fate
and the area after Langmuir can change in any way. -/
structure Same (e e' : El) : Prop where
  spill : e'.spill = e.spill
  init : e'.init = e.init
  bulk : e'.bulk = e.bulk
  frac : e'.frac = e.frac
  fay : e'.fay = e.fay

/-- Elements as they come to be released: with a volume. -/
def Fresh (e : El) : Prop := 0 < e.init ∧ 0 < e.dens

/-- A step of a run, for oil with relative buoyancy `rb` and thickness limit
`lim`: a release, a step of spreading, Langmuir, or anything else. -/
inductive Step (rb lim : ℝ) : List El → List El → Prop where
  | release (cont within : Bool) (nu prev : ℝ) (new els : List El) :
      0 < nu → 0 ≤ prev → (∀ e ∈ new, Fresh e) →
      Step rb lim els (els ++ (release cont within nu rb lim prev new).2)
  | spread (dt : ℝ) (els els' : List El) : 0 ≤ dt → fayStep rb lim dt els = some els' →
      Step rb lim els els'
  | langmuir (rho : ℝ) (wind : ℝ × ℝ → ℝ) (els : List El) : Step rb lim els (langmuir rho wind els)
  | other (els els' : List El) : List.Forall₂ Same els els' → Step rb lim els els'

/-- Any number of steps. -/
inductive Run (rb lim : ℝ) : List El → List El → Prop where
  | refl (els : List El) : Run rb lim els els
  | step (a b c : List El) : Run rb lim a b → Step rb lim b c → Run rb lim a c

/-- The density of no element of the first list is larger in the second. -/
def DensOk (a b : List El) : Prop :=
  ∀ (i : Nat) (e e' : El), a[i]? = some e → b[i]? = some e' → 0 < e'.dens ∧ e'.dens ≤ e.dens

/-- A run in which the density of an element never rises. -/
inductive LightRun (rb lim : ℝ) : List El → List El → Prop where
  | refl (els : List El) : LightRun rb lim els els
  | step (a b c : List El) : LightRun rb lim a b → Step rb lim b c → DensOk b c →
      LightRun rb lim a c

/-- Fay's gravity-viscous law: the area of a blob after a time. -/
noncomputable def fayLaw (C t : ℝ) : ℝ := C * √t

/-- The diffusive law: the area of a blob after a time. -/
noncomputable def diffLaw (K t : ℝ) : ℝ := K * t ^ (7 / 6 : ℝ)

/-- The initial area of a blob of volume `V` by Fay's law, on water of
viscosity `nu`: `PI*(k2**4/k1**2)*((V0**5*g*dbuoy)/(nu_h2o**2))**(1./6.)`, as
in the documentation of `init_area`, limited by the thickness. -/
noncomputable def docArea (nu rb V lim : ℝ) : ℝ :=
  min (Real.pi * (1.21 ^ 4 / 1.53 ^ 2) * ((V ^ 5 * 9.80665 * rb) / nu ^ 2) ^ (1 / 6 : ℝ)) (V / lim)

end Verif.Spread
