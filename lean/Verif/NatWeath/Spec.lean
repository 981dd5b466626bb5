import Verif.NatWeath.Model

namespace Verif.NatWeath

/-- The mass of an element is the sum of its components, none is negative. -/
def Sound (e : El) : Prop := e.mass = e.comps.sum ∧ ∀ c ∈ e.comps, 0 ≤ c

/-- No component has become larger or negative, and the mass is their sum. -/
def Less (e e' : El) : Prop :=
  List.Forall₂ (fun c c' => 0 ≤ c' ∧ c' ≤ c) e.comps e'.comps ∧ e'.mass = e'.comps.sum

/-- A process that reports the amount `a` has taken it from the elements. -/
def Accounts (els els' : List El) (a : ℝ) : Prop :=
  totalMass els' + a = totalMass els ∧ 0 ≤ a ∧ List.Forall₂ Less els els'

/-- Waves and water as they can be. -/
structure Sea.Real (w : Sea) : Prop where
  height : ∀ p, 0 ≤ w.height p
  energy : ∀ p, 0 ≤ w.energy p
  breaking : ∀ p, 0 ≤ w.breaking p
  viscW : 0 < w.viscW
  rhoW : 0 < w.rhoW
  sediment : 0 ≤ w.sediment

/-- An element as it can be. -/
structure El.Real (e : El) : Prop where
  sound : Sound e
  mass : 0 < e.mass
  area : 0 ≤ e.area
  density : 0 < e.density
  water : 0 ≤ e.fracWater ∧ e.fracWater ≤ 1
  droplet : 0 ≤ e.droplet

/-- A pseudocomponent as it can be. -/
structure Comp.Real (p : Comp) : Prop where
  vp : 0 ≤ p.vp
  mw : 0 < p.mw
  rho : 0 < p.rho
  K : 0 ≤ p.K

end Verif.NatWeath
