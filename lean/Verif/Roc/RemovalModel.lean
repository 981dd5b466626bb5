import Verif.Fate.Model
/-!
# Model of the removal of oil by the responses of ROC

Source: `/repo/py_gnome/gnome/weatherers/roc.py` `_remove_mass_simple` 147-155, `Burn.weather_elements` 1989-2048,
`Skim.weather_elements` 2413-2455. Numbers are rationals. One substance. The masses of a view are those of `Verif.FateView`.
-/
namespace Verif.Roc.Removal

/-- the masses of the components, one list for each element -/
abbrev Comps := List (List ℚ)

/-- `data['mass']`, the sum of the components of each element -/
def masses (m : Comps) : List ℚ := m.map List.sum

/-- `rm_mass_frac` 149, for a total that is not 0 -/
def frac (total amount : ℚ) : ℚ := min (amount / total) 1

/-- `_remove_mass_simple` 147-155: the components afterwards and the amount removed -/
def remove (m : Comps) (amount : ℚ) : Comps × ℚ :=
  let total := (masses m).sum
  let m' := m.map (fun e => e.map (fun x => (1 - frac total amount) * x))
  (m', total - (masses m').sum)

/-! ## the mass balance -/

/-- what `mass_balance['systems'][id]` says about a burn -/
structure Sys where
  boomed : ℚ := 0
  burned : ℚ := 0
deriving DecidableEq

/-- `mass_balance` -/
structure Bal where
  boomed : ℚ := 0
  burned : ℚ := 0
  sys : Nat → Sys := fun _ => {}

/-- a call of `weather_elements` of an active burn with oil in the view: who, the masses of the oil it wants to collect and has burned -/
structure Call where
  id : Nat
  collected : ℚ
  burned : ℚ

def setSys (b : Bal) (i : Nat) (s : Sys) : Nat → Sys := fun j => if j = i then s else b.sys j

/-- 2013-2020: collecting -/
def book (b : Bal) (i : Nat) (actual : ℚ) : Bal :=
  { boomed := b.boomed + actual, burned := b.burned, sys := setSys b i { (b.sys i) with boomed := (b.sys i).boomed + actual } }

/-- 2031-2045: burning -/
def bookBurn (b : Bal) (i : Nat) (burned : ℚ) : Bal :=
  let b : Bal := { boomed := b.boomed - burned, burned := b.burned + burned,
                   sys := setSys b i { (b.sys i) with burned := (b.sys i).burned + burned } }
  if b.boomed < 0 then
    { boomed := 0, burned := b.burned + b.boomed, sys := setSys b i { (b.sys i) with burned := (b.sys i).burned + b.boomed } }
  else b

/-- `Burn.weather_elements` 2005-2045 -/
def weather (b : Bal) (m : Comps) (k : Call) : Bal × Comps :=
  let r : Bal × Comps := if 0 < k.collected then
      let out := remove m k.collected
      (book b k.id out.2, out.1)
    else (b, m)
  (if 0 < k.burned then bookBurn r.1 k.id k.burned else r.1, r.2)

/-- the calls of a run, one after the other -/
def run : Bal → Comps → List Call → Bal × Comps
  | b, m, [] => (b, m)
  | b, m, k :: ks => run (weather b m k).1 (weather b m k).2 ks

/-- the capacity of the boom after the call, 2022-2024: in cubic feet before, the difference in kilograms -/
def refund (cap collected actual : ℚ) : ℚ := if actual ≠ collected then cap + (collected - actual) else cap

/-! ## the view -/

open Verif.FateView

/-- what a response does to the elements 1998-2011: gets the floating ones, replaces the masses in what it got, and does not write back
(one component) -/
def respond (s : St) (names : List String) (amount : ℚ) : St × ℚ :=
  let s1 := (Verif.FateView.get s names .surface).1
  let m : Col := match s1.views .surface with
    | .alias => col s1.arrays.get? "mass"
    | .own d => col d.get? "mass"
  let out := remove (m.map (fun x => [x])) amount
  (modify s1 .surface "mass" (masses out.1), out.2)

end Verif.Roc.Removal
