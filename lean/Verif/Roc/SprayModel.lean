import Mathlib.Data.Rat.Defs
import Mathlib.Data.Rat.Floor
import Mathlib.Algebra.Order.Field.Rat
/-!
# Model of what dispersant does to the oil (ROC)

Source: `/repo/py_gnome/gnome/weatherers/roc.py`: `_remove_mass_indices` 168-183, the tables `wind_eff_list` and `visc_eff_table` 641-676,
`get_disp_eff` 848-863, `dispersable_oil_idxs` 1553-1563, `weather_elements` 1579-1633 of `Disperse`. Numbers are rationals, viscosities in m²/s,
wind speeds (at least 0) in m/s, masses in kg. An exception is `none`. Left out: the entries of `mass_balance['systems']` other than 'dispersed' (see
`Roc/PlaneModel` for those), and the messages.
-/
namespace Verif.Roc.Spray

/-- an element: `viscosity`, whether `fate_status` is `bt_fate.disperse`, `mass`, `mass_components` -/
structure El where
  visc : ℚ
  gone : Bool
  mass : ℚ
  comps : List ℚ
deriving DecidableEq

/-- `mass_balance['chem_dispersed']`, `['floating']` and `['systems'][id]['dispersed']` -/
structure Bal where
  chem : ℚ
  floating : ℚ
  mine : ℚ
deriving DecidableEq

/-- `wind_eff_list` 642-646: efficacy in percent at 0, 1, ... m/s -/
def windTable : List ℚ :=
  [15, 30, 45, 60, 70, 78, 80, 82, 83, 84, 84, 84, 84, 84, 83, 83, 82, 80, 79, 78, 77, 75, 73, 71, 69, 67, 65, 63, 60, 58, 55, 53,
   50, 47, 44, 41, 38]

/-- `visc_eff_table` 648-673: viscosities in cSt and efficacies in percent -/
def viscTable : List (ℚ × ℚ) :=
  [(1, 68), (2, 71), (3, 145 / 2), (4, 74), (5, 75), (7, 77), (10, 78), (20, 80), (40, 167 / 2), (70, 171 / 2), (100, 87), (300, 179 / 2),
   (500, 181 / 2), (700, 91), (1000, 92), (2000, 91), (3000, 83), (5000, 52), (7000, 32), (10000, 17), (20000, 11), (30000, 17 / 2),
   (40000, 7), (50000, 13 / 2), (100000, 6), (1000000, 0)]

/-- `np.searchsorted(a, v)` for an ascending `a`: how many are below `v` -/
def searchsorted (a : List ℚ) (v : ℚ) : Nat := (a.filter (fun x => decide (x < v))).length

/-- `wind_eff_list[int(spd)] / 100.` -/
def windEff (spd : ℚ) : Option ℚ := (windTable[⌊spd⌋.toNat]?).map (· / 100)

/-- `visc_eff_table[np.searchsorted(visc_eff_table[:, 0], visc), 1] / 100`, of a viscosity in cSt -/
def viscEff (v : ℚ) : Option ℚ := (viscTable[searchsorted (viscTable.map Prod.fst) v]?).map (·.2 / 100)

/-- `get_disp_eff` 848-863, of one of the elements -/
def eff (spd : ℚ) (e : El) : Option ℚ := (windEff spd).bind (fun w => (viscEff (e.visc * 1000000)).map (w * ·))

/-- whether an element is one of `dispersable_oil_idxs` 1553-1563 -/
def can (e : El) : Bool := decide (e.visc * 1000000 < 1000000) && !e.gone && decide (0 < e.mass)

/-- `np.sum(sc['mass'][idxs])` -/
def totalCan (l : List El) : ℚ := ((l.filter can).map El.mass).sum

/-- `np.clip(x, 0, 1)` -/
def clip (x : ℚ) : ℚ := min (max x 0) 1

/-- `_remove_mass_indices` 168-183, of one element: the element afterwards and what was removed -/
def removeEl (e : El) (amount : ℚ) : El × ℚ :=
  let f := clip (amount / e.mass)
  let cs := e.comps.map ((1 - f) * ·)
  ({ e with comps := cs, mass := cs.sum }, e.comps.sum - cs.sum)

/-- 1624-1628: `np.isclose(mass, 0)` -/
def mark (e : El) : El := if |e.mass| ≤ 1 / 100000000 then { e with gone := true } else e

/-- 1592-1602 and 1624-1628, of one element -/
def one (spd treated total : ℚ) (e : El) : Option (El × ℚ) :=
  if can e then (eff spd e).map (fun k => let r := removeEl e (treated * (e.mass / total) * k); (mark r.1, r.2)) else some (e, 0)

/-- all of the elements, one after the other -/
def each (spd treated total : ℚ) : List El → Option (List (El × ℚ))
  | [] => some []
  | e :: l => (one spd treated total e).bind (fun r => (each spd treated total l).map (r :: ·))

/-- `weather_elements` 1579-1633 of an active operation that has treated the mass `treated` in the step. The efficacy of the wind is looked up
even if there is nothing to disperse (1593). `_fixed` is the `disp_eff` that the user has set; it is not used. -/
def weather (_fixed : Option ℚ) (spd treated : ℚ) (l : List El) (b : Bal) : Option (List El × Bal) :=
  if treated = 0 then some (l, b)
  else (windEff spd).bind (fun _ => (each spd treated (totalCan l) l).map (fun r =>
    let removed := (r.map Prod.snd).sum
    (r.map Prod.fst, ⟨b.chem + removed, b.floating - removed, b.mine + removed⟩)))

/-- steps one after the other: the speed of the wind and the mass treated in each -/
def run (fixed : Option ℚ) : List (ℚ × ℚ) → List El × Bal → Option (List El × Bal)
  | [], s => some s
  | (spd, tr) :: l, s => (weather fixed spd tr s.1 s.2).bind (run fixed l)

end Verif.Roc.Spray
