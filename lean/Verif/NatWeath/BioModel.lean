import Mathlib.Analysis.SpecialFunctions.Exp
/-!
# Model of biodegradation of oils as they are made, and of the aromatics of dissolution

Source: `/repo/py_gnome/gnome/weatherers/bio_degradation.py` 29-57 (`__init__`), 59-98 (`prepare_for_model_run`), 118-142 (`bio_degradate_oil`), 145-175 (`get_K_comp_rates`), 178-239 (`weather_elements`);
`/repo/py_gnome/gnome/weatherers/dissolution.py` 172-174; `/repo/py_gnome/gnome/spills/gnome_oil.py` 225-307 (`_init_from_json`), 365-373 (`_set_pc_values`).

Simplifications: real numbers; droplets all have a size and elements a density, so that the yield factor is a number `1 / (d * rho)` (`NatWeath/Model.lean` has the other cases); the mass balance is in `NatWeath/Model.lean` too; of the data of an oil only the kinds and boiling points of its components are kept.
-/
namespace Verif.NatWeath.Bio

/-- the words for the kind of a component -/
inductive Kind
  | saturates | aromatics | resins | asphaltenes
deriving DecidableEq

/-- what a user or a file says about an oil: `sara_type` (it may be left out), `boiling_point` -/
structure OilData where
  saraType : Option (List Kind)
  boilingPoint : List ℝ

/-- an oil object: the attribute `sara_type`, if it has one, and `boiling_point` -/
structure Oil where
  saraType : Option (List Kind)
  boilingPoint : List ℝ

/-- `GnomeOil._init_from_json` 225-307: `sara_type` is a parameter, and the lines that would set the attribute (294-298) are comments -/
def Oil.make (d : OilData) : Oil := ⟨none, d.boilingPoint⟩

/-- `oil.sara_type = kinds` by the user -/
def Oil.setKinds (o : Oil) (k : List Kind) : Oil := { o with saraType := some k }

/-- errors: AttributeError (no `sara_type`), ValueError (shapes differ) -/
inductive Err
  | attribute | value
deriving DecidableEq

/-- `get_K_comp_rates` 145-175 -/
noncomputable def rate (arctic : Bool) (k : Kind) (bp : ℝ) : ℝ :=
  match k with
  | .saturates => if bp < 722.85 then (if arctic then 0.000128807242 else 0.000941386396) else 0
  | .aromatics => if bp < 630 then (if arctic then 0.000126982603 else 0.000575541103) else (if arctic then 0.000021054707 else 0.000084840485)
  | _ => 0

/-- `K_comp_rates` for a step 205-213, `none`: the oil has no `sara_type` -/
noncomputable def stepRates (arctic : Bool) (o : Oil) (dt : ℝ) : Option (List ℝ) :=
  o.saraType.map fun ks => (List.zipWith (rate arctic) ks o.boilingPoint).map fun K => K / (60 * 60 * 24) * dt

/-- an element: size and density of its droplets, masses of its components -/
structure El where
  droplet : ℝ
  density : ℝ
  comps : List ℝ

/-- `bio_degradate_oil` 118-142 for one element; `prev_yield_factor` is 0 always (87, the other attribute is assigned in 215) -/
noncomputable def degrade (K : List ℝ) (e : El) : El :=
  { e with comps := List.zipWith (fun m k => m * Real.exp ((0 - 1 / (e.droplet * e.density)) * (6 * k))) e.comps K }

/-- `weather_elements` 178-239 of an active Biodegradation with the flag `arctic` -/
noncomputable def weather (arctic : Bool) (o : Oil) (dt : ℝ) (els : List El) : Except Err (List El) :=
  if els = [] then .ok []
  else match stepRates arctic o dt with
    | none => .error .attribute
    | some K => if ∀ e ∈ els, e.comps.length = K.length then .ok (els.map (degrade K)) else .error .value

/-- the mask of aromatics in `dissolve_oil` 172-174 -/
def aromMask (o : Oil) : Except Err (List Bool) :=
  match o.saraType with
  | none => .error .attribute
  | some ks => .ok (ks.map (· == .aromatics))

/-- a Biodegradation: is it on, arctic conditions -/
structure Biodeg where
  on : Bool
  arctic : Bool
deriving DecidableEq

/-- `Biodegradation(arctic=…)` 29-36: temperate if not given -/
def Biodeg.new (arctic : Option Bool) (on : Bool) : Biodeg := ⟨on, arctic.getD false⟩

/-- what a save file has: the fields of the schema 15-18 and of `WeathererSchema`; `arctic` is not one -/
structure Saved where
  on : Bool
  arctic : Option Bool
deriving DecidableEq

/-- saving -/
def Biodeg.save (b : Biodeg) : Saved := ⟨b.on, none⟩

/-- loading -/
def Saved.load (s : Saved) : Biodeg := .new s.arctic s.on

end Verif.NatWeath.Bio
