import Verif.OutFiles.LegendModel
import Verif.SpillSet.Model

/-!
# Numbers in the texts of the ERMA legend

Source: `py_gnome/gnome/utilities/__init__.py` `convert_mass_to_mass_or_volume` (221-252); `py_gnome/gnome/outputters/erma_data_package.py`
`make_particle_package_layer` (1024-1028, 1058-1059, 1081-1098, 1174: the converted bounds of the classes of a style by mass).

Simplifications: `nucos` is a table `unit` from names to units of mass or of volume (`SpillSet.Units`); the numbers are exact, before they are rounded to
four digits for the text (1132-1160); only styles that show the mass are looked at; a class shows its own text only where the style has no
label for it (1161-1162).
-/
namespace Verif.OutFiles.Label
open Verif.OutFiles.Legend Verif.SpillSet

/-- `nucos.convert('mass', a, b, x)`; `none` = `InvalidUnitError`. -/
def convMass (unit : String → Option Units) (a b : String) (x : ℚ) : Option ℚ :=
  match unit a, unit b with
  | some (.mass p), some (.mass q) => some (x * p / q)
  | _, _ => none

/-- `nucos.convert('volume', 'm^3', b, x)`; `none` = `InvalidUnitError`. -/
def convVolume (unit : String → Option Units) (b : String) (x : ℚ) : Option ℚ :=
  match unit b with
  | some (.volume q) => some (x / q)
  | _ => none

/-- `convert_mass_to_mass_or_volume` (221-252): the second `except` is never reached, errors of the first handler are passed on. -/
def convert (unit : String → Option Units) (a b : String) (density x : ℚ) : Option ℚ :=
  match convMass unit a b x with
  | some r => some r
  | none => (convMass unit a "kg" x).bind fun m => convVolume unit b (m / density)

/-- The numbers in the texts of the classes of a group (1024-1028, 1058-1059, 1081-1098, 1174), one pair for each colour: the spill that is asked for
its style and its density is the first one; `none` = an error, or a group without such a style. -/
def labels (unit : String → Option Units) (spills : List (Option Style)) (density : Nat → ℚ) (g : List Nat) : Option (List (ℚ × ℚ)) :=
  match g with
  | [] => none
  | k :: _ =>
    match (spills[k]?).join with
    | none => none
    | some s =>
      if s.data = "Mass" then
        (List.range s.colours.length).mapM fun i =>
          (convert unit "kilograms" s.units (density k) (lower s i)).bind fun lo =>
            (convert unit "kilograms" s.units (density k) (upper s i)).map fun hi => (lo, hi)
      else none

end Verif.OutFiles.Label
