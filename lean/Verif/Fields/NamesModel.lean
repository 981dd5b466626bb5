import Mathlib.Data.List.Nodup
import Mathlib.Data.List.Dedup
/-
Which variables of a file an environment object takes.

Source (under /repo/py_gnome/gnome): environment/names.py 107-166 (`nc_names`),
168-189 (`capitalize_name_mapping`); used by the classes of
environment/environment_objects.py 392-773 and searched in order by
`_gen_varnames` (gridded_objects_base.py 1023-1026, 1353).

Simplifications: names are values of a type with a function `up` for capitals;
the list of a set (`list(set(..))`) is any list with the members of the set,
each once: its order changes from one run of Python to the next; the search,
which is in the library `gridded`, takes the first name of the list that the
file has; standard names are left out.
-/
namespace Verif.Fields.Names

variable {α : Type} [DecidableEq α]

/-- The names before the set is made: those written and their capitals
(names.py 179-180, 184-185). -/
def withCapitals (up : α → α) (names : List α) : List α := names ++ names.map up

/-- `l` may be `list(set(names))` (names.py 182, 186). -/
structure IsSetList (names l : List α) : Prop where
  nodup : l.Nodup
  mem : ∀ x, x ∈ l ↔ x ∈ names

/-- `l` may be what `capitalize_name_mapping` leaves of `names`. -/
def Capitalized (up : α → α) (names l : List α) : Prop := IsSetList (withCapitals up names) l

/-- The variable taken for one component: the first of the names that is in the file. -/
def pick (l : List α) (file : List α) : Option α := l.find? (fun n => decide (n ∈ file))

/-- The variables for all the components. -/
def pickAll (ls : List (List α)) (file : List α) : List (Option α) := ls.map (fun l => pick l file)

end Verif.Fields.Names
