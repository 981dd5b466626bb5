import Mathlib.Data.Rat.Floor

/-!
# Asking for elements by a condition

Source: `py_gnome/gnome/model.py` `get_spill_data` (1932-2006).

Simplifications: the values of a property are one rational per element (arrays with several columns raise
TypeError at `int`); a condition comes as its comparisons and what stands between them, the number compared with
as the rational it stands for (`eval` of any other text is left out).
-/

namespace Verif.Run

/-- The text between property and number: the five operators that are known (1976), or any other. -/
inductive Cmp
  | lt | le | gt | ge | eq | other
  deriving DecidableEq, Repr

/-- `property op number`, as split by `rsplit` (1965-1968). -/
structure Atom where
  prop : String
  op : Cmp
  num : ℚ
  deriving DecidableEq

/-- `&&` or `||`. -/
inductive Conn
  | and | or
  deriving DecidableEq, Repr

/-- A condition as written. -/
structure Query where
  first : Atom
  rest : List (Conn × Atom)

/-- `int(elem_value)` (1977): towards zero. -/
def trunc (x : ℚ) : Int := if 0 ≤ x then ⌊x⌋ else -⌊-x⌋

/-- What an operator says. -/
def Cmp.holds (c : Cmp) (x y : ℚ) : Bool := match c with
  | .lt => decide (x < y)
  | .le => decide (x ≤ y)
  | .gt => decide (x > y)
  | .ge => decide (x ≥ y)
  | .eq => decide (x = y)
  | .other => false

/-- `test` (1974-1977); `None` for any other operator is false. -/
def test (x : ℚ) (op : Cmp) (num : ℚ) : Bool := op.holds (trunc x : ℚ) num

/-- `conditions.rsplit('&&')`, then each `.rsplit('||')` (1984-1985): what follows the atom `a` of the phrase `cur`. -/
def phrases (cur : List Atom) : List (Conn × Atom) → List (List Atom)
  | [] => [cur]
  | (.or, a) :: l => phrases (cur ++ [a]) l
  | (.and, a) :: l => cur :: phrases [a] l

/-- The data of the elements: the value of a property of an element. -/
abbrev Data := String → Nat → ℚ

/-- `test_phrase` (1963-1972) for the element `i`. -/
def testPhrase (d : Data) (i : Nat) (ph : List Atom) : Bool := ph.any fun a => test (d a.prop i) a.op a.num

/-- `test_result` (1994-1999). -/
def selected (d : Data) (q : Query) (i : Nat) : Bool := (phrases [q.first] q.rest).all (testPhrase d i)

/-- `get_spill_data` (1987-2006): the list of the property `t` for `n` elements, by the loop. -/
def getData (d : Data) (n : Nat) (q : Query) (t : String) : List ℚ :=
  (List.range n).foldl (fun r i => if selected d q i then r ++ [d t i] else r) []

end Verif.Run
