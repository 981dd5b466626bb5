import Mathlib.Data.Rat.Floor
import Mathlib.Tactic.NormNum
import Mathlib.Tactic.Linarith

/-!
# Comparing objects

Source: `py_gnome/gnome/gnomeobject.py` 616-757 (`_check_type`, `__eq__`, `_diff`, `__ne__`).

Simplifications: floats are rationals (no `nan`); arrays of the same size have the same shape; an
attribute is `None`, an integer, a string (given by a number), a float, an array or an object, not a
list or a dictionary; classes that override `__eq__` are not modelled.
-/

namespace Verif.PersistEq

/-- The value of an attribute; an object is its class and its attributes in the order of the schema,
with whether they count for equality (`test_equal`). -/
inductive Val where
  | none
  | int (n : Int)
  | str (n : Nat)
  | float (q : ℚ)
  | arr (l : List ℚ)
  | obj (cls : Nat) (attrs : List (Bool × Val))

/-- What `==` does. -/
inductive Res where
  | yes
  | no
  | raised
  deriving DecidableEq, Repr

/-- `RTOL` and `ATOL`. -/
def rtol : ℚ := 1 / 100000
/-- See `rtol`. -/
def atol : ℚ := 1 / 100000000

/-- `np.allclose` for two numbers. -/
def close (a b : ℚ) : Bool := decide (|a - b| ≤ atol + rtol * |b|)

/-- From a Boolean. -/
def Res.of (b : Bool) : Res := if b then .yes else .no

/-- `np.allclose` for arrays of the same size. -/
def allClose (a b : List ℚ) : Bool := (a.zip b).all fun p => close p.1 p.2

/-- An array and a number (`gnomeobject.py:711-733`). -/
def arrNum (a : List ℚ) (q : ℚ) : Res := Res.of (decide (a.length = 1) && a.all (close · q))

/-- A number and an array. -/
def numArr (q : ℚ) (a : List ℚ) : Res := Res.of (decide (a.length = 1) && a.all (close q ·))

mutual
/-- One attribute (`gnomeobject.py:708-752`). -/
def eqVal : Val → Val → Res
  | .arr a, .arr b => if a.length = b.length then Res.of (allClose a b) else .no
  | .arr a, .float q => arrNum a q
  | .arr a, .int n => arrNum a n
  | .float q, .arr a => numArr q a
  | .int n, .arr a => numArr n a
  | .arr _, _ => .no
  | _, .arr _ => .no
  | .float a, .float b => Res.of (close a b)
  | .float a, .int b => Res.of (close a b)
  | .int a, .float b => Res.of (close a b)
  | .float _, _ => .raised
  | _, .float _ => .raised
  | .none, .none => .yes
  | .int a, .int b => Res.of (decide (a = b))
  | .str a, .str b => Res.of (decide (a = b))
  | .obj c as, .obj c' bs => if c = c' then eqAttrs as bs else .no
  | _, _ => .no
/-- The loop over the schema, stopping at the first difference (`gnomeobject.py:696-757`); one class,
one schema, so that the lists have the same length; otherwise an attribute is missing. -/
def eqAttrs : List (Bool × Val) → List (Bool × Val) → Res
  | (true, a) :: as, (_, b) :: bs =>
    match eqVal a b with
    | .yes => eqAttrs as bs
    | r => r
  | (false, _) :: as, (_, _) :: bs => eqAttrs as bs
  | [], [] => .yes
  | _, _ => .raised
end

/-! ## Spec -/

/-- Within tolerance, as documented. -/
def Near (a b : ℚ) : Prop := |a - b| ≤ 1 / 100000000 + 1 / 100000 * |b|

/-- The number that a value is. -/
def Val.num? : Val → Option ℚ
  | .int n => some n
  | .float q => some q
  | _ => Option.none

/-- The numbers in a value. -/
def Val.nums : Val → Option (List ℚ)
  | .int n => some [(n : ℚ)]
  | .float q => some [q]
  | .arr l => some l
  | _ => Option.none

/-- Not exact: a float or an array. -/
def Val.inexact : Val → Prop
  | .float _ => True
  | .arr _ => True
  | _ => False

mutual
/-- What equality means: the same class and, attribute by attribute, the same integers, strings and
objects, and floats and arrays within tolerance. -/
inductive Alike : Val → Val → Prop
  | none : Alike .none .none
  | int (n : Int) : Alike (.int n) (.int n)
  | str (n : Nat) : Alike (.str n) (.str n)
  | near {a b l m} : (a.inexact ∨ b.inexact) → a.nums = some l → b.nums = some m →
      List.Forall₂ Near l m → Alike a b
  | obj {c as bs} : AlikeAll as bs → Alike (.obj c as) (.obj c bs)
/-- Attribute by attribute. -/
inductive AlikeAll : List (Bool × Val) → List (Bool × Val) → Prop
  | nil : AlikeAll [] []
  | cons {a b f as bs} : Alike a b → AlikeAll as bs → AlikeAll ((true, a) :: as) ((f, b) :: bs)
  | skip {a b f as bs} : AlikeAll as bs → AlikeAll ((false, a) :: as) ((f, b) :: bs)
end

end Verif.PersistEq
