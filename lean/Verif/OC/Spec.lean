import Verif.Py
/-!
# Specification: an insertion-ordered collection is a duplicate-free list

No reference to the model. `sid` gives the identity of an object, `inst` whether it is of the right type.
-/
namespace Verif.OC.Spec
open Verif.Py

variable {α ι : Type} [DecidableEq ι] (sid : α → ι) (inst : α → Bool)

/-- the collection as a plain list -/
abbrev S (α : Type) := List α

inductive Ev (α : Type)
  | add (e : α) | remove (e : α) | replace (e : α)
  deriving DecidableEq, Repr

/-- the object with id `k`, if any -/
def find (l : S α) (k : ι) : Option α := l.find? (fun e => sid e = k)

def add (l : S α) (e : α) : S α × List (Ev α) :=
  if (find sid l (sid e)).isSome then (l, []) else (l ++ [e], [.add e])

def addMany (l : S α) : List α → S α × Option Err × List (Ev α)
  | [] => (l, none, [])
  | e :: es =>
    if inst e then
      let r := add sid l e
      let r' := addMany r.1 es
      (r'.1, r'.2.1, r.2 ++ r'.2.2)
    else (l, some .typeError, [])

def removeId (l : S α) (k : ι) : S α × Option Err × List (Ev α) :=
  match find sid l k with
  | none => (l, some .keyError, [])
  | some e => (l.filter (fun x => sid x ≠ k), none, [.remove e])

def removePos (l : S α) (i : Int) : S α × Option Err × List (Ev α) :=
  match pyIdx l.length i with
  | none => (l, some .indexError, [])
  | some n => (l.eraseIdx n, none, (l[n]?.map .remove).toList)

def replaceId (l : S α) (k : ι) (e : α) : S α × Option Err × List (Ev α) :=
  if inst e then
    match find sid l k with
    | none => (l, some .keyError, [])
    | some _ => (l.map (fun x => if sid x = k then e else x), none, [.replace e])
  else (l, some .typeError, [])

def replacePos (l : S α) (i : Int) (e : α) : S α × Option Err × List (Ev α) :=
  if inst e then
    match pyIdx l.length i with
    | none => (l, some .indexError, [])
    | some n => (l.set n e, none, [.replace e])
  else (l, some .typeError, [])

/-- no object occurs twice -/
def Distinct (l : S α) : Prop := (l.map sid).Nodup

end Verif.OC.Spec
