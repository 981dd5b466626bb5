import Verif.OC.Model
/-!
# Model of adding environment objects in place of others

Source: `/repo/py_gnome/gnome/model.py` `add_env` (2008-2019). `cls` is the class of an object.
-/
namespace Verif.OC
open Verif.Py

section
variable {α ι κ : Type} [DecidableEq ι] [DecidableEq κ] (sid : α → ι) (inst : α → Bool) (cls : α → κ)

/-- the first object shown whose class is `k` (2013-2014) -/
def firstOfClass (k : κ) : List (Except Err (Option α)) → Option α
  | [] => none
  | .ok (some o) :: l => if cls o = k then some o else firstOfClass k l
  | _ :: l => firstOfClass k l

/-- one turn of the loop with `quash` (2012-2019): the index of the object that is found is the position used to replace it -/
def quash1 (s : State α ι) (e : α) : State α ι × Option Err :=
  match firstOfClass cls (cls e) (iter s) with
  | some o =>
    match indexOf s (sid o) with
    | .error x => (s, some x)
    | .ok n => let r := replacePos sid inst s (n : Int) e; (r.1, r.2.1)
  | none => let r := step sid inst s (.add e); (r.1, r.2.1)

/-- `add_env(env, quash)`; an exception ends the loop -/
def addEnv (quash : Bool) (s : State α ι) : List α → State α ι × Option Err
  | [] => (s, none)
  | e :: es =>
    let r := if quash then quash1 sid inst cls s e else
      let r := step sid inst s (.add e); (r.1, r.2.1)
    match r.2 with
    | some x => (r.1, some x)
    | none => addEnv quash r.1 es

end
end Verif.OC
