import Verif.Py

/-!
# What a step returns, and the end of a run

Sources: `py_gnome/gnome/model.py` `write_output` (1140-1157), `step` (1159-1226), `post_model_run` (943-958), `__next__`
(1296-1306), `full_run` (1310-1335).

Simplifications: what an outputter returns is a number; `step_time` is left out; a step either works or raises.
-/
namespace Verif.Run
open Verif.Py

/-- An outputter: the name of its class, and what it returns for a step (`none` for None). -/
structure Outp where
  cls : String
  result : Nat → Option Nat

/-- What is in `output_info`. -/
inductive Info
  | stepNum (k : Nat) | valid (b : Bool) | result (r : Nat)
  deriving DecidableEq, Repr

/-- The loop 1144-1151. -/
def collect (k : Nat) : List Outp → Dict String Info → Dict String Info
  | [], d => d
  | o :: l, d => collect k l (match o.result k with
    | none => d
    | some r => d.set o.cls (.result r))

/-- `write_output` (1140-1157): `step_num` and `step_time` are always there, so the condition `len(output_info) > 1` always
holds. -/
def writeOutputs (k : Nat) (valid : Bool) (l : List Outp) : Dict String Info :=
  (collect k l [("step_num", .stepNum k)]).set "valid" (.valid valid)

/-! ## The end of a run -/

/-- What can be seen of a run: output of a step, a call of `post_model_run`, an exception that reaches the user. -/
inductive Ev
  | out (k : Nat) | post | raised
  deriving DecidableEq, Repr

/-- What a step does: goes on, ends (`StopIteration`), or raises. -/
inductive Res
  | ok | stop | err
  deriving DecidableEq, Repr

/-- `step` (1159-1226) for step `k` of a run with steps 0 to `L`; `bad` are the steps that raise. -/
def oneStep (bad : Nat → Bool) (L k : Nat) : Res × List Ev :=
  if k = 0 then (if bad 0 then (.err, [.raised]) else (.ok, [.out 0]))
  else if k > L then (.stop, [.post])
  else if bad k then (.err, [.post, .raised]) else (.ok, [.out k])

/-- The loop of `full_run` (1322-1333), at most `fuel` steps. -/
def runLoop (bad : Nat → Bool) (L k : Nat) : Nat → List Ev
  | 0 => []
  | fuel + 1 =>
    let r := oneStep bad L k
    match r.1 with
    | .ok => r.2 ++ runLoop bad L (k + 1) fuel
    | .stop => r.2 ++ [.post]
    | .err => r.2

/-- `full_run`: the loop ends after at most `L + 2` steps. -/
def fullRun (bad : Nat → Bool) (L : Nat) : List Ev := runLoop bad L 0 (L + 2)

end Verif.Run
