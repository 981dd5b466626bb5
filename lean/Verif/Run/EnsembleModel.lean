import Verif.Py

/-!
# Ensembles of models

Source: `py_gnome/gnome/multi_model_broadcast.py` `ModelConsumer` (29-199), `ModelBroadcaster` (202-434).

Simplifications: messages arrive, in order and in time; an answer is a value or the exception of the command; the processes are the states of their models, each
a copy of the model at the beginning (fork). Of a model we have what the construction of an ensemble changes and the rest, on which other commands (`step`,
`full_run`, ...) act in any way. A command of `user` stands for a command with its arguments.
-/
namespace Verif.Run.Ensemble
open Verif.Py

/-- a model in its process: whether spills are uncertain, the shifts that were made to winds and to amounts, whether the cache is on, its outputters (whether each is of weathering), the rest -/
structure M (W S R : Type) where
  uncertain : Bool
  winds : List W
  amounts : List S
  cacheOn : Bool
  outs : List Bool
  rest : R

/-- answer of a process: a value, or an exception of some class -/
inductive Ans (A : Type)
  | ok (a : A)
  | raised (cls : Nat)
  deriving DecidableEq, Repr

/-- `AttributeError` -/
def attributeError : Nat := 1

/-- `TypeError` -/
def typeError : Nat := 2

/-- commands -/
inductive Cmd (W S U : Type)
  | setContainer
  | setWind (w : W)
  | setAmount (s : S)
  | setCacheDir
  | cacheOff
  | weatheringOnly
  | user (u : U)

variable {W S R U A : Type}

/-- `handle_cmd` (98-115) with the commands 160-199: `_set_cache_dir` calls `create_new_dir`, a method that caches do not have -/
def exec (user : U → M W S R → M W S R × Ans A) (unit : A) : Cmd W S U → M W S R → M W S R × Ans A
  | .setContainer, m => ({ m with uncertain := false }, .ok unit)
  | .setWind w, m => ({ m with winds := m.winds ++ [w] }, .ok unit)
  | .setAmount s, m => ({ m with amounts := m.amounts ++ [s] }, .ok unit)
  | .setCacheDir, m => (m, .raised attributeError)
  | .cacheOff, m => ({ m with cacheOn := false }, .ok unit)
  | .weatheringOnly, m => ({ m with outs := m.outs.filter (· = true) }, .ok unit)
  | .user u, m => user u m

/-- the broadcaster: the models of its tasks, the task for each pair -/
structure B (W S R : Type) where
  tasks : List (M W S R)
  lookup : Dict (W × S) Nat

/-- to whom a command goes -/
inductive Target (W S : Type)
  | idx (i : Int)
  | pair (p : W × S)
  | all

/-- result of a call -/
inductive Res (A : Type)
  | none
  | one (a : A)
  | many (l : List A)
  | raised (cls : Nat)
  | keyError
  | indexError
  deriving DecidableEq, Repr

/-- `stop` (340-362) -/
def stop : B W S R := ⟨[], []⟩

/-- a command for one task (277-292): an exception of the process ends with `with_traceback()` without its argument (338), a `TypeError` -/
def cmdOne (ex : M W S R → M W S R × Ans A) (b : B W S R) (k : Nat) : Res A × B W S R :=
  match b.tasks[k]? with
  | none => (.indexError, b)
  | some m => match ex m with
    | (m', .ok a) => (.one a, { b with tasks := b.tasks.set k m' })
    | (_, .raised _) => (.raised typeError, stop)

/-- the values of answers -/
def values : List (Ans A) → Option (List A)
  | [] => some []
  | .ok a :: r => (values r).map (a :: ·)
  | .raised _ :: _ => none

/-- `cmd` (235-328) -/
def cmd [DecidableEq W] [DecidableEq S] (ex : M W S R → M W S R × Ans A) (b : B W S R) (t : Target W S) : Res A × B W S R :=
  if b.tasks = [] then (.none, b)
  else match t with
    | .idx i => match pyIdx b.tasks.length i with
      | none => (.indexError, b)
      | some k => cmdOne ex b k
    | .pair p => match b.lookup.get? p with
      | none => (.keyError, b)
      | some k => cmdOne ex b k
    | .all => match values (b.tasks.map (fun m => (ex m).2)) with
      | some l => (.many l, { b with tasks := b.tasks.map (fun m => (ex m).1) })
      | none => (.raised typeError, stop)

/-- all pairs, as the loops 374-376 go through them -/
def pairs (ws : List W) (ss : List S) : List (W × S) := ws.flatMap (fun w => ss.map (fun s => (w, s)))

/-- `lookup` (374-378) -/
def mkLookup [DecidableEq W] [DecidableEq S] (ps : List (W × S)) (i : Nat) (d : Dict (W × S) Nat) : Dict (W × S) Nat :=
  match ps with
  | [] => d
  | p :: r => mkLookup r (i + 1) (d.set p i)

/-- several commands for one task; the rest is not sent after an exception -/
def cmds [DecidableEq W] [DecidableEq S] (exs : List (M W S R → M W S R × Ans A)) (t : Target W S) (b : B W S R) : Option Nat × B W S R :=
  match exs with
  | [] => (none, b)
  | e :: r => match cmd e b t with
    | (.raised c, b') => (some c, b')
    | (_, b') => cmds r t b'

/-- `_set_uncertainty` for all pairs (225-227, 411-425) -/
def setAll [DecidableEq W] [DecidableEq S] (user : U → M W S R → M W S R × Ans A) (unit : A) (ps : List (W × S)) (b : B W S R) : Option Nat × B W S R :=
  match ps with
  | [] => (none, b)
  | p :: r => match b.lookup.get? p with
    | none => (none, b)
    | some k => match cmds [exec user unit .setContainer, exec user unit (.setWind p.1), exec user unit (.setAmount p.2)] (.idx k) b with
      | (some c, b') => (some c, b')
      | (none, b') => setAll user unit r b'

/-- the last loop of the constructor (229-232) -/
def prepAll [DecidableEq W] [DecidableEq S] (user : U → M W S R → M W S R × Ans A) (unit : A) (is : List Nat) (b : B W S R) : Option Nat × B W S R :=
  match is with
  | [] => (none, b)
  | k :: r => match cmds [exec user unit .setCacheDir, exec user unit .cacheOff, exec user unit .weatheringOnly] (.idx k) b with
    | (some c, b') => (some c, b')
    | (none, b') => prepAll user unit r b'

/-- what the constructor has after the uncertainties are set -/
def shifted [DecidableEq W] [DecidableEq S] (user : U → M W S R → M W S R × Ans A) (unit : A) (m : M W S R) (ws : List W) (ss : List S) : Option Nat × B W S R :=
  setAll user unit (pairs ws ss) ⟨(pairs ws ss).map (fun _ => m), mkLookup (pairs ws ss) 0 []⟩

/-- the constructor (209-232): an exception or a broadcaster -/
def make [DecidableEq W] [DecidableEq S] (user : U → M W S R → M W S R × Ans A) (unit : A) (m : M W S R) (ws : List W) (ss : List S) : Except Nat (B W S R) :=
  match shifted user unit m ws ss with
  | (some c, _) => .error c
  | (none, b) => match prepAll user unit (List.range b.tasks.length) b with
    | (some c, _) => .error c
    | (none, b') => .ok b'

end Verif.Run.Ensemble
