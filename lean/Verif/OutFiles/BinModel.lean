import Verif.Py

/-!
# Binary output: the files of the steps and the archive

Source: `py_gnome/gnome/outputters/binary.py` `BinaryOutput.prepare_for_model_run` (77-124), `write_output` (127-168),
`_zip_binary_files` (239-259), `clean_output_files` (261-277), `post_model_run` (279-287); `gnome/model.py` `step`
(1159-1226) and `write_output` (1134-1157) as far as they call them.

Simplifications: the contents of a file are a value; files are named by kind (uncertain or not) and number (`{:03d}` is
injective); a zip file that is not closed is `broken`; the outputter is on.
-/
namespace Verif.OutFiles
open Verif.Py (Dict)

/-- The archive: not there, cannot be read, or its entries in order. -/
inductive Arch (α : Type) | absent | broken | ok (entries : List ((Bool × Nat) × α))
  deriving DecidableEq, Repr

/-- The state of the outputter and of its folder: `file_num`, the files of steps, the archive, `cleaned_up`. -/
structure BSt (α : Type) where
  num : Nat
  loose : Dict (Bool × Nat) α
  arch : Arch α
  cleaned : Bool
  deriving Repr

/-- Settings: `zip_output`, whether the file name has a folder, and uncertainty of the run. -/
structure BCfg where
  zip : Bool := true
  hasDir : Bool := true
  unc : Bool := false
  deriving DecidableEq, Repr

variable {α : Type}

/-- `prepare_for_model_run` (77-124) with `clean_output_files` (261-277), which cleans a named folder only; `rewind` of the
base class has reset `cleaned_up`. -/
def binPrepare (c : BCfg) (s : BSt α) : BSt α :=
  { s with num := 0, loose := if c.hasDir then [] else s.loose, cleaned := false }

/-- One turn of the loop 243-256: the forecast file moves into the archive, then the uncertain one; `false` = FileNotFoundError. -/
def zipOne (unc : Bool) (i : Nat) (l : Dict (Bool × Nat) α) (a : List ((Bool × Nat) × α)) :
    Dict (Bool × Nat) α × List ((Bool × Nat) × α) × Bool :=
  match l.get? (false, i) with
  | none => (l, a, false)
  | some d =>
    if unc then
      match (l.del (false, i)).get? (true, i) with
      | none => (l.del (false, i), a ++ [((false, i), d)], false)
      | some e => ((l.del (false, i)).del (true, i), a ++ [((false, i), d), ((true, i), e)], true)
    else (l.del (false, i), a ++ [((false, i), d)], true)

/-- The loop 243-256. -/
def zipLoop (unc : Bool) : List Nat → Dict (Bool × Nat) α → List ((Bool × Nat) × α) →
    Dict (Bool × Nat) α × List ((Bool × Nat) × α) × Bool
  | [], l, a => (l, a, true)
  | i :: r, l, a =>
    let p := zipOne unc i l a
    if p.2.2 then zipLoop unc r p.1 p.2.1 else p

/-- `_zip_binary_files` (239-259): the archive is opened for writing, filled and closed. -/
def zipFiles (c : BCfg) (n : Nat) (s : BSt α) : BSt α × Bool :=
  if c.zip then
    let p := zipLoop c.unc (List.range n) s.loose []
    ({ s with loose := p.1, arch := if p.2.2 then .ok p.2.1 else .broken }, p.2.2)
  else (s, true)

/-- `post_model_run` (279-287). -/
def binPost (c : BCfg) (s : BSt α) : BSt α × Bool :=
  if s.cleaned then (s, true)
  else
    let p := zipFiles c s.num s
    if p.2 then ({ p.1 with cleaned := true }, true) else p

/-- The files of a step (144-157): `false` = a file exists (ValueError). -/
def binFiles (c : BCfg) (s : BSt α) (d : α × α) : BSt α × Bool :=
  if s.loose.has (false, s.num) then (s, false)
  else
    let s := { s with loose := s.loose.set (false, s.num) d.1 }
    if c.unc then
      if s.loose.has (true, s.num) then (s, false) else ({ s with loose := s.loose.set (true, s.num) d.2 }, true)
    else (s, true)

/-- `write_output` (127-168) with `_write_step = w`: on the last step one more file than `file_num` goes into the archive. -/
def binWrite (c : BCfg) (s : BSt α) (w islast : Bool) (d : α × α) : BSt α × Bool :=
  let p := if w then binFiles c s d else (s, true)
  if p.2 then
    let q := if islast then (let z := zipFiles c (p.1.num + 1) p.1; if z.2 then ({ z.1 with cleaned := true }, true) else z)
      else p
    if q.2 then (if w then { q.1 with num := q.1.num + 1 } else q.1, true) else q
  else p

/-- The steps `0 … k` of a run whose last step is `L`: `w` tells which are written, `d` has the data. If a step after the
first raises, the model calls `post_model_run` and raises. -/
def binSteps (c : BCfg) (w : Nat → Bool) (d : Nat → α × α) (L : Nat) (s : BSt α) : Nat → BSt α × Bool
  | 0 => binWrite c (binPrepare c s) (w 0) (decide (0 = L)) (d 0)
  | k + 1 =>
    let p := binSteps c w d L s k
    if p.2 then
      let q := binWrite c p.1 (w (k + 1)) (decide (k + 1 = L)) (d (k + 1))
      if q.2 then q else ((binPost c q.1).1, false)
    else p

/-- A full run: the steps, then `post_model_run`. -/
def binRun (c : BCfg) (w : Nat → Bool) (d : Nat → α × α) (L : Nat) (s : BSt α) : BSt α × Bool :=
  let p := binSteps c w d L s L
  if p.2 then binPost c p.1 else p

end Verif.OutFiles
