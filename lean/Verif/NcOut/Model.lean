import Mathlib.Data.List.Basic
import Mathlib.Data.Int.Order.Basic
/-!
# Model of the netCDF output

Source: `/repo/py_gnome/gnome/outputters/netcdf.py`. A netCDF file is modelled as its `time` and `particle_count` variables, the common
length of the unlimited dimension `data`, and for each variable over it a function from positions to values (`none` is the fill value).
Which steps are written is C27-C30; the cache is C07. Times are integers (seconds since the beginning of the model run). Text
attributes, chunks, compression and zipping are left out.
-/
namespace Verif.NcOut

/-- A container as loaded from the cache: its time and, for each element, its values by the name of the netCDF variable (`longitude`,
`latitude`, `depth` are columns of `positions`), and the mass balance. -/
structure Snap (V : Type) where
  time : Int
  rows : List (String → V)
  bal : List (String × V)

structure File (V : Type) where
  times : List Int := []
  counts : List Nat := []
  size : Nat := 0
  var : String → Nat → Option V := fun _ _ => none
  bal : String → Nat → Option V := fun _ _ => none

/-- `rg_vars[name][start:end] = values`: writing over an unlimited dimension; an empty slice changes nothing. -/
def putVar {V : Type} (old : Nat → Option V) (start : Nat) (xs : List V) : Nat → Option V :=
  fun j => if start ≤ j ∧ j < start + xs.length then xs[j - start]? else old j

/-- One container into its file, 747-783: `idx` is the number of records so far. -/
def writeOne {V : Type} (arrays : List String) (start : Nat) (f : File V) (s : Snap V) : File V where
  times := f.times ++ [s.time]
  counts := f.counts ++ [s.rows.length]
  size := if s.rows = [] ∨ arrays = [] then f.size else max f.size (start + s.rows.length)
  var := fun n => if n ∈ arrays then putVar (f.var n) start (s.rows.map (fun r => r n)) else f.var n
  bal := fun k j => if j = f.times.length then (s.bal.lookup k).orElse (fun _ => f.bal k j) else f.bal k j

/-- The outputter during a run: `_start_idx` and the two files. -/
structure St (V : Type) where
  start : Nat := 0
  fore : File V := {}
  unc : File V := {}

/-- `write_output` 720-797 for a step that is written: the forecast, then the uncertain container if there is one; `_start_idx` is the end
of the last one written. -/
def write {V : Type} (arrays : List String) (st : St V) (p : Snap V × Option (Snap V)) : St V :=
  let fore := writeOne arrays st.start st.fore p.1
  match p.2 with
  | none => ⟨st.start + p.1.rows.length, fore, st.unc⟩
  | some u => ⟨st.start + u.rows.length, fore, writeOne arrays st.start st.unc u⟩

/-- A run: `prepare_for_model_run` has made empty files and set `_start_idx` to 0 (667). -/
def run {V : Type} (arrays : List String) (l : List (Snap V × Option (Snap V))) : St V := l.foldl (write arrays) {}

/-- Python's `seq[i]`: from the end for negative `i` -/
def pyGet {α : Type} (l : List α) (i : Int) : Option α :=
  if 0 ≤ i then l[i.toNat]? else if 0 ≤ l.length + i then l[(l.length + i).toNat]? else none

/-- What `read_data` returns: the time and for each name asked for the values of the elements. -/
structure Data (V : Type) where
  time : Int
  vals : String → List (Option V)

/-- `data.variables[name][start:stop]` -/
def slice {V : Type} (f : File V) (n : String) (a b : Nat) : List (Option V) :=
  (List.range' a (min b f.size - a)).map (f.var n)

/-- 958-1021: `index` after it has been chosen; `none` is an exception. -/
def readAt {V : Type} (f : File V) (index : Int) : Option (Data V) :=
  let start := (f.counts.take index.toNat).sum
  match pyGet f.counts index, pyGet f.times index with
  | some c, some t => some ⟨t, fun n => slice f n start (start + c)⟩
  | _, _ => none

/-- numpy's `argmin` of the distances to `t`: the first of the least -/
def argmin (t : Int) : List Int → Nat
  | [] => 0
  | [_] => 0
  | x :: y :: l =>
    let k := argmin t (y :: l)
    if (x - t).natAbs ≤ ((y :: l)[k]?.getD 0 - t).natAbs then 0 else k + 1

/-- which record is asked for -/
inductive Ask
  | nothing
  | index (i : Int)
  | time (t : Int)

/-- `read_data` 862-1023, the choice of the index at 936-956 -/
def read {V : Type} (f : File V) : Ask → Option (Data V)
  | .nothing => if 1 < f.times.length then none else readAt f 0
  | .time t => if t < 0 then readAt f 0 else if f.times = [] then none else readAt f (argmin t f.times)
  | .index i => readAt f (if i < 0 then f.times.length + i else i)

/-! ### which arrays are written -/

/-- the class attribute `standard_arrays` -/
def standard : List String := ["latitude", "longitude", "depth", "status_codes", "spill_num", "id", "mass", "age", "density",
  "viscosity", "frac_water", "surface_concentration"]

def special : List String := ["latitude", "longitude", "depth"]

/-- `usually_skipped_arrays` -/
def skipped : List String := ["next_positions", "last_water_positions", "windages", "mass_components", "half_lives", "init_mass",
  "interfacial_area", "fay_area", "bulk_init_volume", "frac_coverage", "bulltime", "partition_coeff", "evap_decay_constant",
  "yield_factor"]

inductive Which
  | standard | most | all
deriving DecidableEq

/-- `_update_arrays_to_output` 498-521 for a container with the arrays `names`: membership in the set `arrays_to_output` -/
def update (w : Which) (cur : String → Bool) (names : List String) : String → Bool :=
  let c1 : String → Bool := match w with
    | .standard => cur
    | _ => fun n => cur n || (decide (n ∈ names) && n != "positions")
  let c2 : String → Bool := match w with
    | .most => fun n => c1 n && decide (n ∉ skipped)
    | _ => c1
  fun n => c2 n && (decide (n ∈ names) || decide (n ∈ special))

/-- `__init__` 367 -/
def initial : String → Bool := fun n => decide (n ∈ standard)

/-- One run after another, each with its `which_data` and the arrays of its containers. -/
def runs (l : List (Which × List String)) : String → Bool := l.foldl (fun c p => update p.1 c p.2) initial

end Verif.NcOut
