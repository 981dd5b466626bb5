import Verif.Cache.Model

/-!
# Saving objects to an archive and loading them back

Source: `py_gnome/gnome/persist/base_schema.py` 248-259 (`_prepare_save`), 261-321 (`_save`),
323-368 (`save`), 370-384 (`_process_supporting_file`), 386-427 (`load`, `_deser` 131-153),
429-489 (`hydrate_json`), 491-533 (`_load_supporting_file`, `_load_json_from_file`),
972-1004 (`sanitize_string`, `gen_unique_filename`).

Simplifications: an object is its id, its name, whatever of its data goes to the json file as it is
(one opaque number), its data files and its references, in the order of its schema; sharing of an
object shows as the same id in several places. References that are `None`, attributes that are not
saved and the conversion of data to json text are left out, as are `version.txt` and
`pygnome_version.txt`, which are written last. Cycles of references, on which the code does not
terminate, cannot be expressed.
-/

namespace Verif.Persist

/-- Text. -/
abbrev Str := List Char

/-- An object with everything it refers to; `F` is what is known about a data file. -/
inductive Obj (F : Type) where
  | node (id : Nat) (name : Str) (data : Nat) (files : List F) (kids : List (Obj F))

/-- The id of an object. -/
def Obj.id {F : Type} : Obj F → Nat
  | .node i _ _ _ _ => i

/-- The json file of an object (`base_schema.py:318-320`): references are file names. -/
structure Json where
  name : Str
  data : Nat
  files : List Str
  kids : List Str
  deriving DecidableEq, Repr

/-- A file of the archive. -/
inductive Entry (B : Type) where
  | json (j : Json)
  | bytes (b : B)
  deriving DecidableEq, Repr

/-- Looking up a key. -/
def get? {κ ν : Type} [DecidableEq κ] : List (κ × ν) → κ → Option ν
  | [], _ => none
  | (k, v) :: l, x => if k = x then some v else get? l x

/-- The archive, and the file names given to objects so far. -/
structure St (B : Type) where
  zip : List (Str × Entry B)
  refs : List (Nat × Str)

/-- `sanitize_string` (`base_schema.py:977-979`). -/
def sanitize (s : Str) : Str :=
  s.map fun c => if c ∈ ['/', '\\', '<', '>', ':', '"', '|', '?', '*', '$'] then '_' else c

/-- `fmtstring.format(x)` for a format with `{0}`; other fields in braces raise. -/
def format (x : Str) : Str → Option Str
  | [] => some []
  | '{' :: '{' :: r => (format x r).map ('{' :: ·)
  | '}' :: '}' :: r => (format x r).map ('}' :: ·)
  | '{' :: '0' :: '}' :: r => (format x r).map (x ++ ·)
  | '{' :: _ => none
  | '}' :: _ => none
  | c :: r => (format x r).map (c :: ·)

/-- `os.path.splitext` of a name with `.json` put at its end: a name made of dots only is all root. -/
def splitExt (name : Str) : Str × Str :=
  if name.all (· = '.') then (name ++ ".json".toList, []) else (name, ".json".toList)

/-- `str(k)`. -/
def numeral (k : Nat) : Str := if k = 0 then ['0'] else Verif.Cache.decimal k

/-- The text put into the file name at attempt `k`. -/
def suffix : Nat → Str
  | 0 => []
  | k + 1 => [' ', '('] ++ numeral k ++ [')']

/-- The file name tried at attempt `k` (`base_schema.py:988-999`). -/
def candidate (name : Str) (k : Nat) : Option Str :=
  let p := splitExt (sanitize name)
  format (suffix k) (p.1 ++ ['{', '0', '}'] ++ p.2)

/-- The loop of `gen_unique_filename` from attempt `k` on, with `n` attempts left. -/
def tryNames (name : Str) (taken : List Str) : Nat → Nat → Option Str
  | 0, _ => none
  | n + 1, k =>
    match candidate name k with
    | none => none
    | some f => if f ∈ taken then tryNames name taken n (k + 1) else some f

/-- `gen_unique_filename` (`base_schema.py:982-1004`). -/
def uniqueName (name : Str) (taken : List Str) : Option Str := tryNames name taken 255 0

/-- `zipfile_.namelist()`. -/
def names {B : Type} (z : List (Str × Entry B)) : List Str := z.map Prod.fst

section
variable {P B : Type}

/-- `_process_supporting_file` (`base_schema.py:370-384`); `base` is the name without directory,
`fs` the contents. -/
def addFile (base : P → Str) (fs : P → B) (z : List (Str × Entry B)) (p : P) :
    List (Str × Entry B) :=
  if base p ∈ names z then z else z ++ [(base p, .bytes (fs p))]

/-- All data files of an object. -/
def addFiles (base : P → Str) (fs : P → B) (z : List (Str × Entry B)) (ps : List P) :
    List (Str × Entry B) := ps.foldl (addFile base fs) z

/-- The file name of an object (`base_schema.py:262-268`), and `refs` afterwards. -/
def nameFor (st : St B) (id : Nat) (name : Str) : Option (Str × List (Nat × Str)) :=
  match get? st.refs id with
  | some f => some (f, st.refs)
  | none => (uniqueName name (names st.zip)).map fun f => (f, st.refs ++ [(id, f)])

/-- `_save` (`base_schema.py:261-321`), the references being saved already. -/
def write (base : P → Str) (fs : P → B) (id : Nat) (name : Str) (data : Nat) (files : List P)
    (ks : List Str) (st : St B) : Option (Str × St B) :=
  match nameFor st id name with
  | none => none
  | some (f, refs) =>
    let z := addFiles base fs st.zip files
    let z' := if f ∈ names z then z else z ++ [(f, .json ⟨name, data, files.map base, ks⟩)]
    some (f, ⟨z', refs⟩)

mutual
/-- `save` (`base_schema.py:323-368`): the references first, then the object. -/
def save (base : P → Str) (fs : P → B) : Obj P → St B → Option (Str × St B)
  | .node id name data files kids, st =>
    match saveAll base fs kids st with
    | none => none
    | some (ks, st') => write base fs id name data files ks st'
/-- The references in order. -/
def saveAll (base : P → Str) (fs : P → B) : List (Obj P) → St B → Option (List Str × St B)
  | [], st => some ([], st)
  | o :: os, st =>
    match save base fs o st with
    | none => none
    | some (k, st') =>
      match saveAll base fs os st' with
      | none => none
      | some (ks, st'') => some (k :: ks, st'')
end

/-- `_load_supporting_file` for each data file. -/
def readFiles (z : List (Str × Entry B)) : List Str → Option (List B)
  | [] => some []
  | f :: fs =>
    match get? z f with
    | some (.bytes b) => (readFiles z fs).map (b :: ·)
    | _ => none

/-- `_deser` (`base_schema.py:131-153`): an object known by its file name is used again. -/
def make (f : Str) (j : Json) (files : List B) (kids : List (Obj B)) (refs : List (Str × Obj B)) :
    Obj B × List (Str × Obj B) :=
  match get? refs f with
  | some o => (o, refs)
  | none =>
    let o := .node refs.length j.name j.data files kids
    (o, refs ++ [(f, o)])

/-- Doing something for each of a list, passing the state on, until it fails. -/
def mapSt {α β σ : Type} (g : α → σ → Option (β × σ)) : List α → σ → Option (List β × σ)
  | [], st => some ([], st)
  | a :: as, st =>
    match g a st with
    | none => none
    | some (b, st') =>
      match mapSt g as st' with
      | none => none
      | some (bs, st'') => some (b :: bs, st'')

/-- `load` (`base_schema.py:386-427`): the references first. The ids of the new objects count them;
the first argument bounds the depth. -/
def load (z : List (Str × Entry B)) : Nat → Str → List (Str × Obj B) →
    Option (Obj B × List (Str × Obj B))
  | 0, _, _ => none
  | n + 1, f, refs =>
    match get? z f with
    | some (.json j) =>
      match mapSt (load z n) j.kids refs, readFiles z j.files with
      | some (kids, refs'), some files => some (make f j files kids refs')
      | _, _ => none
    | _ => none

end

end Verif.Persist
