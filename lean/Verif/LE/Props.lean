import Mathlib.Data.List.Basic
import Mathlib.Tactic.Linarith
/-!
# Model of the element data buffers (`LEData`) and property C25

Source: `/repo/py_gnome/gnome/spills/le.py`. Rows have any type `α`.
-/
namespace Verif.LE

variable {α : Type}

/-- one array: its initial value, the buffer `_bufs[name]`, the number of rows in use (`_arrs[name]` is the view
`buf[0:len]`, lines 93-139) -/
structure Arr (α : Type) where
  init : α
  buf : List α
  len : Nat

/-- what the user sees as `data[name]` -/
def Arr.view (a : Arr α) : List α := a.buf.take a.len

/-- `initialize_data_arrays`, lines 102-117: a buffer of 100 rows with the initial value, nothing in use -/
def Arr.start (v : α) : Arr α := ⟨v, List.replicate 100 v, 0⟩

/-- `np.resize(old, n)` (numpy documentation): `n` rows, filled with repeated copies of `old` -/
def resize (old : List α) (v : α) (n : Nat) : List α := (List.range n).map (fun i => old.getD (i % old.length) v)

/-- `buf[k:] = v` -/
def fillFrom (l : List α) (k : Nat) (v : α) : List α := l.take k ++ List.replicate (l.length - k) v

/-- `extend_data_arrays` for one array, lines 126-139 -/
def Arr.extend (a : Arr α) (k : Nat) : Arr α :=
  let newLen := a.view.length + k
  if a.buf.length < newLen then
    { a with buf := fillFrom (resize a.buf a.init (2 * newLen)) a.buf.length a.init, len := newLen }
  else { a with len := newLen }

/-- `data[name][i] = x` for a row in use (the view shares memory with the buffer) -/
def Arr.write (a : Arr α) (i : Nat) (x : α) : Arr α := if i < a.view.length then { a with buf := a.buf.set i x } else a

inductive Op (α : Type)
  | extend (k : Nat)
  | write (arr i : Nat) (x : α)

/-- all arrays -/
def step (s : List (Arr α)) : Op α → List (Arr α)
  | .extend k => s.map (·.extend k)
  | .write j i x => s.modify j (·.write i x)

def run (s : List (Arr α)) (ops : List (Op α)) : List (Arr α) := ops.foldl step s

/-! ### specification: arrays are lists of rows -/

/-- expected rows of one array after one operation; `j` is the number of the array -/
def specOne (v : α) (j : Nat) (rows : List α) : Op α → List α
  | .extend k => rows ++ List.replicate k v
  | .write j' i x => if j' = j then rows.set i x else rows

def specRun (v : α) (j : Nat) (ops : List (Op α)) : List α := ops.foldl (specOne v j) []

/-! ### proofs -/

/-- unused rows hold the initial value -/
def Arr.Ok (a : Arr α) : Prop := a.len ≤ a.buf.length ∧ a.buf.drop a.len = List.replicate (a.buf.length - a.len) a.init ∧
  0 < a.buf.length

theorem ok_start (v : α) : (Arr.start v).Ok := by
  refine ⟨Nat.zero_le _, ?_, ?_⟩ <;> simp [Arr.start]

theorem view_length {a : Arr α} (h : a.Ok) : a.view.length = a.len := by
  simp [Arr.view, h.1]

theorem take_ext {a : Arr α} (h : a.Ok) (k : Nat) (hk : a.len + k ≤ a.buf.length) :
    a.buf.take (a.len + k) = a.view ++ List.replicate k a.init := by
  rw [List.take_add, h.2.1, List.take_replicate, Nat.min_eq_left (by omega)]
  rfl

theorem extend_spec {a : Arr α} (h : a.Ok) (k : Nat) :
    (a.extend k).Ok ∧ (a.extend k).view = a.view ++ List.replicate k a.init ∧ (a.extend k).init = a.init := by
  unfold Arr.extend
  simp only [view_length h]
  split
  · rename_i hlt
    have hb : fillFrom (resize a.buf a.init (2 * (a.len + k))) a.buf.length a.init =
        a.buf ++ List.replicate (2 * (a.len + k) - a.buf.length) a.init := by
      unfold fillFrom
      have hl : (resize a.buf a.init (2 * (a.len + k))).length = 2 * (a.len + k) := by simp [resize]
      rw [hl]
      congr 1
      apply List.ext_getElem
      · rw [List.length_take, hl]; omega
      · intro i h1 h2
        rw [List.getElem_take]
        simp only [resize, List.getElem_map, List.getElem_range]
        rw [Nat.mod_eq_of_lt h2]
        simp [List.getD, h2]
    simp only [hb]
    refine ⟨⟨?_, ?_, ?_⟩, ?_, trivial⟩
    · simp only [List.length_append, List.length_replicate]; omega
    · simp only
      rw [List.drop_append, List.drop_eq_nil_of_le (by omega)]
      simp only [List.nil_append, List.drop_replicate, List.length_append, List.length_replicate]
      congr 1
      omega
    · have := h.2.2
      simp only [List.length_append]; omega
    · unfold Arr.view
      simp only
      rw [List.take_append, List.take_of_length_le (by omega), List.take_replicate, Nat.min_eq_left (by omega)]
      have hb2 : ∀ m, a.buf ++ List.replicate m a.init = (a.buf.take a.len ++ a.buf.drop a.len) ++ List.replicate m a.init := by
        intro m; rw [List.take_append_drop]
      rw [hb2, h.2.1, List.append_assoc, List.replicate_append_replicate]
      congr 2
      have := h.1
      omega
  · rename_i hge
    refine ⟨⟨by simp only; omega, ?_, h.2.2⟩, take_ext h k (by omega), rfl⟩
    simp only
    rw [← List.drop_drop, h.2.1, List.drop_replicate]
    congr 1
    omega

theorem write_spec {a : Arr α} (h : a.Ok) (i : Nat) (x : α) :
    (a.write i x).Ok ∧ (a.write i x).view = a.view.set i x ∧ (a.write i x).init = a.init := by
  unfold Arr.write
  rw [view_length h]
  split
  · rename_i hi
    refine ⟨⟨by simpa using h.1, ?_, by simpa using h.2.2⟩, ?_, rfl⟩
    · simp only [List.length_set]
      rw [List.drop_set_of_lt hi]
      exact h.2.1
    · unfold Arr.view
      simp only
      rw [List.take_set]
  · rename_i hi
    refine ⟨h, ?_, rfl⟩
    rw [List.set_eq_of_length_le]
    rw [view_length h]; omega

theorem step_get (s : List (Arr α)) (op : Op α) (j : Nat) (a : Arr α) (ha : s[j]? = some a) (h : a.Ok) :
    ∃ a', (step s op)[j]? = some a' ∧ a'.Ok ∧ a'.view = specOne a.init j a.view op ∧ a'.init = a.init := by
  cases op with
  | extend k =>
    refine ⟨a.extend k, by simp [step, ha], ?_⟩
    exact extend_spec h k
  | write j' i x =>
    simp only [step, specOne]
    by_cases hj : j' = j
    · subst hj
      refine ⟨a.write i x, ?_, ?_⟩
      · rw [List.getElem?_modify_eq, ha]; rfl
      · rw [if_pos rfl]; exact write_spec h i x
    · refine ⟨a, ?_, h, by rw [if_neg hj], rfl⟩
      rw [List.getElem?_modify_ne _ _ hj, ha]

/-- **C25.** After any sequence of extensions and writes, every array shows exactly the rows that were there (with the
writes made to them) followed by the new rows holding the initial value, however often the buffer was enlarged. -/
theorem C25_buffer_growth (inits : List α) (ops : List (Op α)) (j : Nat) (v : α) (hv : inits[j]? = some v) :
    ∃ a, (run (inits.map Arr.start) ops)[j]? = some a ∧ a.view = specRun v j ops := by
  have gen : ∀ (ops : List (Op α)) (s : List (Arr α)) (a : Arr α), s[j]? = some a → a.Ok →
      ∃ a', (run s ops)[j]? = some a' ∧ a'.view = ops.foldl (specOne a.init j) a.view := by
    intro ops
    induction ops with
    | nil => intro s a ha _; exact ⟨a, ha, rfl⟩
    | cons op ops ih =>
      intro s a ha hok
      obtain ⟨a1, h1, h2, h3, h4⟩ := step_get s op j a ha hok
      obtain ⟨a2, g1, g2⟩ := ih (step s op) a1 h1 h2
      refine ⟨a2, g1, ?_⟩
      rw [g2, h3, h4]
      rfl
  obtain ⟨a, h1, h2⟩ := gen ops (inits.map Arr.start) (Arr.start v) (by simp [hv]) (ok_start v)
  refine ⟨a, h1, ?_⟩
  rw [h2]
  simp [Arr.view, Arr.start, specRun]

/-- all arrays keep the same number of rows, which is the number of rows added -/
theorem C25_equal_lengths (inits : List α) (ops : List (Op α)) (a : Arr α) (ha : a ∈ run (inits.map Arr.start) ops) :
    a.view.length = (ops.map (fun op => match op with | .extend k => k | .write _ _ _ => 0)).sum := by
  obtain ⟨j, hj⟩ := List.mem_iff_getElem?.1 ha
  have hlen : (run (inits.map Arr.start) ops).length = inits.length := by
    have : ∀ (ops : List (Op α)) (s : List (Arr α)), (run s ops).length = s.length := by
      intro ops
      induction ops with
      | nil => intro s; rfl
      | cons op ops ih =>
        intro s
        change (run (step s op) ops).length = _
        rw [ih]
        cases op <;> simp [step]
    rw [this]; simp
  have hjlt : j < inits.length := by
    rw [← hlen]
    exact (List.getElem?_eq_some_iff.1 hj).1
  obtain ⟨a', h1, h2⟩ := C25_buffer_growth inits ops j inits[j] (List.getElem?_eq_getElem hjlt)
  rw [hj] at h1
  cases h1
  rw [h2]
  unfold specRun
  have : ∀ (ops : List (Op α)) (rows : List α), (ops.foldl (specOne inits[j] j) rows).length =
      rows.length + (ops.map (fun op => match op with | .extend k => k | .write _ _ _ => 0)).sum := by
    intro ops
    induction ops with
    | nil => intro rows; simp
    | cons op ops ih =>
      intro rows
      rw [List.foldl_cons, ih]
      cases op with
      | extend k => simp [specOne]; omega
      | write j' i x => simp only [specOne]; split <;> simp
  rw [this]; simp

/-- three growths with writes in between, two arrays -/
example : (run ([0, 7].map Arr.start) [.extend 90, .write 0 3 5, .extend 60, .write 1 149 9, .extend 400]).map
    (fun a => (a.view.length, a.view.getD 3 0, a.view.getD 149 0, a.view.getD 549 0)) = [(550, 5, 0, 0), (550, 7, 9, 7)] := by
  decide +kernel

end Verif.LE
