import Verif.Container.Lemmas
/-!
# Properties C20–C23: the element arrays of a spill container
-/
namespace Verif.Container
open Verif.Py

/-! ## C20 -/

/-- what a caller must respect for C20: `prepare_for_model_run` is called on purged arrays (new or rewound container)
and an element is split with acceptable fractions (or into fewer than two parts, which is rejected cleanly). -/
def Allowed (c : Cont) : Op → Prop
  | .prepare ts => c.arrays = [] ∧ (ts.map Prod.fst).Nodup
  | .split _ num l => num < 2 ∨ GoodFrac num l
  | _ => True

def AllowedRun (c : Cont) (ctr : ℚ) : List Op → Prop
  | [] => True
  | op :: ops => Allowed c op ∧ AllowedRun (step c ctr op).1 (step c ctr op).2.1 ops

theorem get?_prepare (ts : Types) (d : Arrays) (k : String) :
    (ts.foldl (fun d p => d.set p.1 []) d).get? k = if (Dict.get? ts k).isSome then some [] else d.get? k := by
  induction ts generalizing d with
  | nil => simp
  | cons p ts ih =>
    obtain ⟨name, a⟩ := p
    simp only [List.foldl_cons]
    rw [ih, Dict.get?_cons, Dict.get?_set]
    by_cases h : name = k <;> simp [h]

theorem wf_prepare (ts : Types) (d : Arrays) (h : d.WF) : (ts.foldl (fun d p => d.set p.1 []) d).WF := by
  induction ts generalizing d with
  | nil => exact h
  | cons p ts ih => exact ih _ (h.set _ _)

/-- replacing one column by one of the same length -/
theorem Inv.set {c : Cont} {n : Nat} (h : Inv c n) {k : String} {rows new : List Row} (hk : c.arrays.get? k = some rows)
    (hlen : new.length = rows.length) : Inv { c with arrays := c.arrays.set k new } n where
  nodup := h.nodup
  wf := h.wf.set _ _
  keys := by
    intro k'
    simp only
    rw [Dict.get?_set]
    split
    · rename_i he; subst he
      have := h.keys k
      rw [hk] at this
      simpa using this
    · exact h.keys k'
  lens := by
    intro k' r hr
    simp only at hr
    rw [Dict.get?_set] at hr
    split at hr
    · cases hr; rw [hlen]; exact h.lens k rows hk
    · exact h.lens k' r hr

theorem findIdx?_lt {l : List Row} {p : Row → Bool} {i : Nat} (h : l.findIdx? p = some i) : i < l.length :=
  (List.findIdx?_eq_some_iff_getElem.1 h).1

/-- a successful split applies `splitCol` to every column -/
theorem split_eq {c : Cont} {n : Nat} (h : Inv c n) (ix : ℚ) (num : Nat) (l : Option (List ℚ)) (hn : 2 ≤ num)
    (hl : GoodFrac num l) {ids : List Row} (hids : c.arrays.get? "id" = some ids) {idx : Nat}
    (hidx : ids.findIdx? (fun r => r == [ix]) = some idx) :
    idx < n ∧ split c ix num l =
      ({ c with arrays := applyAll (fun _ a rows => splitCol idx num l a rows) c.types c.arrays }, none) := by
  have hlt : idx < n := by rw [← h.lens _ _ hids]; exact findIdx?_lt hidx
  refine ⟨hlt, ?_⟩
  have hloop := splitLoop_ok idx num l hn hl c.types h.nodup c.arrays (by
    intro p hp
    have hs : (Dict.get? c.types p.1).isSome := by
      rw [Dict.get?_of_mem (d := c.types) h.nodup (k := p.1) (v := p.2) hp]; rfl
    rw [← h.keys] at hs
    obtain ⟨rows, hr⟩ := Option.isSome_iff_exists.1 hs
    exact ⟨rows, hr, by rw [h.lens _ _ hr]; exact hlt⟩)
  simp only [split, hids, hidx, hloop]

theorem step_inv {c : Cont} {n : Nat} (h : Inv c n) (ctr : ℚ) (op : Op) (ha : Allowed c op) :
    ∃ m, Inv (step c ctr op).1 m := by
  cases op with
  | rewind =>
    exact ⟨0, ⟨by simp [step, rewind], by simp [step, rewind, Dict.WF], by intro k; rfl,
      by intro k rows hk; simp [step, rewind] at hk⟩⟩
  | prepare ts =>
    obtain ⟨h1, h2⟩ := ha
    refine ⟨0, ⟨h2, wf_prepare ts _ h.wf, ?_, ?_⟩⟩
    · intro k
      simp only [step, prepare]
      rw [get?_prepare, h1]
      cases hs : (Dict.get? ts k).isSome <;> simp
    · intro k rows hk
      simp only [step, prepare] at hk
      rw [get?_prepare, h1] at hk
      cases hs : (Dict.get? ts k).isSome with
      | true => simp [hs] at hk; subst hk; rfl
      | false => simp [hs] at hk
  | release k =>
    simp only [step]
    split
    · exact ⟨n, h⟩
    · exact ⟨n + k, h.applyAll _ (by
        intro _ a rows _ hr
        rw [List.length_append, initRows_length, h.lens _ _ hr])⟩
  | write name i v =>
    refine ⟨n, ?_⟩
    simp only [step, write]
    cases hk : c.arrays.get? name with
    | none => exact h
    | some rows => exact h.set hk (by simp)
  | split ix num l =>
    simp only [step]
    by_cases hn : num < 2
    · refine ⟨n, ?_⟩
      unfold split
      cases hids : c.arrays.get? "id" with
      | none => exact h
      | some ids =>
        cases hidx : ids.findIdx? (fun r => r == [ix]) with
        | none => simp only [hidx]; exact h
        | some idx =>
          simp only [hidx, splitLoop_small idx num l hn]
          exact h
    · have hl := ha.resolve_left hn
      cases hids : c.arrays.get? "id" with
      | none => exact ⟨n, by simp only [split, hids]; exact h⟩
      | some ids =>
        cases hidx : ids.findIdx? (fun r => r == [ix]) with
        | none => exact ⟨n, by simp only [split, hids, hidx]; exact h⟩
        | some idx =>
          obtain ⟨hlt, he⟩ := split_eq h ix num l (by omega) hl hids hidx
          rw [he]
          refine ⟨n + num - 1, h.applyAll _ ?_⟩
          intro _ a rows _ hr
          rw [splitCol_length idx num l (by omega) hl a rows (by rw [h.lens _ _ hr]; exact hlt), h.lens _ _ hr]
  | markOffMap =>
    refine ⟨n, ?_⟩
    simp only [step, markOffMap]
    cases hk : c.arrays.get? "status_codes" with
    | none => exact h
    | some rows => exact h.set hk (by simp)
  | stepDone =>
    simp only [step, stepDone]
    cases hk : c.arrays.get? "status_codes" with
    | none => exact ⟨n, h⟩
    | some st =>
      simp only
      split
      · exact ⟨n, h⟩
      · refine ⟨_, h.applyAll (m := ((List.range n).filter (fun i => !(marked st).contains i)).length) _ ?_⟩
        intro _ a rows _ hr
        rw [deleteRows_length, h.lens _ _ hr]

theorem inv_empty : Inv empty 0 :=
  ⟨by simp [empty], by simp [empty, Dict.WF], by intro k; rfl, by intro k rows hk; simp [empty] at hk⟩

theorem run_inv (ops : List Op) {c : Cont} {n : Nat} (h : Inv c n) (ctr : ℚ) (ha : AllowedRun c ctr ops) :
    ∃ m, Inv (run c ctr ops).1 m := by
  induction ops generalizing c ctr n with
  | nil => exact ⟨n, h⟩
  | cons op ops ih =>
    obtain ⟨m, hm⟩ := step_inv h ctr op ha.1
    exact ih hm _ ha.2

/-- **C20, part that holds**: after every allowed history of a new container (any length) all data arrays have the same
number of rows, namely `num_released`. Missing: splits with unacceptable fractions. -/
theorem C20_equal_lengths_partial (ctr : ℚ) (ops : List Op) (ha : AllowedRun empty ctr ops) :
    ∀ p ∈ (run empty ctr ops).1.arrays, p.2.length = len (run empty ctr ops).1 := by
  obtain ⟨m, hm⟩ := run_inv ops inv_empty ctr ha
  intro p hp
  rw [hm.all_len p hp, hm.len_eq (by rintro he; rw [he] at hp; cases hp)]

/-- four array types, in the order of the code's default list (array_types.py lines 391-410) -/
def exTypes : Types := [("positions", ⟨.plain, [0, 0, 0]⟩), ("status_codes", ⟨.plain, [2]⟩), ("mass", ⟨.divide, [0]⟩),
  ("id", ⟨.id, [0]⟩)]

/-- the claim of C20 for one run of a container with these arrays, without restriction on the splits -/
def C20_claim : Prop := ∀ (ctr : ℚ) (ops : List Op), (∀ op ∈ ops, ∀ ts, op ≠ .prepare ts) →
  ∀ p ∈ (run empty ctr (.prepare exTypes :: ops)).1.arrays,
    p.2.length = len (run empty ctr (.prepare exTypes :: ops)).1

/-- **C20 is false of the code**: `split_element` with fractions of the wrong number raises when it reaches the first
divided array; the arrays before it have already been split. -/
theorem C20_counterexample : ¬ C20_claim := by
  intro h
  have h1 := h 0 [.release 2, .split 0 2 (some [1])] (by simp) ("mass", [[0], [0]]) (by decide +kernel)
  revert h1
  decide +kernel

/-- a history with everything in it that meets the conditions of `C20_equal_lengths_partial` -/
def exOps : List Op := [.prepare exTypes, .release 3, .write "mass" 1 [6], .split 1 2 (some [1/3, 2/3]),
  .write "status_codes" 0 [7], .markOffMap, .stepDone, .release 2, .rewind, .prepare exTypes, .release 1]

theorem goodFrac_ex : GoodFrac 2 (some [1/3, 2/3]) := by
  intro l hl; cases hl; refine ⟨rfl, ?_⟩; decide +kernel

example : AllowedRun empty 0 exOps := by
  refine ⟨⟨rfl, by decide⟩, trivial, trivial, Or.inr goodFrac_ex, trivial, trivial, trivial, trivial, trivial,
    ⟨rfl, by decide⟩, trivial, trivial⟩

/-- Preparing again without a rewind keeps arrays that are no longer asked for, with their old length (second reason
for the condition on `prepare` in `Allowed`). -/
theorem C20_prepare_without_rewind :
    ∃ p ∈ (run empty 0 [.prepare exTypes, .release 2, .prepare [("mass", ⟨.divide, [0]⟩)], .release 1]).1.arrays,
      p.1 = "positions" ∧ p.2.length = 2 := by
  refine ⟨("positions", [[0, 0, 0], [0, 0, 0]]), by decide +kernel, rfl, rfl⟩

/-! ## C21 -/

theorem stepDone_get {c : Cont} {n : Nat} (h : Inv c n) {st : List Row} (hst : c.arrays.get? "status_codes" = some st)
    (k : String) (rows : List Row) (hk : c.arrays.get? k = some rows) :
    (stepDone c).arrays.get? k =
      some (((List.range n).filter (fun i => st[i]? != some [toBeRemoved])).filterMap (fun i => rows[i]?)) := by
  have hlen := h.lens _ _ hk
  have hslen := h.lens _ _ hst
  have hmask : (List.range n).filter (fun i => !(marked st).contains i) =
      (List.range n).filter (fun i => st[i]? != some [toBeRemoved]) := by
    apply List.filter_congr
    intro i hi
    rw [List.mem_range] at hi
    have : (marked st).contains i = (st[i]? == some [toBeRemoved]) := by
      unfold marked
      rw [Bool.eq_iff_iff, List.contains_iff_mem, List.mem_filter, List.mem_range, hslen]
      simp [hi]
    rw [this]; rfl
  unfold stepDone
  rw [hst]
  simp only
  split
  · rename_i hm
    have : (List.range n).filter (fun i => st[i]? != some [toBeRemoved]) = List.range n := by
      rw [← hmask, hm]; simp
    rw [this, hk, ← hlen]
    congr 1
    apply List.ext_getElem?
    intro i
    have h2 : (List.range rows.length).filterMap (fun i => rows[i]?) = (List.range rows.length).map (fun i => rows.getD i []) := by
      rw [← List.filterMap_eq_map]
      apply List.filterMap_congr
      intro x hx
      rw [List.mem_range] at hx
      simp [List.getElem?_eq_getElem hx, List.getD]
    rw [h2]
    by_cases hi : i < rows.length
    · simp [hi, List.getD]
    · simp [hi]
  · simp only
    rw [get?_applyAll _ c.types h.nodup]
    have hkeys := h.keys k
    rw [hk] at hkeys
    obtain ⟨a, ha⟩ := Option.isSome_iff_exists.1 hkeys.symm
    rw [ha, hk]
    simp only [Option.map_some, Option.some.injEq]
    rw [deleteRows_eq, hlen, hmask]

/-- **C21.** In every state reached by an allowed history, the end-of-step removal keeps, in every data array, exactly
the rows whose status is not `to_be_removed`, unchanged and in order. -/
theorem C21_removal_exact (ctr : ℚ) (ops : List Op) (ha : AllowedRun empty ctr ops) (st : List Row)
    (hst : (run empty ctr ops).1.arrays.get? "status_codes" = some st) (k : String) (rows : List Row)
    (hk : (run empty ctr ops).1.arrays.get? k = some rows) :
    (stepDone (run empty ctr ops).1).arrays.get? k =
      some (((List.range rows.length).filter (fun i => st[i]? != some [toBeRemoved])).filterMap (fun i => rows[i]?)) := by
  obtain ⟨m, hm⟩ := run_inv ops inv_empty ctr ha
  rw [hm.lens _ _ hk]
  exact stepDone_get hm hst k rows hk

/-- writes to arrays other than the status codes -/
def writes (c : Cont) : List (String × Nat × Row) → Cont
  | [] => c
  | w :: ws => writes (write c w.1 w.2.1 w.2.2) ws

theorem write_inv {c : Cont} {n : Nat} (h : Inv c n) (name : String) (i : Nat) (v : Row) : Inv (write c name i v) n := by
  unfold write
  cases hk : c.arrays.get? name with
  | none => exact h
  | some rows => exact h.set hk (by simp)

theorem write_other (c : Cont) (name : String) (i : Nat) (v : Row) (k : String) (hne : name ≠ k) :
    (write c name i v).arrays.get? k = c.arrays.get? k := by
  unfold write
  cases hk : c.arrays.get? name with
  | none => rfl
  | some rows => simp only; rw [Dict.get?_set, if_neg hne]

theorem writes_facts (ws : List (String × Nat × Row)) {c : Cont} {n : Nat} (h : Inv c n)
    (hws : ∀ w ∈ ws, w.1 ≠ "status_codes") :
    Inv (writes c ws) n ∧ (writes c ws).arrays.get? "status_codes" = c.arrays.get? "status_codes" := by
  induction ws generalizing c with
  | nil => exact ⟨h, rfl⟩
  | cons w ws ih =>
    obtain ⟨a, b⟩ := ih (write_inv h w.1 w.2.1 w.2.2) (fun x hx => hws x (List.mem_cons_of_mem _ hx))
    exact ⟨a, by rw [writes, b, write_other _ _ _ _ _ (hws w List.mem_cons_self)]⟩

/-- **C21**, off-map elements: an element that the map code marked as off the map is gone at the end of the step
(whatever weathering writes to the other arrays in between), together with those marked for removal, and no other. -/
theorem C21_off_map_removed (ctr : ℚ) (ops : List Op) (ha : AllowedRun empty ctr ops) (st : List Row)
    (hst : (run empty ctr ops).1.arrays.get? "status_codes" = some st) (ws : List (String × Nat × Row))
    (hws : ∀ w ∈ ws, w.1 ≠ "status_codes") (k : String) (rows : List Row)
    (hk : (writes (markOffMap (run empty ctr ops).1) ws).arrays.get? k = some rows) :
    (stepDone (writes (markOffMap (run empty ctr ops).1) ws)).arrays.get? k =
      some (((List.range rows.length).filter (fun i => st[i]? != some [toBeRemoved] && st[i]? != some [offMaps])).filterMap
        (fun i => rows[i]?)) := by
  obtain ⟨m, hm⟩ := run_inv ops inv_empty ctr ha
  generalize (run empty ctr ops).1 = c at *
  have hm' : Inv (markOffMap c) m := by
    unfold markOffMap; rw [hst]; exact hm.set hst (by simp)
  have hst' : (markOffMap c).arrays.get? "status_codes" =
      some (st.map (fun r => if r = [offMaps] then [toBeRemoved] else r)) := by
    unfold markOffMap; rw [hst]; simp only; rw [Dict.get?_set, if_pos rfl]
  obtain ⟨hw, hws2⟩ := writes_facts ws hm' hws
  rw [hst'] at hws2
  rw [stepDone_get hw hws2 k rows hk, ← hw.lens _ _ hk]
  congr 2
  apply List.filter_congr
  intro i _
  rw [List.getElem?_map]
  have h712 : offMaps ≠ toBeRemoved := by decide +kernel
  cases hi : st[i]? with
  | none => simp
  | some r =>
    by_cases h7 : r = [offMaps]
    · subst h7; simp
    · simp [h7]

/-- a state with marked, off-map and ordinary elements that the theorems apply to -/
example : ((run empty 0 [.prepare exTypes, .release 3, .write "status_codes" 0 [7], .write "status_codes" 1 [12]]).1.arrays.get?
    "status_codes" = some [[7], [12], [2]]) ∧
    (stepDone (markOffMap (run empty 0 [.prepare exTypes, .release 3, .write "status_codes" 0 [7],
      .write "status_codes" 1 [12]]).1)).arrays.get? "id" = some [[2]] := by decide +kernel

/-! ## C23 -/

/-- **C23.** In every state reached by an allowed history, a split that is accepted replaces, in every array, the row
of the element (the first one with that id) by `num` rows and leaves all others in place; the new rows are copies,
except for the divided quantities (mass, mass components, …), whose new rows add up, component by component, to the
old row when the masses are split evenly or the fractions add up to 1. -/
theorem C23_split_conserves (ctr : ℚ) (ops : List Op) (ha : AllowedRun empty ctr ops) (ix : ℚ) (num : Nat)
    (l : Option (List ℚ)) (hn : 2 ≤ num) (hl : GoodFrac num l) (ids : List Row)
    (hids : (run empty ctr ops).1.arrays.get? "id" = some ids) (idx : Nat)
    (hidx : ids.findIdx? (fun r => r == [ix]) = some idx)
    (k : String) (a : AT) (rows : List Row) (ht : Dict.get? (run empty ctr ops).1.types k = some a)
    (hk : (run empty ctr ops).1.arrays.get? k = some rows) :
    (split (run empty ctr ops).1 ix num l).2 = none ∧
    ∃ A v B new, rows = A ++ v :: B ∧ A.length = idx ∧
      (split (run empty ctr ops).1 ix num l).1.arrays.get? k = some (A ++ new ++ B) ∧ new.length = num ∧
      (a.kind ≠ .divide → ∀ r ∈ new, r = v) ∧
      (a.kind = .divide → ((∀ fs, l = some fs → fs.sum = 1) →
        ∀ j, (new.map (fun r => r.getD j 0)).sum = v.getD j 0)) := by
  obtain ⟨m, hm⟩ := run_inv ops inv_empty ctr ha
  generalize (run empty ctr ops).1 = c at *
  obtain ⟨hlt, he⟩ := split_eq hm ix num l hn hl hids hidx
  rw [he]
  refine ⟨rfl, ?_⟩
  have hlt' : idx < rows.length := by rw [hm.lens _ _ hk]; exact hlt
  obtain ⟨new, hnew, hnl⟩ := splitRow_ok a num rows[idx] l hn hl
  have hne : new ≠ [] := by rintro rfl; simp at hnl; omega
  have hdec : rows = rows.take idx ++ rows[idx] :: rows.drop (idx + 1) := by
    rw [List.getElem_cons_drop, List.take_append_drop]
  refine ⟨rows.take idx, rows[idx], rows.drop (idx + 1), new, hdec, by rw [List.length_take]; omega, ?_, hnl, ?_, ?_⟩
  · simp only
    rw [get?_applyAll _ c.types hm.nodup, ht, hk]
    simp only [Option.map_some, Option.some.injEq, splitCol, List.getElem?_eq_getElem hlt', hnew]
    have hA : (rows.take idx).length = idx := by rw [List.length_take]; omega
    have := splice_eq (rows.take idx) (rows.drop (idx + 1)) new rows[idx] hne
    rw [hA, ← hdec] at this
    exact this
  · intro hkind r hr
    unfold splitRow at hnew
    rw [if_neg (by omega)] at hnew
    cases hkk : a.kind with
    | divide => exact absurd hkk hkind
    | plain => rw [hkk] at hnew; cases hnew; exact List.eq_of_mem_replicate hr
    | id => rw [hkk] at hnew; cases hnew; exact List.eq_of_mem_replicate hr
  · intro hkind hsum j
    unfold splitRow at hnew
    rw [if_neg (by omega), hkind] at hnew
    have hn0 : (num : ℚ) ≠ 0 := by
      have : num ≠ 0 := by omega
      exact_mod_cast this
    cases l with
    | none =>
      cases hnew
      have hg : ∀ v : Row, (v.map (· / (num : ℚ))).getD j 0 = v.getD j 0 / num := by
        intro v
        simp only [List.getD_eq_getElem?_getD, List.getElem?_map]
        cases v[j]? <;> simp
      rw [List.map_replicate, List.sum_replicate, hg]
      simp only [nsmul_eq_mul]
      field_simp
    | some fs =>
      obtain ⟨h1, h2⟩ := hl fs rfl
      simp only [h1, h2, ne_eq, not_true_eq_false, if_false, Bool.not_true, Bool.false_eq_true] at hnew
      cases hnew
      have hg : ∀ (f : ℚ) (v : Row), (v.map (· * f)).getD j 0 = v.getD j 0 * f := by
        intro f v
        simp only [List.getD_eq_getElem?_getD, List.getElem?_map]
        cases v[j]? <;> simp
      rw [List.map_map]
      have hs : ∀ fs : List ℚ, (fs.map ((fun r : Row => r.getD j 0) ∘ (fun f => rows[idx].map (· * f)))).sum =
          rows[idx].getD j 0 * fs.sum := by
        intro fs
        induction fs with
        | nil => simp
        | cons f fs ih => simp only [List.map_cons, List.sum_cons, ih, Function.comp, hg]; ring
      rw [hs, hsum fs rfl, mul_one]

/-- **C23**, tolerance: fractions are accepted when their sum is within 1.001e-5 of 1, so the total may be off by that
fraction of the mass. -/
theorem C23_tolerance (fs : List ℚ) (h : closeToOne fs = true) (m : ℚ) :
    |(fs.map (m * ·)).sum - m| ≤ |m| * (1001 / 100000000) := by
  unfold closeToOne at h
  simp only [decide_eq_true_eq] at h
  have hs : (fs.map (m * ·)).sum = m * fs.sum := by
    clear h
    induction fs with
    | nil => simp
    | cons f fs ih => simp only [List.map_cons, List.sum_cons, ih]; ring
  rw [hs, show m * fs.sum - m = m * (fs.sum - 1) by ring, abs_mul]
  apply mul_le_mul_of_nonneg_left _ (abs_nonneg m)
  norm_num at h ⊢
  exact h

/-- the tolerance is real: these fractions are accepted although they create mass -/
example : closeToOne [1/2, 1/2 + 1/200000] = true ∧ ([1/2, 1/2 + 1/200000] : List ℚ).sum ≠ 1 := by decide +kernel

example : (split (run empty 0 [.prepare exTypes, .release 3, .write "mass" 1 [6]]).1 1 2 (some [1/3, 2/3])).1.arrays.get? "mass" =
    some [[0], [2], [4], [0]] := by decide +kernel

theorem splitLoop_reject (idx num : Nat) (l : List ℚ) (hn : 2 ≤ num) (hbad : ¬ GoodFrac num (some l)) (ts : Types)
    (hnd : (ts.map Prod.fst).Nodup) (d : Arrays) (hd : ∀ p ∈ ts, ∃ rows, d.get? p.1 = some rows ∧ idx < rows.length)
    (hdiv : ∃ p ∈ ts, p.2.kind = .divide) : (splitLoop idx num (some l) ts d).2 = some .valueError := by
  induction ts generalizing d with
  | nil => obtain ⟨p, hp, _⟩ := hdiv; exact absurd hp (by simp)
  | cons p ts ih =>
    obtain ⟨name, a⟩ := p
    rw [List.map_cons, List.nodup_cons] at hnd
    obtain ⟨rows, hr, hi⟩ := hd (name, a) List.mem_cons_self
    simp only at hr
    rw [splitLoop, hr]
    simp only [List.getElem?_eq_getElem hi]
    by_cases hk : a.kind = .divide
    · have : splitRow a num rows[idx] (some l) = .error .valueError := by
        unfold splitRow
        rw [if_neg (by omega), hk]
        simp only
        by_cases h1 : l.length ≠ num
        · rw [if_pos h1]
        · rw [if_neg h1]
          by_cases h2 : closeToOne l = true
          · exact absurd (fun l' hl' => by cases hl'; exact ⟨not_not.1 h1, h2⟩) hbad
          · simp [h2]
      rw [this]
    · have : splitRow a num rows[idx] (some l) = .ok (List.replicate num rows[idx]) := by
        unfold splitRow
        rw [if_neg (by omega)]
        cases hk' : a.kind with
        | divide => exact absurd hk' hk
        | plain => rfl
        | id => rfl
      rw [this]
      apply ih hnd.2
      · intro q hq
        obtain ⟨r, hr', hi'⟩ := hd q (List.mem_cons_of_mem _ hq)
        refine ⟨r, ?_, hi'⟩
        rw [Dict.get?_set, if_neg, hr']
        intro he
        exact hnd.1 (List.mem_map.2 ⟨q, hq, he.symm⟩)
      · obtain ⟨q, hq, hqk⟩ := hdiv
        rcases List.mem_cons.1 hq with rfl | hq
        · exact absurd hqk hk
        · exact ⟨q, hq, hqk⟩

/-- **C23**, rejection: in every state reached by an allowed history, splitting an element raises ValueError whenever
there is a quantity to divide and the fractions are too many, too few or do not add up to 1 (to 1.001e-5). -/
theorem C23_rejects (ctr : ℚ) (ops : List Op) (ha : AllowedRun empty ctr ops) (ix : ℚ) (num : Nat)
    (l : List ℚ) (hn : 2 ≤ num) (hbad : l.length ≠ num ∨ |l.sum - 1| > 1 / 100000000 + 1 / 100000) (ids : List Row)
    (hids : (run empty ctr ops).1.arrays.get? "id" = some ids) (hmem : [ix] ∈ ids)
    (hdiv : ∃ p ∈ (run empty ctr ops).1.types, p.2.kind = .divide) :
    (split (run empty ctr ops).1 ix num (some l)).2 = some .valueError := by
  obtain ⟨m, hm⟩ := run_inv ops inv_empty ctr ha
  generalize (run empty ctr ops).1 = c at *
  have hg : ¬ GoodFrac num (some l) := by
    intro h
    obtain ⟨h1, h2⟩ := h l rfl
    rcases hbad with hb | hb
    · exact hb h1
    · unfold closeToOne at h2
      rw [decide_eq_true_eq] at h2
      exact absurd h2 (not_le.2 hb)
  obtain ⟨idx, hidx⟩ : ∃ idx, ids.findIdx? (fun r => r == [ix]) = some idx := by
    cases h : ids.findIdx? (fun r => r == [ix]) with
    | some i => exact ⟨i, rfl⟩
    | none =>
      rw [List.findIdx?_eq_none_iff] at h
      exact absurd (h _ hmem) (by simp)
  unfold split
  rw [hids]
  simp only [hidx]
  apply splitLoop_reject idx num l hn hg c.types hm.nodup c.arrays _ hdiv
  intro p hp
  have hlt : idx < m := by rw [← hm.lens _ _ hids]; exact findIdx?_lt hidx
  have hk := hm.keys p.1
  have hs : (Dict.get? c.types p.1).isSome = true := by
    rw [Dict.get?_of_mem hm.nodup (show (p.1, p.2) ∈ c.types from hp)]; rfl
  cases hg2 : c.arrays.get? p.1 with
  | none => rw [hg2] at hk; rw [hs] at hk; exact absurd hk (by simp)
  | some rows => exact ⟨rows, rfl, by rw [hm.lens _ _ hg2]; exact hlt⟩

example : (split (run empty 0 [.prepare exTypes, .release 3]).1 1 2 (some [1/3, 1/3])).2 = some .valueError ∧
    (split (run empty 0 [.prepare exTypes, .release 3]).1 1 2 (some [1/3, 1/3, 1/3])).2 = some .valueError := by
  decide +kernel

/-! ## C22 -/

/-- the ids in a container -/
def idsOf (c : Cont) : List ℚ := ((c.arrays.get? "id").getD []).flatten

/-- additional conditions for C22: the id array has its own type and nobody writes to it -/
def AllowedId (c : Cont) : Op → Prop
  | .prepare ts => c.arrays = [] ∧ (ts.map Prod.fst).Nodup ∧ ∃ a, Dict.get? ts "id" = some a ∧ a.kind = .id
  | .split _ num l => num < 2 ∨ GoodFrac num l
  | .write name _ _ => name ≠ "id"
  | _ => True

/-- one container: lengths fine, id column of type id, its entries ordered and below the counter -/
structure IdInv (strict : Prop) (c : Cont) (ctr : ℚ) (log : List ℚ) : Prop where
  inv : ∃ n, Inv c n
  kind : ∀ a, Dict.get? c.types "id" = some a → a.kind = .id
  ids : ∀ col, c.arrays.get? "id" = some col → ∃ l : List ℚ, col = l.map (fun x => [x]) ∧ l.Pairwise (· ≤ ·) ∧
    (strict → l.Pairwise (· < ·)) ∧ (∀ x ∈ l, x < ctr ∧ x ∈ log)

theorem flatten_single (l : List ℚ) : (l.map (fun x => [x])).flatten = l := by
  induction l with
  | nil => rfl
  | cons a l ih => rw [List.map_cons, List.flatten_cons, ih]; rfl

theorem IdInv.idsOf {strict : Prop} {c : Cont} {ctr : ℚ} {log : List ℚ} (h : IdInv strict c ctr log) :
    (idsOf c).Pairwise (· ≤ ·) ∧ (strict → (idsOf c).Pairwise (· < ·)) ∧ ∀ x ∈ idsOf c, x < ctr ∧ x ∈ log := by
  unfold Verif.Container.idsOf
  cases hk : c.arrays.get? "id" with
  | none => simp
  | some col =>
    obtain ⟨l, rfl, a, b, d⟩ := h.ids col hk
    simp only [Option.getD_some, flatten_single]
    exact ⟨a, b, d⟩

theorem IdInv.mono {strict : Prop} {c : Cont} {ctr ctr' : ℚ} {log log' : List ℚ} (h : IdInv strict c ctr log)
    (hc : ctr ≤ ctr') (hl : ∀ x ∈ log, x ∈ log') : IdInv strict c ctr' log' :=
  ⟨h.inv, h.kind, fun col hk => by
    obtain ⟨l, e, a, b, d⟩ := h.ids col hk
    exact ⟨l, e, a, b, fun x hx => ⟨lt_of_lt_of_le (d x hx).1 hc, hl x (d x hx).2⟩⟩⟩

/-- the id array has the id type and exists -/
theorem append_ids {c : Cont} {n : Nat} (h : Inv c n) (hkind : ∀ a, Dict.get? c.types "id" = some a → a.kind = .id)
    (ctr : ℚ) (k : Nat) : (append c ctr k).arrays.get? "id" =
      (c.arrays.get? "id").map (fun col => col ++ (List.range k).map (fun (i : Nat) => [ctr + i])) := by
  unfold append
  simp only
  rw [get?_applyAll _ c.types h.nodup]
  have hkeys := h.keys "id"
  cases ht : Dict.get? c.types "id" with
  | none =>
    rw [ht] at hkeys
    cases hk : c.arrays.get? "id" with
    | none => rfl
    | some col => rw [hk] at hkeys; simp at hkeys
  | some a =>
    have := hkind a ht
    cases hk : c.arrays.get? "id" with
    | none => rfl
    | some col => simp [initRows, this]

/-- ids handed out by one operation, given to whoever holds them -/
theorem step_id {strict : Prop} {c : Cont} {ctr : ℚ} {log : List ℚ} (h : IdInv strict c ctr log) (op : Op)
    (ha : AllowedId c op) (hs : strict → ∀ ix num l, op ≠ .split ix num l)
    (hrel : ∀ n, op = .release n → (c.arrays.get? "id").isSome) :
    IdInv strict (step c ctr op).1 (step c ctr op).2.1 (log ++ (step c ctr op).2.2) ∧
    ctr ≤ (step c ctr op).2.1 ∧
    (step c ctr op).2.2.Pairwise (· < ·) ∧
    (∀ x ∈ (step c ctr op).2.2, ctr ≤ x ∧ x < (step c ctr op).2.1) ∧
    (∀ x ∈ idsOf (step c ctr op).1, x ∈ idsOf c ∨ x ∈ (step c ctr op).2.2) := by
  obtain ⟨n, hn⟩ := h.inv
  have hall : Allowed c op := by
    cases op <;> simp only [Allowed] <;> simp only [AllowedId] at ha
    · exact ⟨ha.1, ha.2.1⟩
    · exact ha
  have hinv := step_inv hn ctr op hall
  -- operations that leave the id column as it is
  have same : ∀ (c' : Cont), (∃ m, Inv c' m) → c'.types = c.types → c'.arrays.get? "id" = c.arrays.get? "id" →
      IdInv strict c' ctr (log ++ []) ∧ ctr ≤ ctr ∧ ([] : List ℚ).Pairwise (· < ·) ∧
      (∀ x ∈ ([] : List ℚ), ctr ≤ x ∧ x < ctr) ∧ (∀ x ∈ idsOf c', x ∈ idsOf c ∨ x ∈ ([] : List ℚ)) := by
    intro c' hi ht hc
    refine ⟨⟨hi, by rw [ht]; exact h.kind, ?_⟩, le_refl _, List.Pairwise.nil, by simp, ?_⟩
    · intro col hk
      rw [hc] at hk
      rw [List.append_nil]
      exact h.ids col hk
    · intro x hx
      unfold Verif.Container.idsOf at hx ⊢
      rw [hc] at hx
      exact Or.inl hx
  cases op with
  | rewind =>
    refine ⟨⟨hinv, by intro a ha; simp [step, rewind] at ha, by intro col hk; simp [step, rewind] at hk⟩, le_refl _,
      List.Pairwise.nil, by simp [step], ?_⟩
    intro x hx
    simp [step, rewind, Verif.Container.idsOf] at hx
  | prepare ts =>
    obtain ⟨h1, h2, a, h3, h4⟩ := ha
    have hcol : (prepare c ts).arrays.get? "id" = some [] := by
      simp only [prepare]; rw [get?_prepare, h3]; rfl
    refine ⟨⟨hinv, ?_, ?_⟩, le_refl _, List.Pairwise.nil, by simp [step], ?_⟩
    · intro a' ha'
      simp only [step, prepare] at ha'
      rw [h3] at ha'; cases ha'; exact h4
    · intro col hk
      simp only [step] at hk
      rw [hcol] at hk
      cases hk
      exact ⟨[], rfl, List.Pairwise.nil, fun _ => List.Pairwise.nil, by simp⟩
    · intro x hx
      simp only [step, Verif.Container.idsOf] at hx
      rw [hcol] at hx
      simp at hx
  | release k =>
    by_cases hk0 : k = 0
    · subst hk0
      exact same c ⟨n, hn⟩ rfl rfl
    · obtain ⟨col, hcol⟩ := Option.isSome_iff_exists.1 (hrel k rfl)
      obtain ⟨l, rfl, p1, p2, p3⟩ := h.ids col hcol
      have happ := append_ids hn h.kind ctr k
      rw [hcol, Option.map_some] at happ
      have hctr : nextCounter (append c ctr k) = ctr + k := by
        unfold nextCounter
        rw [happ]
        obtain ⟨j, rfl⟩ := Nat.exists_eq_succ_of_ne_zero hk0
        rw [List.range_succ, List.map_append, ← List.append_assoc]
        simp
        ring
      have hstep : step c ctr (.release k) = (append c ctr k, ctr + k, (List.range k).map (fun (i : Nat) => ctr + i)) := by
        simp only [step, if_neg hk0, hctr]
      rw [hstep] at hinv ⊢
      simp only at hinv ⊢
      have hnewlt : ((List.range k).map (fun (i : Nat) => ctr + i)).Pairwise (· < ·) := by
        rw [List.pairwise_map]
        apply List.Pairwise.imp _ List.pairwise_lt_range
        intro a b hab
        have : (a : ℚ) < b := by exact_mod_cast hab
        linarith
      have hnewb : ∀ x ∈ (List.range k).map (fun (i : Nat) => ctr + (i : ℚ)), ctr ≤ x ∧ x < ctr + k := by
        intro x hx
        obtain ⟨i, hi, rfl⟩ := List.mem_map.1 hx
        rw [List.mem_range] at hi
        have : (i : ℚ) < k := by exact_mod_cast hi
        have : (0 : ℚ) ≤ i := by positivity
        constructor <;> linarith
      have hform : l.map (fun x => [x]) ++ (List.range k).map (fun (i : Nat) => [ctr + i]) =
          (l ++ (List.range k).map (fun (i : Nat) => ctr + (i : ℚ))).map (fun x => [x]) := by
        rw [List.map_append, List.map_map]; rfl
      refine ⟨⟨hinv, h.kind, ?_⟩, by have : (0 : ℚ) ≤ k := by positivity
                                     linarith, hnewlt, hnewb, ?_⟩
      · intro col hk
        rw [happ] at hk
        cases hk
        refine ⟨_, hform, ?_, ?_, ?_⟩
        · rw [List.pairwise_append]
          refine ⟨p1, hnewlt.imp (fun h => le_of_lt h), ?_⟩
          intro a ha b hb
          exact le_of_lt (lt_of_lt_of_le (p3 a ha).1 (hnewb b hb).1)
        · intro hst
          rw [List.pairwise_append]
          refine ⟨p2 hst, hnewlt, ?_⟩
          intro a ha b hb
          exact lt_of_lt_of_le (p3 a ha).1 (hnewb b hb).1
        · intro x hx
          rcases List.mem_append.1 hx with hx | hx
          · exact ⟨by have := (p3 x hx).1
                      have : (0 : ℚ) ≤ k := by positivity
                      linarith, List.mem_append.2 (Or.inl (p3 x hx).2)⟩
          · exact ⟨(hnewb x hx).2, List.mem_append.2 (Or.inr hx)⟩
      · intro x hx
        unfold Verif.Container.idsOf at hx ⊢
        rw [happ] at hx
        rw [hcol]
        simp only [Option.getD_some] at hx ⊢
        rw [hform, flatten_single] at hx
        rw [flatten_single]
        exact List.mem_append.1 hx
  | write name i v =>
    exact same _ hinv (by simp only [step, write]; split <;> rfl) (write_other c name i v "id" ha)
  | split ix num l =>
    simp only [step] at hinv ⊢
    by_cases hn2 : num < 2
    · have : (split c ix num l).1 = c := by
        unfold split
        cases hids : c.arrays.get? "id" with
        | none => rfl
        | some ids =>
          cases hidx : ids.findIdx? (fun r => r == [ix]) with
          | none => simp only [hidx]
          | some idx => simp only [hidx, splitLoop_small idx num l hn2]
      rw [this]
      exact same c ⟨n, hn⟩ rfl rfl
    · have hl := ha.resolve_left hn2
      cases hids : c.arrays.get? "id" with
      | none =>
        have : (split c ix num l).1 = c := by simp only [split, hids]
        rw [this]; exact same c ⟨n, hn⟩ rfl rfl
      | some ids =>
        cases hidx : ids.findIdx? (fun r => r == [ix]) with
        | none =>
          have : (split c ix num l).1 = c := by simp only [split, hids, hidx]
          rw [this]; exact same c ⟨n, hn⟩ rfl rfl
        | some idx =>
          obtain ⟨hlt, he⟩ := split_eq hn ix num l (by omega) hl hids hidx
          rw [he] at hinv ⊢
          simp only at hinv ⊢
          obtain ⟨ls, rfl, p1, p2, p3⟩ := h.ids ids hids
          have hil : idx < ls.length := by simpa using findIdx?_lt hidx
          have hdec : ls = ls.take idx ++ ls[idx] :: ls.drop (idx + 1) := by
            rw [List.getElem_cons_drop, List.take_append_drop]
          have hkeys := hn.keys "id"
          rw [hids] at hkeys
          obtain ⟨a, hta⟩ := Option.isSome_iff_exists.1 hkeys.symm
          have hcol : (applyAll (fun _ a rows => splitCol idx num l a rows) c.types c.arrays).get? "id" =
              some ((ls.take idx ++ List.replicate num ls[idx] ++ ls.drop (idx + 1)).map (fun x => [x])) := by
            rw [get?_applyAll _ c.types hn.nodup, hta, hids]
            simp only [Option.map_some, Option.some.injEq]
            have hsr : splitRow a num [ls[idx]] l = .ok (List.replicate num [ls[idx]]) := by
              unfold splitRow; rw [if_neg hn2, h.kind a hta]
            have hget : (ls.map (fun x => [x]))[idx]? = some [ls[idx]] := by simp [hil]
            simp only [splitCol, hget, hsr]
            have hne : List.replicate num [ls[idx]] ≠ [] := by
              intro h0
              have := congrArg List.length h0
              simp at this; omega
            have := splice_eq ((ls.take idx).map (fun x => [x])) ((ls.drop (idx + 1)).map (fun x => [x]))
              (List.replicate num [ls[idx]]) [ls[idx]] hne
            have hl' : ((ls.take idx).map (fun x => [x])).length = idx := by simp; omega
            rw [hl'] at this
            have hd2 : (ls.take idx).map (fun x => [x]) ++ [ls[idx]] :: (ls.drop (idx + 1)).map (fun x => [x]) =
                ls.map (fun x => [x]) := by
              have h9 := congrArg (List.map (fun x : ℚ => [x])) hdec
              rw [List.map_append, List.map_cons] at h9
              exact h9.symm
            rw [hd2] at this
            rw [this]
            simp
          have hsub : ∀ x ∈ ls.take idx ++ List.replicate num ls[idx] ++ ls.drop (idx + 1), x ∈ ls := by
            intro x hx
            rcases List.mem_append.1 hx with hx | hx
            · rcases List.mem_append.1 hx with hx | hx
              · exact List.mem_of_mem_take hx
              · rw [List.eq_of_mem_replicate hx]; exact List.getElem_mem hil
            · exact List.mem_of_mem_drop hx
          refine ⟨⟨hinv, h.kind, ?_⟩, le_refl _, List.Pairwise.nil, by simp, ?_⟩
          · intro col hk
            rw [hcol] at hk
            cases hk
            refine ⟨_, rfl, ?_, fun hst => absurd rfl (hs hst ix num l), ?_⟩
            · rw [hdec, List.pairwise_append, List.pairwise_cons] at p1
              obtain ⟨q1, ⟨q2, q3⟩, q4⟩ := p1
              rw [List.pairwise_append, List.pairwise_append]
              refine ⟨⟨q1, ?_, ?_⟩, q3, ?_⟩
              · rw [List.pairwise_replicate]; exact Or.inr (le_refl _)
              · intro x hx y hy
                rw [List.eq_of_mem_replicate hy]
                exact q4 x hx _ List.mem_cons_self
              · intro x hx y hy
                rcases List.mem_append.1 hx with hx | hx
                · exact q4 x hx y (List.mem_cons_of_mem _ hy)
                · rw [List.eq_of_mem_replicate hx]; exact q2 y hy
            · intro x hx
              rw [List.append_nil]
              exact p3 x (hsub x hx)
          · intro x hx
            left
            unfold Verif.Container.idsOf at hx ⊢
            simp only at hx
            rw [hcol] at hx
            rw [hids]
            simp only [Option.getD_some, flatten_single] at hx ⊢
            exact hsub x hx
  | markOffMap =>
    refine same _ hinv (by simp only [step, markOffMap]; split <;> rfl) ?_
    simp only [step, markOffMap]
    cases c.arrays.get? "status_codes" with
    | none => rfl
    | some st => simp only; rw [Dict.get?_set, if_neg (by decide)]
  | stepDone =>
    cases hst : c.arrays.get? "status_codes" with
    | none =>
      have : stepDone c = c := by unfold stepDone; rw [hst]
      exact same _ hinv (by simp only [step, this]) (by simp only [step, this])
    | some st =>
      cases hids : c.arrays.get? "id" with
      | none =>
        refine same _ hinv (by simp only [step, stepDone, hst]; split <;> rfl) ?_
        simp only [step, stepDone, hst]
        split
        · rfl
        · simp only
          rw [get?_applyAll _ c.types hn.nodup, hids]
          cases Dict.get? c.types "id" <;> rfl
      | some col =>
        obtain ⟨ls, rfl, p1, p2, p3⟩ := h.ids col hids
        have hcol := stepDone_get hn hst "id" _ hids
        have hform : ∀ is : List Nat, is.filterMap (fun i => (ls.map (fun x => [x]))[i]?) =
            (is.filterMap (fun i => ls[i]?)).map (fun x => [x]) := by
          intro is
          rw [List.map_filterMap]
          apply List.filterMap_congr
          intro i _
          rw [List.getElem?_map]
        rw [hform] at hcol
        have hsl : ((List.range n).filter (fun i => st[i]? != some [toBeRemoved])).filterMap (fun i => ls[i]?) |>.Sublist ls := by
          have h1 : ls = (List.range n).filterMap (fun i => ls[i]?) := by
            have hlen : ls.length = n := by simpa using hn.lens _ _ hids
            rw [← hlen]
            apply List.ext_getElem?
            intro i
            have h2 : (List.range ls.length).filterMap (fun i => ls[i]?) = (List.range ls.length).map (fun i => ls.getD i 0) := by
              rw [← List.filterMap_eq_map]
              apply List.filterMap_congr
              intro x hx
              rw [List.mem_range] at hx
              simp [List.getElem?_eq_getElem hx, List.getD]
            rw [h2]
            by_cases hi : i < ls.length
            · simp [hi, List.getD]
            · simp [hi]
          conv_rhs => rw [h1]
          exact List.Sublist.filterMap _ List.filter_sublist
        refine ⟨⟨hinv, ?_, ?_⟩, le_refl _, List.Pairwise.nil, by simp [step], ?_⟩
        · simp only [step, stepDone, hst]
          split <;> exact h.kind
        · intro col hk
          simp only [step] at hk
          rw [hcol] at hk
          cases hk
          refine ⟨_, rfl, p1.sublist hsl, fun hst => (p2 hst).sublist hsl, ?_⟩
          intro x hx
          simp only [step, List.append_nil]
          exact p3 x (hsl.subset hx)
        · intro x hx
          left
          unfold Verif.Container.idsOf at hx ⊢
          simp only [step] at hx
          rw [hcol] at hx
          rw [hids]
          simp only [Option.getD_some, flatten_single] at hx ⊢
          exact hsl.subset hx

/-- conditions along a history of both containers -/
def AllowedWorld (w : World) : List (Bool × Op) → Prop
  | [] => True
  | o :: os =>
    AllowedId (if o.1 then w.unc else w.cert) o.2 ∧
    (∀ n, o.2 = .release n → ((if o.1 then w.unc else w.cert).arrays.get? "id").isSome) ∧
    AllowedWorld (wstep w o).1 os

/-- invariant of the pair -/
structure WInv (strict : Prop) (w : World) (log : List ℚ) : Prop where
  cert : IdInv strict w.cert w.ctr log
  unc : IdInv strict w.unc w.ctr log
  incr : log.Pairwise (· < ·)
  bound : ∀ x ∈ log, x < w.ctr
  disj : ∀ x ∈ idsOf w.cert, x ∉ idsOf w.unc

theorem wstep_inv {strict : Prop} {w : World} {log : List ℚ} (h : WInv strict w log) (o : Bool × Op)
    (ha : AllowedId (if o.1 then w.unc else w.cert) o.2)
    (hrel : ∀ n, o.2 = .release n → ((if o.1 then w.unc else w.cert).arrays.get? "id").isSome)
    (hs : strict → ∀ ix num l, o.2 ≠ .split ix num l) :
    WInv strict (wstep w o).1 (log ++ (wstep w o).2) := by
  obtain ⟨b, op⟩ := o
  have hsub : ∀ x ∈ log, ∀ l : List ℚ, x ∈ log ++ l := fun x hx l => List.mem_append.2 (Or.inl hx)
  cases b with
  | false =>
    simp only [Bool.false_eq_true, if_false] at ha hrel
    obtain ⟨h1, h2, h3, h4, h5⟩ := step_id h.cert op ha hs hrel
    simp only [wstep, Bool.false_eq_true, if_false]
    refine ⟨h1, h.unc.mono h2 (fun x hx => hsub x hx _), ?_, ?_, ?_⟩
    · rw [List.pairwise_append]
      exact ⟨h.incr, h3, fun a ha b hb => lt_of_lt_of_le (h.bound a ha) (h4 b hb).1⟩
    · intro x hx
      rcases List.mem_append.1 hx with hx | hx
      · exact lt_of_lt_of_le (h.bound x hx) h2
      · exact (h4 x hx).2
    · intro x hx hu
      rcases h5 x hx with hx | hx
      · exact h.disj x hx hu
      · have := (h.unc.idsOf.2.2 x hu).1
        have := (h4 x hx).1
        linarith
  | true =>
    simp only [if_true] at ha hrel
    obtain ⟨h1, h2, h3, h4, h5⟩ := step_id h.unc op ha hs hrel
    simp only [wstep, if_true]
    refine ⟨h.cert.mono h2 (fun x hx => hsub x hx _), h1, ?_, ?_, ?_⟩
    · rw [List.pairwise_append]
      exact ⟨h.incr, h3, fun a ha b hb => lt_of_lt_of_le (h.bound a ha) (h4 b hb).1⟩
    · intro x hx
      rcases List.mem_append.1 hx with hx | hx
      · exact lt_of_lt_of_le (h.bound x hx) h2
      · exact (h4 x hx).2
    · intro x hc hx
      rcases h5 x hx with hx | hx
      · exact h.disj x hc hx
      · have := (h.cert.idsOf.2.2 x hc).1
        have := (h4 x hx).1
        linarith

theorem wrun_inv {strict : Prop} (os : List (Bool × Op)) {w : World} {log : List ℚ} (h : WInv strict w log)
    (ha : AllowedWorld w os) (hs : strict → ∀ o ∈ os, ∀ ix num l, o.2 ≠ .split ix num l) :
    WInv strict (wrun w os).1 (log ++ (wrun w os).2) := by
  induction os generalizing w log with
  | nil => simpa [wrun] using h
  | cons o os ih =>
    have h1 := wstep_inv h o ha.1 ha.2.1 (fun hst => hs hst o List.mem_cons_self)
    have h2 := ih h1 ha.2.2 (fun hst x hx => hs hst x (List.mem_cons_of_mem _ hx))
    simp only [wrun]
    rw [← List.append_assoc]
    exact h2

theorem winv_empty (strict : Prop) (ctr : ℚ) : WInv strict ⟨empty, empty, ctr⟩ [] := by
  have h : IdInv strict empty ctr [] := ⟨⟨0, inv_empty⟩, by simp [empty], by simp [empty]⟩
  exact ⟨h, h, List.Pairwise.nil, by simp, by simp [idsOf, empty]⟩

/-- **C22.** Over every allowed history of the certain and the uncertain container, whatever the interleaving and the
number of operations: the ids given out are strictly increasing in the order of release (so none is ever reused, also
across rewinds), the elements of a container are in the order of their ids, every id present was given out, the two
containers share none; and without splits no two elements of a container have the same id. -/
theorem C22_ids_unique (ctr : ℚ) (os : List (Bool × Op)) (ha : AllowedWorld ⟨empty, empty, ctr⟩ os) :
    (wrun ⟨empty, empty, ctr⟩ os).2.Pairwise (· < ·) ∧
    (∀ c, c = (wrun ⟨empty, empty, ctr⟩ os).1.cert ∨ c = (wrun ⟨empty, empty, ctr⟩ os).1.unc →
      (idsOf c).Pairwise (· ≤ ·) ∧ (∀ x ∈ idsOf c, x ∈ (wrun ⟨empty, empty, ctr⟩ os).2) ∧
      ((∀ o ∈ os, ∀ ix num l, o.2 ≠ .split ix num l) → (idsOf c).Nodup)) ∧
    (∀ x ∈ idsOf (wrun ⟨empty, empty, ctr⟩ os).1.cert, x ∉ idsOf (wrun ⟨empty, empty, ctr⟩ os).1.unc) := by
  have h := wrun_inv (strict := ∀ o ∈ os, ∀ ix num l, o.2 ≠ .split ix num l) os (winv_empty _ ctr) ha (fun h => h)
  rw [List.nil_append] at h
  refine ⟨h.incr, ?_, h.disj⟩
  rintro c (rfl | rfl)
  · obtain ⟨a, b, d⟩ := h.cert.idsOf
    exact ⟨a, fun x hx => (d x hx).2, fun hs => (b hs).imp (fun h => ne_of_lt h)⟩
  · obtain ⟨a, b, d⟩ := h.unc.idsOf
    exact ⟨a, fun x hx => (d x hx).2, fun hs => (b hs).imp (fun h => ne_of_lt h)⟩

example : AllowedWorld ⟨empty, empty, 0⟩ [(false, .prepare exTypes), (true, .prepare exTypes), (false, .release 2),
      (true, .release 2), (false, .release 1), (false, .stepDone)] ∧
    (wrun ⟨empty, empty, 0⟩ [(false, .prepare exTypes), (true, .prepare exTypes), (false, .release 2),
      (true, .release 2), (false, .release 1), (false, .stepDone)]).2 = [0, 1, 2, 3, 4] := by
  refine ⟨⟨⟨rfl, by decide, ⟨.id, [0]⟩, rfl, rfl⟩, by simp, ⟨rfl, by decide, ⟨.id, [0]⟩, rfl, rfl⟩, by simp, trivial, ?_,
    trivial, ?_, trivial, ?_, trivial, by simp, trivial⟩, ?_⟩
  · intro n _; decide +kernel
  · intro n _; decide +kernel
  · intro n _; decide +kernel
  · decide +kernel

end Verif.Container
