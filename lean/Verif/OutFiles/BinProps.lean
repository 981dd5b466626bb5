import Verif.OutFiles.BinModel
import Mathlib.Data.List.Nodup

/-!
# C199: the archive of binary output holds the steps that were written
-/
namespace Verif.OutFiles
open Verif.Py (Dict)

variable {α : Type}

/-- The steps up to `k` that are written. -/
def steps (w : Nat → Bool) (k : Nat) : List Nat := (List.range (k + 1)).filter w

/-- What the archive should hold: for the written steps in order a forecast file, and an uncertain file if there is
uncertainty, numbered from 0. -/
def archiveOf (unc : Bool) (d : Nat → α × α) (ks : List Nat) : List ((Bool × Nat) × α) :=
  ks.zipIdx.flatMap fun p => ((false, p.2), (d p.1).1) :: (if unc then [((true, p.2), (d p.1).2)] else [])

/-- C199: a run into an archive succeeds, the archive holds the written steps and no files of steps are left. -/
def C199_claim : Prop :=
  ∀ (c : BCfg) (w : Nat → Bool) (d : Nat → Nat × Nat) (L : Nat) (s : BSt Nat), c.zip = true →
    (binRun c w d L s).2 = true ∧ (binRun c w d L s).1.arch = .ok (archiveOf c.unc d (steps w L)) ∧
      (binRun c w d L s).1.loose = []

theorem C199_counterexample : ¬ C199_claim := by
  intro h
  have := (h {} (fun k => decide (k = 0)) (fun k => (k, k)) 1 ⟨0, [], .absent, false⟩ rfl).1
  revert this; decide

/-! ### The loop of the archive -/

theorem zipOne_ok (unc : Bool) (i : Nat) (l : Dict (Bool × Nat) α) (a : List ((Bool × Nat) × α)) (f : α × α)
    (h1 : l.get? (false, i) = some f.1) (h2 : unc = true → l.get? (true, i) = some f.2) :
    ∃ l', zipOne unc i l a = (l', a ++ ((false, i), f.1) :: (if unc then [((true, i), f.2)] else []), true) ∧
      ∀ b j, l'.get? (b, j) = if j = i ∧ (b = false ∨ unc = true) then none else l.get? (b, j) := by
  cases unc with
  | false =>
    refine ⟨l.del (false, i), by simp [zipOne, h1], ?_⟩
    intro b j
    rw [Dict.get?_del]
    cases b <;> by_cases hj : j = i <;> simp [hj, eq_comm]
    intro h; exact absurd h.symm hj
  | true =>
    refine ⟨(l.del (false, i)).del (true, i), ?_, ?_⟩
    · have : (l.del (false, i)).get? (true, i) = some f.2 := by rw [Dict.get?_del]; simp [h2 rfl]
      simp [zipOne, h1, this]
    · intro b j
      rw [Dict.get?_del, Dict.get?_del]
      cases b <;> by_cases hj : j = i <;> simp [hj, eq_comm]
      all_goals (intro h; exact absurd h.symm hj)

theorem zipLoop_ok (unc : Bool) (f : Nat → α × α) (is : List Nat) (hnd : is.Nodup) (l : Dict (Bool × Nat) α)
    (a : List ((Bool × Nat) × α)) (h1 : ∀ i ∈ is, l.get? (false, i) = some (f i).1)
    (h2 : ∀ i ∈ is, unc = true → l.get? (true, i) = some (f i).2) :
    ∃ l', zipLoop unc is l a =
        (l', a ++ is.flatMap (fun i => ((false, i), (f i).1) :: (if unc then [((true, i), (f i).2)] else [])), true) ∧
      ∀ b j, l'.get? (b, j) = if j ∈ is ∧ (b = false ∨ unc = true) then none else l.get? (b, j) := by
  induction is generalizing l a with
  | nil => exact ⟨l, by simp [zipLoop], by simp⟩
  | cons i r ih =>
    obtain ⟨hi, hr⟩ := List.nodup_cons.mp hnd
    obtain ⟨l1, e1, g1⟩ := zipOne_ok unc i l a (f i) (h1 i (by simp)) (h2 i (by simp))
    obtain ⟨l2, e2, g2⟩ := ih hr l1 (a ++ ((false, i), (f i).1) :: (if unc then [((true, i), (f i).2)] else []))
      (by
        intro j hj
        rw [g1, if_neg]
        · exact h1 j (by simp [hj])
        · rintro ⟨rfl, -⟩; exact hi hj)
      (by
        intro j hj hu
        rw [g1, if_neg]
        · exact h2 j (by simp [hj]) hu
        · rintro ⟨rfl, -⟩; exact hi hj)
    refine ⟨l2, ?_, ?_⟩
    · simp only [zipLoop, e1, if_true, e2, List.flatMap_cons]
      simp
    · intro b j
      rw [g2, g1]
      by_cases hb : b = false ∨ unc = true
      · simp only [hb, and_true, List.mem_cons]
        by_cases hj : j ∈ r <;> by_cases hji : j = i <;> simp [hj, hji]
      · simp [hb]

/-! ### The steps -/

/-- The state after the files of the written steps `ks`. -/
structure Inv (c : BCfg) (d : Nat → α × α) (ks : List Nat) (s : BSt α) : Prop where
  num : s.num = ks.length
  cert : ∀ i, s.loose.get? (false, i) = ks[i]?.map fun k => (d k).1
  uncert : ∀ i, s.loose.get? (true, i) = if c.unc then ks[i]?.map (fun k => (d k).2) else none
  cleaned : s.cleaned = false

theorem has_none {κ ν : Type} [DecidableEq κ] {l : Dict κ ν} {k : κ} (h : l.get? k = none) : l.has k = false := by
  simp [Dict.has, h]

theorem binFiles_inv {c : BCfg} {d : Nat → α × α} {ks : List Nat} {s : BSt α} (h : Inv c d ks s) (k : Nat) :
    ∃ s', binFiles c s (d k) = (s', true) ∧ s'.num = s.num ∧ s'.cleaned = false ∧ s'.arch = s.arch ∧
      Inv c d (ks ++ [k]) { s' with num := s'.num + 1 } := by
  have h0 : s.loose.get? (false, s.num) = none := by rw [h.cert, h.num]; simp
  have h1 : s.loose.get? (true, s.num) = none := by rw [h.uncert, h.num]; split <;> simp
  have hget : ∀ (g : Nat → α) (i : Nat), (if ks.length = i then some (g k) else ks[i]?.map g) = (ks ++ [k])[i]?.map g := by
    intro g i
    rcases Nat.lt_trichotomy i ks.length with hi | hi | hi
    · rw [if_neg (by omega), List.getElem?_append_left hi]
    · subst hi; simp
    · rw [if_neg (by omega)]
      rw [List.getElem?_eq_none (by omega), List.getElem?_eq_none (by simp; omega)]
  cases hu : c.unc with
  | false =>
    refine ⟨{ s with loose := s.loose.set (false, s.num) (d k).1 }, ?_, rfl, h.cleaned, rfl, ?_⟩
    · simp [binFiles, has_none h0, hu]
    · refine ⟨by simp [h.num], ?_, ?_, h.cleaned⟩
      · intro i
        show (s.loose.set (false, s.num) (d k).1).get? (false, i) = _
        rw [Dict.get?_set, h.cert, ← hget (fun k => (d k).1) i, h.num]
        by_cases hi : ks.length = i <;> simp [hi]
      · intro i
        show (s.loose.set (false, s.num) (d k).1).get? (true, i) = _
        rw [Dict.get?_set, h.uncert, hu]; simp
  | true =>
    have h2 : (s.loose.set (false, s.num) (d k).1).get? (true, s.num) = none := by
      rw [Dict.get?_set]; simp [h1]
    refine ⟨{ s with loose := (s.loose.set (false, s.num) (d k).1).set (true, s.num) (d k).2 }, ?_, rfl, h.cleaned, rfl, ?_⟩
    · simp [binFiles, has_none h0, hu, has_none h2]
    · refine ⟨by simp [h.num], ?_, ?_, h.cleaned⟩
      · intro i
        show ((s.loose.set (false, s.num) (d k).1).set (true, s.num) (d k).2).get? (false, i) = _
        rw [Dict.get?_set, Dict.get?_set, h.cert, ← hget (fun k => (d k).1) i, h.num]
        by_cases hi : ks.length = i <;> simp [hi]
      · intro i
        show ((s.loose.set (false, s.num) (d k).1).set (true, s.num) (d k).2).get? (true, i) = _
        rw [Dict.get?_set, Dict.get?_set, h.uncert, hu, if_pos rfl, if_pos rfl, ← hget (fun k => (d k).2) i, h.num]
        by_cases hi : ks.length = i <;> simp [hi]

theorem steps_succ (w : Nat → Bool) (k : Nat) : steps w (k + 1) = steps w k ++ if w (k + 1) then [k + 1] else [] := by
  simp only [steps]
  rw [List.range_succ, List.filter_append]
  by_cases h : w (k + 1) = true <;> simp [h]

theorem binWrite_inv {c : BCfg} {d : Nat → α × α} {ks : List Nat} {s : BSt α} (h : Inv c d ks s) (k : Nat) (w : Bool) :
    ∃ s', binWrite c s w false (d k) = (s', true) ∧ s'.arch = s.arch ∧ Inv c d (ks ++ if w then [k] else []) s' := by
  cases w with
  | false => exact ⟨s, by simp [binWrite], rfl, by simpa using h⟩
  | true =>
    obtain ⟨s', e, -, -, ha, hi⟩ := binFiles_inv h k
    exact ⟨{ s' with num := s'.num + 1 }, by simp [binWrite, e], ha, by simpa using hi⟩

/-- The state before the first step. -/
theorem prepare_inv (c : BCfg) (d : Nat → α × α) (s : BSt α) (hs : c.hasDir = true ∨ s.loose = []) :
    Inv c d [] (binPrepare c s) := by
  have hl : (binPrepare c s).loose = [] := by
    simp only [binPrepare]
    rcases hs with hs | hs <;> simp [hs]
  refine ⟨rfl, ?_, ?_, rfl⟩
  · intro i; rw [hl]; simp
  · intro i; rw [hl]; simp

theorem binSteps_inv (c : BCfg) (w : Nat → Bool) (d : Nat → α × α) (L : Nat) (s : BSt α)
    (hs : c.hasDir = true ∨ s.loose = []) (k : Nat) (hk : k < L) :
    ∃ s', binSteps c w d L s k = (s', true) ∧ Inv c d (steps w k) s' ∧ s'.arch = s.arch := by
  induction k with
  | zero =>
    obtain ⟨s', e, ha, hi⟩ := binWrite_inv (prepare_inv c d s hs) 0 (w 0)
    refine ⟨s', ?_, ?_, ha⟩
    · simp only [binSteps, decide_eq_false (show ¬ 0 = L by omega), e]
    · have : steps w 0 = [] ++ if w 0 then [0] else [] := by
        simp only [steps]; by_cases h : w 0 = true <;> simp [h]
      rw [this]; exact hi
  | succ k ih =>
    obtain ⟨s1, e1, h1, ha1⟩ := ih (by omega)
    obtain ⟨s', e, ha, hi⟩ := binWrite_inv h1 (k + 1) (w (k + 1))
    refine ⟨s', ?_, ?_, ha.trans ha1⟩
    · simp only [binSteps, e1, if_true, decide_eq_false (show ¬ k + 1 = L by omega), e]
    · rw [steps_succ]; exact hi

/-- The state that goes into the last step. -/
theorem before_last (c : BCfg) (w : Nat → Bool) (d : Nat → α × α) (L : Nat) (s : BSt α)
    (hs : c.hasDir = true ∨ s.loose = []) :
    ∃ s' ks, Inv c d ks s' ∧ s'.arch = s.arch ∧ steps w L = ks ++ (if w L then [L] else []) ∧
      binSteps c w d L s L = (let q := binWrite c s' (w L) true (d L)
        if q.2 then q else (if L = 0 then q.1 else (binPost c q.1).1, false)) := by
  cases L with
  | zero =>
    refine ⟨binPrepare c s, [], prepare_inv c d s hs, rfl, ?_, ?_⟩
    · simp only [steps]; by_cases h : w 0 = true <;> simp [h]
    · simp only [binSteps, decide_true, if_true]
      generalize binWrite c (binPrepare c s) (w 0) true (d 0) = q
      obtain ⟨q1, q2⟩ := q
      cases q2 <;> simp
  | succ L =>
    obtain ⟨s', e, hi, ha⟩ := binSteps_inv c w d (L + 1) s hs L (by omega)
    exact ⟨s', steps w L, hi, ha, steps_succ w L, by simp [binSteps, e]⟩

theorem dict_nil {κ ν : Type} [DecidableEq κ] {l : Dict κ ν} (h : ∀ k, l.get? k = none) : l = [] := by
  cases l with
  | nil => rfl
  | cons a t =>
    have := h a.1
    rw [show a :: t = (a.1, a.2) :: t from rfl, Dict.get?_cons] at this
    simp at this

/-- All files of the written steps go into the archive. -/
theorem zipFiles_ok {c : BCfg} {d : Nat → α × α} {ks : List Nat} {s : BSt α} (hz : c.zip = true)
    (h1 : ∀ i, s.loose.get? (false, i) = ks[i]?.map fun k => (d k).1)
    (h2 : ∀ i, s.loose.get? (true, i) = if c.unc then ks[i]?.map (fun k => (d k).2) else none) :
    zipFiles c ks.length s = ({ s with loose := [], arch := .ok (archiveOf c.unc d ks) }, true) := by
  obtain ⟨l', e, g⟩ := zipLoop_ok c.unc (fun i => d (ks.getD i 0)) (List.range ks.length) List.nodup_range s.loose []
    (by intro i hi; rw [h1, List.getElem?_eq_getElem (by simpa using hi)]; simp [List.getD, List.getElem?_eq_getElem (show i < ks.length by simpa using hi)])
    (by intro i hi hu; rw [h2, if_pos hu, List.getElem?_eq_getElem (by simpa using hi)]; simp [List.getD, List.getElem?_eq_getElem (show i < ks.length by simpa using hi)])
  have hl : l' = [] := by
    refine dict_nil fun k => ?_
    obtain ⟨b, j⟩ := k
    rw [g]
    by_cases hj : j < ks.length
    · cases b with
      | false => simp [hj]
      | true =>
        cases hu : c.unc with
        | true => simp [hj]
        | false => simp [h2, hu]
    · rw [if_neg (by simp [hj])]
      cases b with
      | false => rw [h1, List.getElem?_eq_none (by omega)]; rfl
      | true => rw [h2, List.getElem?_eq_none (by omega)]; split <;> rfl
  have ha : (List.range ks.length).flatMap (fun i => ((false, i), (d (ks.getD i 0)).1) ::
      (if c.unc then [((true, i), (d (ks.getD i 0)).2)] else [])) = archiveOf c.unc d ks := by
    have hz : ks.zipIdx = (List.range ks.length).map fun i => (ks.getD i 0, i) := by
      apply List.ext_getElem
      · simp
      · intro i hi hi'
        simp [List.getD, List.getElem?_eq_getElem (show i < ks.length by simpa using hi)]
    rw [archiveOf, hz, List.flatMap_map]
  simp only [zipFiles, hz, if_true, e, hl, List.nil_append, ha]

/-- C199: a run whose last step is written. Missing: other runs (`C199_lost`), and runs in the working folder that find
files of an earlier run (`C199_again`). -/
theorem C199_partial (c : BCfg) (w : Nat → Bool) (d : Nat → α × α) (L : Nat) (s : BSt α) (hz : c.zip = true)
    (hs : c.hasDir = true ∨ s.loose = []) (hw : w L = true) :
    (binRun c w d L s).2 = true ∧ (binRun c w d L s).1.arch = .ok (archiveOf c.unc d (steps w L)) ∧
      (binRun c w d L s).1.loose = [] := by
  obtain ⟨s1, ks, hi, -, hks, e⟩ := before_last c w d L s hs
  rw [hw, if_pos rfl] at hks
  obtain ⟨s2, e2, hn, hc, -, hi2⟩ := binFiles_inv hi L
  have hz2 : zipFiles c (s2.num + 1) s2 = ({ s2 with loose := [], arch := .ok (archiveOf c.unc d (ks ++ [L])) }, true) := by
    have := zipFiles_ok (c := c) (d := d) (ks := ks ++ [L]) (s := s2) hz hi2.cert hi2.uncert
    have hlen : s2.num + 1 = (ks ++ [L]).length := by rw [hn, hi.num]; simp
    rw [hlen]; exact this
  have hq : binWrite c s1 (w L) true (d L) =
      ({ s2 with loose := [], arch := .ok (archiveOf c.unc d (ks ++ [L])), cleaned := true, num := s2.num + 1 }, true) := by
    simp [binWrite, hw, e2, hz2]
  rw [hq] at e
  simp only [if_true] at e
  rw [hks]
  simp [binRun, e, binPost]

example : (binRun (α := Nat) { unc := true } (fun k => decide (k ≠ 1)) (fun k => (10 * k, 10 * k + 1)) 2 ⟨5, [], .absent, true⟩).1.arch =
    .ok [((false, 0), 0), ((true, 0), 1), ((false, 1), 20), ((true, 1), 21)] := by decide

/-- A loop over files that are there and one that is not. -/
theorem zipLoop_fail (unc : Bool) (n : Nat) (l : Dict (Bool × Nat) α) (a : List ((Bool × Nat) × α))
    (f : Nat → α × α) (is : List Nat) (hnd : is.Nodup) (h1 : ∀ i ∈ is, l.get? (false, i) = some (f i).1)
    (h2 : ∀ i ∈ is, unc = true → l.get? (true, i) = some (f i).2) (hn : l.get? (false, n) = none) :
    (zipLoop unc (is ++ [n]) l a).2.2 = false ∧ ∀ b j, (zipLoop unc (is ++ [n]) l a).1.get? (b, j) =
      if j ∈ is ∧ (b = false ∨ unc = true) then none else l.get? (b, j) := by
  induction is generalizing l a with
  | nil => simp [zipLoop, zipOne, hn]
  | cons i r ih =>
    obtain ⟨hi, hr⟩ := List.nodup_cons.mp hnd
    obtain ⟨l1, e1, g1⟩ := zipOne_ok unc i l a (f i) (h1 i (by simp)) (h2 i (by simp))
    have hni : n ≠ i := by rintro rfl; rw [h1 n (by simp)] at hn; cases hn
    obtain ⟨e2, g2⟩ := ih l1 (a ++ ((false, i), (f i).1) :: (if unc then [((true, i), (f i).2)] else [])) hr
      (by
        intro j hj
        rw [g1, if_neg]
        · exact h1 j (by simp [hj])
        · rintro ⟨rfl, -⟩; exact hi hj)
      (by
        intro j hj hu
        rw [g1, if_neg]
        · exact h2 j (by simp [hj]) hu
        · rintro ⟨rfl, -⟩; exact hi hj)
      (by rw [g1, if_neg (by simp [hni]), hn])
    simp only [List.cons_append, zipLoop, e1, if_true]
    refine ⟨e2, ?_⟩
    intro b j
    rw [g2, g1]
    by_cases hb : b = false ∨ unc = true
    · simp only [hb, and_true, List.mem_cons]
      by_cases hj : j ∈ r <;> by_cases hji : j = i <;> simp [hj, hji]
    · simp [hb]

/-- C199: if the last step is not written (`output_last_step` is off), but some step is, the run fails, no file of a step is
left, and the archive cannot be read: all output is lost. -/
theorem C199_lost (c : BCfg) (w : Nat → Bool) (d : Nat → α × α) (L : Nat) (s : BSt α) (hz : c.zip = true)
    (hs : c.hasDir = true ∨ s.loose = []) (hw : w L = false) (hsome : steps w L ≠ []) :
    (binRun c w d L s).2 = false ∧ (binRun c w d L s).1.arch = .broken ∧ (binRun c w d L s).1.loose = [] := by
  obtain ⟨s1, ks, hi, -, hks, e⟩ := before_last c w d L s hs
  simp only [hw, Bool.false_eq_true, if_false, List.append_nil] at hks
  have hne : ks ≠ [] := hks ▸ hsome
  have hL : L ≠ 0 := by
    rintro rfl
    apply hsome; simp [steps, hw]
  have hfail := zipLoop_fail c.unc ks.length s1.loose [] (fun i => d (ks.getD i 0)) (List.range ks.length) List.nodup_range
    (by intro i hi'; rw [hi.cert, List.getElem?_eq_getElem (by simpa using hi')]; simp [List.getD, List.getElem?_eq_getElem (show i < ks.length by simpa using hi')])
    (by intro i hi' hu; rw [hi.uncert, if_pos hu, List.getElem?_eq_getElem (by simpa using hi')]; simp [List.getD, List.getElem?_eq_getElem (show i < ks.length by simpa using hi')])
    (by rw [hi.cert, List.getElem?_eq_none (by omega)]; rfl)
  rw [← List.range_succ] at hfail
  obtain ⟨f1, f2⟩ := hfail
  have hl : (zipLoop c.unc (List.range (ks.length + 1)) s1.loose []).1 = [] := by
    refine dict_nil fun k => ?_
    obtain ⟨b, j⟩ := k
    rw [f2]
    by_cases hj : j < ks.length
    · cases b with
      | false => simp [hj]
      | true =>
        cases hu : c.unc with
        | true => simp [hj]
        | false => simp [hi.uncert, hu]
    · rw [if_neg (by simp [hj])]
      cases b with
      | false => rw [hi.cert, List.getElem?_eq_none (by omega)]; rfl
      | true => rw [hi.uncert, List.getElem?_eq_none (by omega)]; split <;> rfl
  have hq : binWrite c s1 (w L) true (d L) = ({ s1 with loose := [], arch := .broken }, false) := by
    simp [binWrite, hw, zipFiles, hz, hi.num, f1, hl]
  rw [hq] at e
  simp only [Bool.false_eq_true, if_false, hL] at e
  have hp : binPost (α := α) c { s1 with loose := [], arch := .broken } = ({ s1 with loose := [], arch := .broken }, false) := by
    obtain ⟨k0, kr, rfl⟩ := List.exists_cons_of_ne_nil hne
    have hn : s1.num = kr.length + 1 := by rw [hi.num]; simp
    have hlp : zipLoop c.unc (List.range (kr.length + 1)) ([] : Dict (Bool × Nat) α) [] = ([], [], false) := by
      rw [List.range_succ_eq_map]; simp [zipLoop, zipOne]
    simp [binPost, hi.cleaned, zipFiles, hz, hn, hlp]
  rw [hp] at e
  simp [binRun, e]

example : (binRun (α := Nat) {} (fun k => decide (k < 3)) (fun k => (k, k)) 3 ⟨0, [], .absent, false⟩).1.loose = [] := by decide

/-- C199: in the working folder (a file name without folder) files of an earlier run are not removed: the first file that
exists stops the run. -/
theorem C199_again (c : BCfg) (w : Nat → Bool) (d : Nat → α × α) (L : Nat) (s : BSt α) (hd : c.hasDir = false)
    (hw : w 0 = true) (h : s.loose.has (false, 0) = true) : (binRun c w d L s).2 = false := by
  have h0 : binSteps c w d L s 0 = (binPrepare c s, false) := by
    simp [binSteps, binWrite, hw, binFiles, binPrepare, hd, h]
  have : ∀ k, binSteps c w d L s k = (binPrepare c s, false) := by
    intro k
    induction k with
    | zero => exact h0
    | succ k ih => simp [binSteps, ih]
  simp [binRun, this]

example : (binRun (α := Nat) { hasDir := false } (fun _ => true) (fun k => (k, k)) 1 ⟨0, [((false, 0), 4)], .absent, false⟩).2 = false := by
  decide

/-- C199: the archive of an earlier run is replaced; without `zip_output` it stays and the files of the steps stay. -/
theorem C199_loose (c : BCfg) (w : Nat → Bool) (d : Nat → α × α) (L : Nat) (s : BSt α) (hz : c.zip = false)
    (hs : c.hasDir = true ∨ s.loose = []) :
    (binRun c w d L s).2 = true ∧ (binRun c w d L s).1.arch = s.arch ∧
      (∀ i, (binRun c w d L s).1.loose.get? (false, i) = (steps w L)[i]?.map fun k => (d k).1) ∧
      (∀ i, (binRun c w d L s).1.loose.get? (true, i) = if c.unc then (steps w L)[i]?.map (fun k => (d k).2) else none) := by
  obtain ⟨s1, ks, hi, ha, hks, e⟩ := before_last c w d L s hs
  have hzf : ∀ n (t : BSt α), zipFiles c n t = (t, true) := by intro n t; simp [zipFiles, hz]
  cases hw : w L with
  | false =>
    simp only [hw, Bool.false_eq_true, if_false, List.append_nil] at hks
    have hq : binWrite c s1 (w L) true (d L) = ({ s1 with cleaned := true }, true) := by
      simp [binWrite, hw, hzf]
    rw [hq] at e
    simp only [if_true] at e
    rw [hks]
    simp only [binRun, e, if_true, binPost]
    exact ⟨trivial, ha, hi.cert, hi.uncert⟩
  | true =>
    rw [hw, if_pos rfl] at hks
    obtain ⟨s2, e2, hn, hc, ha2, hi2⟩ := binFiles_inv hi L
    have hq : binWrite c s1 (w L) true (d L) = ({ s2 with cleaned := true, num := s2.num + 1 }, true) := by
      simp [binWrite, hw, e2, hzf]
    rw [hq] at e
    simp only [if_true] at e
    rw [hks]
    simp only [binRun, e, if_true, binPost]
    exact ⟨trivial, ha2.trans ha, hi2.cert, hi2.uncert⟩

example : (binRun (α := Nat) { zip := false } (fun k => decide (k ≠ 1)) (fun k => (k, k)) 2 ⟨0, [], .absent, false⟩).1.loose =
    [((false, 0), 0), ((false, 1), 2)] := by decide

end Verif.OutFiles
