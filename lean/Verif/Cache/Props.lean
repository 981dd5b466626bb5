import Verif.Cache.Lemmas
import Verif.Cache.Spec
/-!
# Properties C07–C10: the element cache
-/
namespace Verif.Cache
open Verif.Py Spec

variable {V M T : Type}

/-- relation between the cache and the history of saves -/
structure Rel (s : State V M T) (H : List (Save V M T)) : Prop where
  recent : s.recent = match H with | [] => none | sv :: _ => some (sv.n, encode sv.c, sv.u.map encode)
  cert : ∀ n, s.disk.get? (makeFilename n false) =
    (H.find? (fun sv => sv.en && decide (sv.n = n))).map (fun sv => encode sv.c)
  unc : ∀ n, s.disk.get? (makeFilename n true) =
    (H.findSome? (fun sv => if sv.en && decide (sv.n = n) then sv.u else none)).map encode

theorem fn_ne (n m : Int) : makeFilename n false ≠ makeFilename m true := fun h => by
  have := (filename_injective h).2; simp at this

theorem rel_step {s : State V M T} {H : List (Save V M T)} (h : Rel s H) (op : Op V M T) :
    Rel (step s op) (histStep (s.enabled, H) op).2 ∧ (step s op).enabled = (histStep (s.enabled, H) op).1 := by
  cases op with
  | rewind => exact ⟨⟨rfl, fun n => rfl, fun n => rfl⟩, rfl⟩
  | setEnabled b => exact ⟨⟨h.recent, h.cert, h.unc⟩, rfl⟩
  | save n c u =>
    cases u with
    | none =>
      refine ⟨⟨rfl, ?_, ?_⟩, rfl⟩
      · intro m
        simp only [step, save, saveCertain, histStep, List.find?_cons]
        rcases Bool.eq_false_or_eq_true s.enabled with he | he
        case inr => simp [he, h.cert]
        case inl =>
          simp only [he, if_true, Bool.true_and, Dict.get?_set]
          by_cases hm : n = m
          · simp [hm]
          · have : makeFilename n false ≠ makeFilename m false := fun e => hm (filename_injective e).1
            simp [hm, this, h.cert]
      · intro m
        simp only [step, save, saveCertain, histStep, List.findSome?_cons]
        rcases Bool.eq_false_or_eq_true s.enabled with he | he
        case inr => simp [he, h.unc]
        case inl =>
          simp only [he, if_true, Bool.true_and, Dict.get?_set]
          rw [if_neg (fn_ne n m), h.unc]
          by_cases hm : n = m <;> simp [hm]
    | some u =>
      refine ⟨⟨rfl, ?_, ?_⟩, rfl⟩
      · intro m
        simp only [step, save, saveUncertain, saveCertain, histStep, List.find?_cons]
        rcases Bool.eq_false_or_eq_true s.enabled with he | he
        case inr => simp [he, h.cert]
        case inl =>
          simp only [he, if_true, Bool.true_and, Dict.get?_set]
          rw [if_neg (fun e => fn_ne m n e.symm)]
          by_cases hm : n = m
          · simp [hm]
          · have : makeFilename n false ≠ makeFilename m false := fun e => hm (filename_injective e).1
            simp [hm, this, h.cert]
      · intro m
        simp only [step, save, saveUncertain, saveCertain, histStep, List.findSome?_cons]
        rcases Bool.eq_false_or_eq_true s.enabled with he | he
        case inr => simp [he, h.unc]
        case inl =>
          simp only [he, if_true, Bool.true_and, Dict.get?_set]
          by_cases hm : n = m
          · simp [hm]
          · have : makeFilename n true ≠ makeFilename m true := fun e => hm (filename_injective e).1
            rw [if_neg this, if_neg (fn_ne n m), h.unc]
            simp [hm]

theorem rel_run (ops : List (Op V M T)) {s : State V M T} {H : List (Save V M T)} (h : Rel s H) :
    Rel (run s ops) (ops.foldl histStep (s.enabled, H)).2 := by
  induction ops generalizing s H with
  | nil => exact h
  | cons op ops ih =>
    have h1 := rel_step h op
    have h2 := ih h1.1
    simp only [run, List.foldl_cons]
    rw [h1.2] at h2
    exact h2

theorem rel_hist (en : Bool) (ops : List (Op V M T)) : Rel (run (init en) ops) (hist en ops) :=
  rel_run ops (s := init en) (H := []) ⟨rfl, fun _ => rfl, fun _ => rfl⟩

/-- all containers ever saved (since the rewind) have no name clash -/
def AllClean (H : List (Save V M T)) : Prop := ∀ sv ∈ H, Clean sv.c ∧ ∀ u, sv.u = some u → Clean u

/-- a user who toggles uncertainty or the time stamp cannot get the certain container stamped and the uncertain not -/
def Stamped (sv : Save V M T) : Prop := ∀ u, sv.u = some u → sv.c.stamp.isSome → u.stamp.isSome

theorem decode_pair {c : SC V M T} {u : Option (SC V M T)} (hc : Clean c) (hu : ∀ x, u = some x → Clean x)
    {s : State V M T} {n : Int} (h : fetch s n = .ok (encode c, u.map encode)) :
    load s n = .ok (asLoaded c, u.map asLoaded) := by
  unfold load
  rw [h]
  simp only [decode_encode hc]
  cases u with
  | none => rfl
  | some x => simp only [Option.map_some, decode_encode (hu x rfl)]

theorem find_all {H : List (Save V M T)} (hen : ∀ sv ∈ H, sv.en = true) (n : Int) :
    H.find? (fun sv => sv.en && decide (sv.n = n)) = last H n := by
  unfold last
  induction H with
  | nil => rfl
  | cons sv H ih =>
    simp only [List.find?_cons, hen sv (by simp), Bool.true_and, ih (fun x hx => hen x (by simp [hx]))]

theorem findU_all {H : List (Save V M T)} (hen : ∀ sv ∈ H, sv.en = true) (n : Int) :
    H.findSome? (fun sv => if sv.en && decide (sv.n = n) then sv.u else none) = lastU H n := by
  unfold lastU
  induction H with
  | nil => rfl
  | cons sv H ih =>
    simp only [List.findSome?_cons, hen sv (by simp), Bool.true_and, decide_eq_true_eq,
      ih (fun x hx => hen x (by simp [hx]))]

/-- **C07.** With the disk cache enabled for all saves since the last rewind, `load_timestep(n)` returns the certain
container most recently saved for step `n` and the uncertain container most recently saved for it (none if the step
in memory was saved without); if the step was never saved it raises `CacheError`. No bound on the number of saves. -/
theorem C07_load_returns_last_save (en : Bool) (ops : List (Op V M T)) (hc : AllClean (hist en ops))
    (hen : ∀ sv ∈ hist en ops, sv.en = true) (n : Int) :
    load (run (init en) ops) n =
      match last (hist en ops) n with
      | none => .error .runtimeError
      | some sv => .ok (asLoaded sv.c,
          (if isNewest (hist en ops) n then sv.u else lastU (hist en ops) n).map asLoaded) := by
  have h := rel_hist en ops
  generalize hist en ops = H at *
  generalize run (init en) ops = s at *
  have hcert := h.cert n
  have hunc := h.unc n
  rw [find_all hen] at hcert
  rw [findU_all hen] at hunc
  have hdisk : ∀ sv, last H n = some sv → fetch s n =
      (match s.disk.get? (makeFilename n false) with
       | none => .error .runtimeError
       | some d => .ok (d, s.disk.get? (makeFilename n true))) → load s n = .ok (asLoaded sv.c, (lastU H n).map asLoaded) := by
    intro sv hl hf
    rw [hl] at hcert
    rw [hcert, hunc] at hf
    have hmem := List.mem_of_find?_eq_some hl
    refine decode_pair (hc sv hmem).1 ?_ hf
    intro x hx
    obtain ⟨sv', hm, he⟩ := List.exists_of_findSome?_eq_some hx
    split at he
    · exact (hc sv' hm).2 x he
    · simp at he
  cases hH : H with
  | nil =>
    subst hH
    simp only [last, List.find?_nil]
    simp only [last, List.find?_nil, Option.map_none] at hcert
    simp only [load, fetch, h.recent, hcert]
  | cons sv0 H0 =>
    have hrec := h.recent
    rw [hH] at hrec
    simp only at hrec
    rw [← hH]
    by_cases hn : sv0.n = n
    · have hl : last H n = some sv0 := by simp [last, hH, hn]
      have hnew : isNewest H n = true := by simp [isNewest, hH, hn]
      rw [hl, hnew]
      simp only [if_true]
      cases hu : sv0.u with
      | none =>
        have : fetch s n = .ok (encode sv0.c, (sv0.u).map encode) := by
          simp [fetch, hrec, hn, hu]
        have := decode_pair (hc sv0 (by simp [hH])).1 (hc sv0 (by simp [hH])).2 this
        rw [this, hu]
      | some u =>
        have hlU : lastU H n = some u := by simp [lastU, hH, hn, hu]
        by_cases hst : (((encode sv0.c).get? "current_time_stamp").isSome && !(encode u).isEmpty
            && ((encode u).get? "current_time_stamp").isNone) = true
        · rw [← hlU]
          apply hdisk sv0 hl
          simp only [fetch, hrec, hn, if_true, hu, Option.map_some, hst]
          rfl
        · have : fetch s n = .ok (encode sv0.c, (sv0.u).map encode) := by
            simp only [fetch, hrec, hn, if_true, hu, Option.map_some]
            rw [if_neg hst]
          have := decode_pair (hc sv0 (by simp [hH])).1 (hc sv0 (by simp [hH])).2 this
          rw [this, hu]
    · have hnew : isNewest H n = false := by simp [isNewest, hH, hn]
      rw [hnew]
      simp only [Bool.false_eq_true, if_false]
      cases hl : last H n with
      | none =>
        rw [hl] at hcert
        simp only [Option.map_none] at hcert
        simp only [load, fetch, hrec, hn, if_false, hcert]
      | some sv =>
        apply hdisk sv hl
        simp only [fetch, hrec, hn, if_false]
        rfl

/-- **C08.** Different (step, certain/uncertain) pairs use different files, for all integers (also negative ones and
those of more than six digits). -/
theorem C08_filenames_distinct (n m : Int) (b c : Bool) :
    makeFilename n b = makeFilename m c ↔ n = m ∧ b = c :=
  ⟨filename_injective, fun h => by rw [h.1, h.2]⟩

example : String.ofList (makeFilename 12 true) = "step_000012_uncert.npz" := by decide
example : String.ofList (makeFilename 1234567 false) = "step_1234567.npz" := by decide
example : String.ofList (makeFilename (-3) false) = "step_-00003.npz" := by decide

/-- **C09.** With the disk cache off for all saves since the last rewind, `load_timestep(n)` succeeds iff `n` is the
step saved last, and then returns exactly that save. -/
theorem C09_disabled_only_newest (en : Bool) (ops : List (Op V M T)) (hc : AllClean (hist en ops))
    (hst : ∀ sv ∈ hist en ops, Stamped sv) (hen : ∀ sv ∈ hist en ops, sv.en = false) (n : Int) :
    load (run (init en) ops) n =
      match hist en ops with
      | [] => .error .runtimeError
      | sv :: _ => if sv.n = n then .ok (asLoaded sv.c, sv.u.map asLoaded) else .error .runtimeError := by
  have h := rel_hist en ops
  generalize hist en ops = H at *
  generalize run (init en) ops = s at *
  have hcert : s.disk.get? (makeFilename n false) = none := by
    rw [h.cert n, Option.map_eq_none_iff, List.find?_eq_none]
    intro sv hm; simp [hen sv hm]
  cases H with
  | nil => simp only [load, fetch, h.recent, hcert]
  | cons sv H =>
    have hrec := h.recent
    simp only at hrec ⊢
    split
    · rename_i hn
      apply decode_pair (hc sv (by simp)).1 (hc sv (by simp)).2
      simp only [fetch, hrec, hn, if_true]
      cases hu : sv.u with
      | none => rfl
      | some u =>
        have hcu := (hc sv (by simp)).2 u hu
        have h1 := encode_stamp (hc sv (by simp)).1
        have h2 := encode_stamp hcu
        have h3 := hst sv (by simp) u hu
        simp only [Option.map_some]
        rw [if_neg]
        rw [h1]
        intro h4
        rw [Bool.and_eq_true, Bool.and_eq_true] at h4
        have h5 := h3 h4.1.1
        rw [← h2] at h5
        have h6 := h4.2
        cases hg : Dict.get? (encode u) "current_time_stamp" <;> simp [hg] at h5 h6
    · rename_i hn
      simp only [load, fetch, hrec, hn, if_false, hcert]

/-! ### C10 -/

/-- The claim of C10: whatever is loaded for step `n` is one of the saves of step `n`, certain and uncertain parts
together. -/
def LoadsOneSave (en : Bool) (ops : List (Op V M T)) : Prop :=
  ∀ n r, load (run (init en) ops) n = .ok r →
    ∃ sv ∈ hist en ops, sv.n = n ∧ r = (asLoaded sv.c, sv.u.map asLoaded)

/-- **C10, part that holds**: if all saves of a step agree on whether an uncertain container exists (the case in the
model, which rewinds the cache when uncertainty is toggled), loading returns exactly the latest save of that step.
Missing: a step saved again without uncertainty. -/
theorem C10_one_save_partial (en : Bool) (ops : List (Op V M T)) (hc : AllClean (hist en ops))
    (hen : ∀ sv ∈ hist en ops, sv.en = true) (n : Int)
    (hsame : ∀ sv ∈ hist en ops, ∀ sv' ∈ hist en ops, sv.n = n → sv'.n = n → sv.u.isSome = sv'.u.isSome) :
    load (run (init en) ops) n =
      match last (hist en ops) n with
      | none => .error .runtimeError
      | some sv => .ok (asLoaded sv.c, sv.u.map asLoaded) := by
  rw [C07_load_returns_last_save en ops hc hen n]
  generalize hist en ops = H at *
  cases hl : last H n with
  | none => rfl
  | some sv =>
    have hm := List.mem_of_find?_eq_some hl
    have hn : sv.n = n := by simpa using List.find?_some hl
    have : lastU H n = sv.u := by
      cases hu : sv.u with
      | none =>
        rw [lastU, List.findSome?_eq_none_iff]
        intro x hx
        split
        · rename_i hxn
          have := hsame sv hm x hx hn hxn
          rw [hu] at this
          simpa using this.symm
        · rfl
      | some u =>
        clear hsame hm hc hen
        unfold last at hl
        unfold lastU
        induction H with
        | nil => simp at hl
        | cons a H ih =>
          simp only [List.find?_cons, List.findSome?_cons] at *
          by_cases ha : a.n = n
          · simp [ha] at hl ⊢; subst hl; simp [hu]
          · simp [ha] at hl ⊢; exact ih hl
    simp [this]

/-- a container with one array holding `v`, one mass-balance entry and a time stamp -/
def demo (v : Nat) : SC Nat Nat Nat := ⟨[("mass", v), ("positions", v + 1)], [("floating", v + 2)], some v⟩

theorem demo_clean (v : Nat) : Clean (demo v) := by
  constructor
  · simp [demo]
  · simp [demo]

/-- the history that breaks C10: step 3 is saved with uncertainty, then again without, then step 4 is saved -/
def badOps : List (Op Nat Nat Nat) := [.save 3 (demo 1) (some (demo 2)), .save 3 (demo 5) none, .save 4 (demo 7) none]

/-- **C10 is false of the code**: for `badOps` loading step 3 combines the second certain container with the first
uncertain one. -/
theorem C10_counterexample : ¬ LoadsOneSave true badOps := by
  intro h
  have hl : load (run (init true) badOps) 3 = .ok (asLoaded (demo 5), some (asLoaded (demo 2))) := by
    rw [C07_load_returns_last_save true badOps]
    · rfl
    · intro sv hm
      simp only [badOps, hist, List.foldl, histStep, List.mem_cons, List.not_mem_nil, or_false] at hm
      rcases hm with rfl | rfl | rfl <;> refine ⟨demo_clean _, ?_⟩ <;> intro u hu <;> simp at hu
      subst hu; exact demo_clean _
    · intro sv hm
      simp only [badOps, hist, List.foldl, histStep, List.mem_cons, List.not_mem_nil, or_false] at hm
      rcases hm with rfl | rfl | rfl <;> rfl
  obtain ⟨sv, hm, _, he⟩ := h 3 _ hl
  simp only [badOps, hist, List.foldl, histStep, List.mem_cons, List.not_mem_nil, or_false] at hm
  rcases hm with rfl | rfl | rfl <;> simp [asLoaded, demo] at he

/-- non-vacuity of C07, C10_partial: a clean history with several steps and a rewind -/
example : let ops : List (Op Nat Nat Nat) :=
      [.save 9 (demo 0) none, .rewind, .save 0 (demo 1) (some (demo 2)), .save 1 (demo 3) (some (demo 4)), .save 0 (demo 5) (some (demo 6))]
    AllClean (hist true ops) ∧ (∀ sv ∈ hist true ops, sv.en = true) ∧ (hist true ops).length = 3 ∧
    (last (hist true ops) 0).map (fun sv => sv.c.stamp) = some (some 5) := by
  refine ⟨?_, ?_, rfl, rfl⟩
  · intro sv hm
    simp only [hist, List.foldl, histStep, List.mem_cons, List.not_mem_nil, or_false] at hm
    rcases hm with rfl | rfl | rfl <;> refine ⟨demo_clean _, ?_⟩ <;> intro u hu <;> simp at hu <;> subst hu <;> exact demo_clean _
  · intro sv hm
    simp only [hist, List.foldl, histStep, List.mem_cons, List.not_mem_nil, or_false] at hm
    rcases hm with rfl | rfl | rfl <;> rfl

/-- The proviso of C07 is needed: a mass-balance key with the name of an array loses the array. -/
theorem C07_name_clash : load (run (init true) [.save 0 (⟨[("floating", 1)], [("floating", 2)], none⟩ : SC Nat Nat Nat) none]) 0
    = .ok (⟨[], [("floating", 2)], none⟩, none) := by rfl

end Verif.Cache
