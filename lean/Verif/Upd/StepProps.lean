import Mathlib.Data.List.Basic
import Mathlib.Data.List.Nodup
import Verif.Upd.StepModel

/-!
# C179 – C182: bringing save files up to date
-/
namespace Verif.Upd
open Verif.Py

/-! ## C179: references to removed files -/

/-- **C179**, as the step intends: no reference to a removed file is left. -/
def C179_claim : Prop := ∀ (rm l : List File), ∀ f ∈ dropRefs rm l, f ∉ rm

/-- Of two removed files next to each other one reference stays. -/
theorem C179_counterexample : ¬ C179_claim := by
  intro h
  have := h [1, 2] [1, 2] 2 (by unfold dropRefs; simp [dropLoop])
  simp at this

theorem filter_erase_rm (rm l : List File) (x : File) (hx : rm.contains x = true) :
    (l.erase x).filter (fun f => !rm.contains f) = l.filter (fun f => !rm.contains f) := by
  induction l with
  | nil => rfl
  | cons a l ih =>
    by_cases e : a = x
    · subst e
      rw [List.erase_cons_head, List.filter_cons, hx]; simp
    · rw [List.erase_cons_tail (by simpa using e), List.filter_cons, List.filter_cons, ih]

/-- Whatever the list, all other references are kept, in their order. -/
theorem C179_others (rm l : List File) :
    (dropRefs rm l).filter (fun f => !rm.contains f) = l.filter (fun f => !rm.contains f) := by
  unfold dropRefs
  generalize 0 = i
  induction l, i using dropLoop.induct rm with
  | case1 l i h hc ih => rw [dropLoop, dif_pos h, if_pos hc, ih, filter_erase_rm rm l _ hc]
  | case2 l i h hc ih => rw [dropLoop, dif_pos h, if_neg hc, ih]
  | case3 l i h => rw [dropLoop, dif_neg h]

/-- No two neighbours are both removed. -/
def NoPair (rm : List File) : List File → Prop
  | [] => True
  | [_] => True
  | a :: b :: l => ¬ (a ∈ rm ∧ b ∈ rm) ∧ NoPair rm (b :: l)

theorem dropLoop_clean (rm : List File) (n : Nat) : ∀ (p r : List File), r.length ≤ n → (∀ f ∈ p, f ∉ rm) → NoPair rm r →
    dropLoop rm (p ++ r) p.length = p ++ r.filter (fun f => !rm.contains f) := by
  induction n with
  | zero =>
    intro p r hr _ _
    have : r = [] := List.length_eq_zero_iff.mp (by omega)
    subst this
    rw [dropLoop, dif_neg (by simp)]; rfl
  | succ n ih =>
    intro p r hr hp hn
    cases r with
    | nil => rw [dropLoop, dif_neg (by simp)]; rfl
    | cons x r =>
      have hlt : p.length < (p ++ x :: r).length := by simp
      have hget : (p ++ x :: r)[p.length] = x := by simp
      rw [dropLoop, dif_pos hlt, hget]
      by_cases hx : x ∈ rm
      · rw [if_pos (List.contains_iff_mem.mpr hx)]
        have : (p ++ x :: r).erase x = p ++ r := by
          rw [List.erase_append_right _ (fun h => hp x h hx), List.erase_cons_head]
        rw [this]
        cases r with
        | nil => rw [dropLoop, dif_neg (by simp)]; simp [hx]
        | cons y r =>
          have hy : y ∉ rm := fun h => hn.1 ⟨hx, h⟩
          have e : p ++ y :: r = (p ++ [y]) ++ r := by simp
          have el : p.length + 1 = (p ++ [y]).length := by simp
          rw [e, el, ih (p ++ [y]) r (by simp at hr; omega)]
          · simp [hx, hy]
          · intro f hf
            rcases List.mem_append.mp hf with h | h
            · exact hp f h
            · rw [List.mem_singleton.mp h]; exact hy
          · have := hn.2
            cases r with
            | nil => trivial
            | cons z r => exact this.2
      · rw [if_neg (fun h => hx (List.contains_iff_mem.mp h))]
        have e : p ++ x :: r = (p ++ [x]) ++ r := by simp
        have el : p.length + 1 = (p ++ [x]).length := by simp
        rw [e, el, ih (p ++ [x]) r (by simp at hr; omega)]
        · simp [hx]
        · intro f hf
          rcases List.mem_append.mp hf with h | h
          · exact hp f h
          · rw [List.mem_singleton.mp h]; exact hx
        · cases r with
          | nil => trivial
          | cons z r => exact hn.2

/-- **C179** if no two neighbours are removed, in particular with a single removed file listed once: exactly the other references
are left. -/
theorem C179_partial (rm l : List File) (h : NoPair rm l) : dropRefs rm l = l.filter (fun f => !rm.contains f) := by
  have := dropLoop_clean rm l.length [] l (Nat.le_refl _) (by simp) h
  simpa [dropRefs] using this

example : NoPair [1, 2] [1, 5, 2, 6] := by simp [NoPair]

/-! ## C180: substances of old spills -/

/-- **C180**, as one would expect: each spill gets the substance of its own element type. -/
def C180_claim : Prop := ∀ (s : Save0), (s.ets.map Prod.fst).Nodup → (∀ p ∈ s.spills, p.et ∈ s.ets.map Prod.fst) →
  v0tov1 s = some (s.spills.filterMap fun p => (Dict.get? s.ets p.et).map fun sub => ⟨p.file, sub⟩)

/-- A spill of crude and one of diesel: both become crude. -/
theorem C180_counterexample : ¬ C180_claim := by
  intro h
  have := h { ets := [(1, 10), (2, 20)], spills := [⟨3, 1⟩, ⟨4, 2⟩] } (by decide) (by decide)
  revert this; decide

/-- Without element types a save file with spills cannot be updated. -/
theorem C180_none (s : Save0) (h : s.ets = []) (hs : s.spills ≠ []) : v0tov1 s = none := by
  unfold v0tov1
  rw [h]
  cases hsp : s.spills with
  | nil => exact absurd hsp hs
  | cons a l => rfl

/-- **C180** if all spills have the same substance; no spill is lost and their order stays. -/
theorem C180_partial (s : Save0) (sub : File) (hne : s.ets ≠ []) (hall : ∀ e ∈ s.ets, e.2 = sub)
    (hin : ∀ p ∈ s.spills, p.et ∈ s.ets.map Prod.fst) :
    v0tov1 s = some (s.spills.filterMap fun p => (Dict.get? s.ets p.et).map fun sub => ⟨p.file, sub⟩) := by
  have hg : ∀ p ∈ s.spills, Dict.get? s.ets p.et = some sub := by
    intro p hp
    cases hq : Dict.get? s.ets p.et with
    | none => exact absurd (hin p hp) ((Dict.get?_eq_none_iff _ _).mp hq)
    | some v => rw [← hall _ (Dict.mem_of_get? hq)]
  have hf : (s.spills.filterMap fun p => (Dict.get? s.ets p.et).map fun sub => (⟨p.file, sub⟩ : Spill1)) =
      s.spills.map fun p => { file := p.file, sub := sub } := by
    rw [← List.filterMap_eq_map]
    apply List.filterMap_congr
    intro p hp
    rw [hg p hp]; rfl
  rw [hf]
  unfold v0tov1
  cases he : s.ets with
  | nil => exact absurd he hne
  | cons e l =>
    obtain ⟨a, b⟩ := e
    have : b = sub := hall (a, b) (by rw [he]; simp)
    subst this
    cases s.spills <;> rfl

example : v0tov1 { ets := [(1, 10)], spills := [⟨3, 1⟩, ⟨4, 1⟩] } = some [⟨3, 10⟩, ⟨4, 10⟩] := by decide

/-! ## C181: windages -/

/-- **C181**, as one would expect: the step goes through, if the files of the initializers are there. -/
def C181_claim : Prop := ∀ (s : Folder), s.winds.WF → (v1tov2 s).2 = true

/-- Two substances with the same initializer: the second removal fails. -/
theorem C181_counterexample : ¬ C181_claim := by
  intro h
  have := h { objs := [⟨some [7], none⟩, ⟨some [7], none⟩], winds := [(7, 3)], version := 1 } (by simp [Dict.WF])
  revert this; decide

/-- The failed update has already recorded the new version: a second attempt takes the step as done. -/
theorem C181_counterexample_again :
    (v1tov2 { objs := [⟨some [7], none⟩, ⟨some [7], none⟩], winds := [(7, 3)], version := 1 }) =
      ({ objs := [⟨none, some 3⟩, ⟨none, some 3⟩], winds := [], version := 2 }, false) := by decide

/-- Other initializers of the same object are dropped along with the windages. -/
theorem C181_counterexample_other : (takeWind [(7, 3)] ⟨some [8, 7], none⟩).1 = ⟨none, some 3⟩ := by decide

theorem unlinkAll_ok (fs : List File) (hn : fs.Nodup) : ∀ (d : Dict File Nat), (∀ f ∈ fs, d.has f = true) →
    (unlinkAll fs d).2 = true ∧ ∀ f, (unlinkAll fs d).1.get? f = if f ∈ fs then none else d.get? f := by
  induction fs with
  | nil => intro d _; exact ⟨rfl, fun f => by simp [unlinkAll]⟩
  | cons a fs ih =>
    intro d hd
    rw [List.nodup_cons] at hn
    rw [unlinkAll, if_pos (hd a (by simp))]
    have h1 : ∀ f ∈ fs, (d.del a).has f = true := by
      intro f hf
      have hne : a ≠ f := fun e => hn.1 (e ▸ hf)
      have := hd f (List.mem_cons_of_mem _ hf)
      rw [Dict.has_iff] at this ⊢
      obtain ⟨v, hv⟩ := this
      exact ⟨v, by rw [Dict.get?_del, if_neg hne, hv]⟩
    obtain ⟨h2, h3⟩ := ih hn.2 _ h1
    refine ⟨h2, fun f => ?_⟩
    rw [h3, Dict.get?_del]
    by_cases e : a = f
    · subst e; simp
    · by_cases hf : f ∈ fs
      · simp [hf]
      · have e' : f ≠ a := fun h => e h.symm
        simp [hf, e, e']

/-- The files that are to be removed: the windages among the initializers. -/
theorem takeWind_files (w : Dict File Nat) (o : Obj) :
    (takeWind w o).2 = ((o.inits.getD []).filter fun f => w.has f) := by
  unfold takeWind
  cases h : o.inits with
  | none => rfl
  | some l =>
    simp only [Option.getD_some]
    have key : ∀ (l : List File) (a : Obj × List File), (l.foldl (windOne w) a).2 = a.2 ++ l.filter fun f => w.has f := by
      intro l
      induction l with
      | nil => intro a; simp
      | cons f l ih =>
        intro a
        rw [List.foldl_cons, ih]
        cases hf : w.get? f with
        | none => simp [windOne, Dict.has, hf]
        | some v => simp [windOne, Dict.has, hf]
    rw [key]; rfl

/-- An object with one initializer, a file with windages, gets those. -/
theorem takeWind_one (w : Dict File Nat) (f : File) (v : Nat) (x : Option Nat) (h : w.get? f = some v) :
    takeWind w ⟨some [f], x⟩ = (⟨none, some v⟩, [f]) := by
  simp [takeWind, windOne, h]

/-- **C181** if no initializer is used twice: the step goes through; the windages of initializers are with their objects and exactly
those files are gone. -/
theorem C181_partial (s : Folder) (hn : (s.objs.flatMap fun o => o.inits.getD []).Nodup) :
    (v1tov2 s).2 = true ∧
    (∀ f, (v1tov2 s).1.winds.get? f = if f ∈ s.objs.flatMap (fun o => o.inits.getD []) then none else s.winds.get? f) ∧
    ∀ (i : Nat) (f : File) (v : Nat) (x : Option Nat), s.objs[i]? = some (Obj.mk (some [f]) x) → s.winds.get? f = some v →
      (v1tov2 s).1.objs[i]? = some (Obj.mk none (some v)) := by
  have hfl : (s.objs.map (takeWind s.winds)).flatMap Prod.snd =
      (s.objs.flatMap fun o => o.inits.getD []).filter fun f => s.winds.has f := by
    rw [List.flatMap_map, List.filter_flatMap]
    congr 1
    funext o
    exact takeWind_files _ _
  have h := unlinkAll_ok _ (hn.filter fun f => s.winds.has f) s.winds (fun f hf => (List.mem_filter.mp hf).2)
  unfold v1tov2
  simp only [hfl]
  refine ⟨h.1, fun f => ?_, fun i f v x hi hv => ?_⟩
  · rw [h.2]
    by_cases hm : f ∈ s.objs.flatMap fun o => o.inits.getD []
    · by_cases hh : s.winds.has f = true
      · rw [if_pos (List.mem_filter.mpr ⟨hm, hh⟩), if_pos hm]
      · rw [if_neg (fun q => hh (List.mem_filter.mp q).2), if_pos hm]
        simpa [Dict.has] using hh
    · rw [if_neg (fun q => hm (List.mem_filter.mp q).1), if_neg hm]
  · rw [List.getElem?_map, List.getElem?_map, hi]
    simp [takeWind_one _ _ _ _ hv]

example : (v1tov2 { objs := [⟨some [7], none⟩, ⟨some [8], none⟩, ⟨none, none⟩], winds := [(7, 3), (8, 4), (9, 5)], version := 1 }) =
    ({ objs := [⟨none, some 3⟩, ⟨none, some 4⟩, ⟨none, none⟩], winds := [(9, 5)], version := 2 }, true) := by decide

/-! ## C182: which steps are carried out -/

/-- What the steps from a version on do, one after another, as a relation. -/
inductive Runs {S : Type} (steps : List (S → S × Bool)) : Nat → S → S → Prop
  | done (s) : Runs steps steps.length s s
  | step (v s s' t f) : steps[v]? = some f → f s = (s', true) → Runs steps (v + 1) s' t → Runs steps v s t

theorem runFrom_runs {S : Type} (steps : List (S → S × Bool)) (n v : Nat) (hv : v + n = steps.length) (s t : S) :
    runFrom (steps.drop v) s = (t, true) ↔ Runs steps v s t := by
  induction n generalizing v s with
  | zero =>
    have : v = steps.length := by omega
    subst this
    rw [List.drop_length]
    constructor
    · intro h
      simp only [runFrom, Prod.mk.injEq, and_true] at h
      subst h; exact Runs.done s
    · intro h
      generalize hk : steps.length = k at h
      cases h with
      | done => rfl
      | step _ _ s' _ f hf _ _ =>
        have := (List.getElem?_eq_some_iff.mp hf).1
        omega
  | succ n ih =>
    have hlt : v < steps.length := by omega
    rw [List.drop_eq_getElem_cons hlt]
    constructor
    · intro h
      simp only [runFrom] at h
      cases hf : steps[v] s with
      | mk s' b =>
        rw [hf] at h
        cases b with
        | false => simp at h
        | true =>
          exact Runs.step v s s' t _ (List.getElem?_eq_getElem hlt) hf ((ih (v + 1) (by omega) s').mp h)
    · intro h
      have h' : ∃ s' f, steps[v]? = some f ∧ f s = (s', true) ∧ Runs steps (v + 1) s' t := by
        generalize hk : v = w at h
        cases h with
        | done => omega
        | step _ _ s' _ f hf hfs hr => exact ⟨s', f, hf, hfs, hr⟩
      obtain ⟨s', f, hf, hfs, hr⟩ := h'
      · rw [List.getElem?_eq_getElem hlt] at hf
        cases hf
        simp only [runFrom, hfs]
        exact (ih (v + 1) (by omega) s').mpr hr

/-- **C182**, as one would expect: the update of a save file is accepted if and only if each of the steps that it lacks succeeded, in
their order — and a file of a version that is not known is refused. -/
def C182_claim : Prop := ∀ (S : Type) (steps : List (S → S × Bool)) (version : S → Option Nat) (s t : S),
  update steps version s = (t, true) ↔ Runs steps ((version s).getD 0) s t

/-- A file of a later version is accepted as it is. -/
theorem C182_counterexample : ¬ C182_claim := by
  intro h
  have h1 := (h Nat [] (fun s => some s) 7 7).mp rfl
  simp only [Option.getD_some] at h1
  generalize hk : (7 : Nat) = k at h1
  cases h1 with
  | done => simp at hk
  | step _ _ s' _ f hf _ _ => simp at hf

/-- Whatever the steps. -/
theorem C182_newer {S : Type} (steps : List (S → S × Bool)) (version : S → Option Nat) (s : S) (v : Nat)
    (hv : version s = some v) (h : steps.length < v) : update steps version s = (s, true) := by
  unfold update
  rw [hv, Option.getD_some, List.drop_eq_nil_of_le (by omega)]
  rfl

/-- **C182** for files of the present or an older version. -/
theorem C182_partial {S : Type} (steps : List (S → S × Bool)) (version : S → Option Nat) (s t : S)
    (h : (version s).getD 0 ≤ steps.length) :
    update steps version s = (t, true) ↔ Runs steps ((version s).getD 0) s t :=
  runFrom_runs steps (steps.length - (version s).getD 0) _ (by omega) s t

example : update [fun s : Nat => (s + 1, true), fun s => (s * 5, true)] (fun s => some s) 1 = (5, true) := by decide

end Verif.Upd
