import Verif.RefDict.Model
import Mathlib.Data.List.Basic

/-!
# C48: the reference registry; C54: default references
-/

namespace Verif.RefDict
open Verif.Py

section
variable {κ ν : Type} [DecidableEq κ] [DecidableEq ν]

/-- **C48** (conflict).  Storing another object under a registered id raises and changes nothing. -/
theorem C48_conflict (d : Dict κ ν) (k : κ) (v w : ν) (h : d.get? k = some w) (hne : w ≠ v) :
    step d (.setItem k v) = (d, true) := by
  simp only [step, setItem, h, if_neg hne]

/-- Storing does not raise in any other case, and the object can then be looked up; other ids are not affected. -/
theorem C48_store (d : Dict κ ν) (k : κ) (v : ν) (h : ∀ w, d.get? k = some w → w = v) :
    (step d (.setItem k v)).2 = false ∧ (step d (.setItem k v)).1.get? k = some v ∧
      ∀ k', k' ≠ k → (step d (.setItem k v)).1.get? k' = d.get? k' := by
  have hs : setItem d k v = some (d.set k v) := by
    unfold setItem
    cases hk : d.get? k with
    | none => rfl
    | some w => simp only [if_pos (h w hk)]
  simp only [step, hs]
  refine ⟨trivial, by rw [Dict.get?_set_self], ?_⟩
  intro k' hk'
  rw [Dict.get?_set, if_neg (fun e => hk' e.symm)]

/-- Operations that go through `__setitem__` or only fill gaps. -/
def Safe : Op κ ν → Prop
  | .update _ => False
  | _ => True

theorem step_keeps (d : Dict κ ν) (o : Op κ ν) (ho : Safe o) (k : κ) (w : ν) (h : d.get? k = some w) :
    (step d o).1.get? k = some w := by
  cases o with
  | update l => exact absurd ho (by simp [Safe])
  | setItem k' v =>
    by_cases hk : k' = k
    · subst hk
      by_cases hv : w = v
      · subst hv
        exact (C48_store d k' w (by intro x hx; rw [h] at hx; exact (Option.some.inj hx).symm)).2.1
      · rw [C48_conflict d k' v w h hv]; exact h
    · simp only [step]
      cases hs : setItem d k' v with
      | none => exact h
      | some d' =>
        have : d' = d.set k' v := by
          unfold setItem at hs
          split at hs
          · split at hs
            · exact (Option.some.inj hs).symm
            · simp at hs
          · exact (Option.some.inj hs).symm
        simp only [this]
        rw [Dict.get?_set, if_neg hk, h]
  | setDefault k' v =>
    simp only [step]
    split
    · exact h
    · rename_i hh
      simp only
      rw [Dict.get?_set]
      by_cases hk : k' = k
      · subst hk
        exfalso; apply hh; simp [Dict.has, h]
      · rw [if_neg hk, h]

/-- **C48** (first registration wins), histories without `update`: a registered object stays under its id for ever. -/
theorem C48_first_partial (d : Dict κ ν) (ops : List (Op κ ν)) (hs : ∀ o ∈ ops, Safe o) (k : κ) (w : ν)
    (h : d.get? k = some w) : (run d ops).get? k = some w := by
  unfold run
  induction ops generalizing d with
  | nil => exact h
  | cons o t ih =>
    rw [List.foldl_cons]
    exact ih _ (fun o' ho' => hs o' (List.mem_cons_of_mem _ ho')) (step_keeps d o (hs o (List.mem_cons_self ..)) k w h)

/-- The object found after a history on an empty registry is the first one stored under the id. -/
theorem C48_lookup_partial (pairs : List (κ × ν)) (k : κ) :
    (run [] (pairs.map (fun p => Op.setItem p.1 p.2))).get? k = (pairs.find? (fun p => p.1 = k)).map Prod.snd := by
  suffices H : ∀ d : Dict κ ν, (run d (pairs.map (fun p => Op.setItem p.1 p.2))).get? k =
      (match d.get? k with | some w => some w | none => (pairs.find? (fun p => p.1 = k)).map Prod.snd) by
    have := H []
    simpa using this
  induction pairs with
  | nil => intro d; simp only [run, List.map_nil, List.foldl_nil]; cases d.get? k <;> rfl
  | cons p t ih =>
    intro d
    have hrun : run d ((p :: t).map (fun p => Op.setItem p.1 p.2)) =
        run (step d (.setItem p.1 p.2)).1 (t.map (fun p => Op.setItem p.1 p.2)) := by
      simp only [run, List.map_cons, List.foldl_cons]
    rw [hrun, ih]
    cases h : d.get? k with
    | some w => rw [step_keeps d (.setItem p.1 p.2) trivial k w h]
    | none =>
      by_cases hk : p.1 = k
      · have := (C48_store d p.1 p.2 (by intro x hx; rw [hk, h] at hx; simp at hx)).2.1
        rw [hk] at this ⊢
        rw [this, List.find?_cons_of_pos (by simpa using hk)]; rfl
      · rw [List.find?_cons_of_neg (by simpa using hk)]
        have hget : (step d (.setItem p.1 p.2)).1.get? k = none := by
          cases hd : d.get? p.1 with
          | none =>
            rw [(C48_store d p.1 p.2 (by intro x hx; rw [hd] at hx; simp at hx)).2.2 k (fun e => hk e.symm), h]
          | some w =>
            by_cases hw : w = p.2
            · rw [(C48_store d p.1 p.2 (by intro x hx; rw [hd] at hx; rw [← hw]; exact (Option.some.inj hx).symm)).2.2 k
                (fun e => hk e.symm), h]
            · rw [C48_conflict d p.1 p.2 w hd hw]; exact h
        rw [hget]

end

/-- Counterexample: `update` (inherited from `dict`) replaces an object under an id without an error. -/
theorem C48_counterexample_update :
    (step (κ := Nat) (ν := Nat) [(1, 10)] (.update [(1, 20)])) = ([(1, 20)], false) := by decide

example : (step (κ := Nat) (ν := Nat) [(1, 10)] (.setItem 1 20)) = ([(1, 10)], true) := by decide

/-! ## C54 -/

/-- Specification: the first provider of a name in a list of objects. -/
def firstProvider (l : List Obj) (n : Nat) : Option Nat := (l.find? (fun o => decide (n ∈ o.refAs))).map Obj.id

theorem gatherOne_head (refs : Dict Nat (List Nat)) (o n m : Nat) :
    (((gatherOne refs o n).get? m).getD []).head? =
      (match ((refs.get? m).getD []).head? with
        | some p => some p
        | none => if m = n then some o else none) := by
  unfold gatherOne
  cases h : refs.get? n with
  | none =>
    simp only
    rw [Dict.get?_set]
    by_cases hm : n = m
    · subst hm; simp [h]
    · rw [if_neg hm, if_neg (fun e => hm e.symm)]
      cases ((refs.get? m).getD []).head? <;> rfl
  | some l =>
    simp only
    split
    · rename_i hmem
      by_cases hm : m = n
      · subst hm
        cases l with
        | nil => simp at hmem
        | cons a t => simp [h]
      · rw [if_neg hm]
        cases ((refs.get? m).getD []).head? <;> rfl
    · rw [Dict.get?_set]
      by_cases hm : n = m
      · subst hm
        cases l <;> simp [h]
      · rw [if_neg hm, if_neg (fun e => hm e.symm)]
        cases ((refs.get? m).getD []).head? <;> rfl

theorem gatherNames_head (names : List Nat) (refs : Dict Nat (List Nat)) (o m : Nat) :
    (((names.foldl (fun r n => gatherOne r o n) refs).get? m).getD []).head? =
      (match ((refs.get? m).getD []).head? with
        | some p => some p
        | none => if m ∈ names then some o else none) := by
  induction names generalizing refs with
  | nil => simp only [List.foldl_nil, List.not_mem_nil, if_false]; cases ((refs.get? m).getD []).head? <;> rfl
  | cons a t ih =>
    rw [List.foldl_cons, ih, gatherOne_head]
    cases ((refs.get? m).getD []).head? with
    | some p => rfl
    | none =>
      simp only [List.mem_cons]
      by_cases h : m = a
      · simp [h]
      · simp [h]

theorem gather_head (src : List Obj) (refs : Dict Nat (List Nat)) (m : Nat) :
    (((gather refs src).get? m).getD []).head? =
      (match ((refs.get? m).getD []).head? with
        | some p => some p
        | none => firstProvider src m) := by
  unfold gather
  induction src generalizing refs with
  | nil => simp only [List.foldl_nil, firstProvider]; cases ((refs.get? m).getD []).head? <;> rfl
  | cons a t ih =>
    rw [List.foldl_cons, ih, gatherNames_head]
    cases ((refs.get? m).getD []).head? with
    | some p => rfl
    | none =>
      simp only [firstProvider]
      by_cases h : m ∈ a.refAs
      · rw [if_pos h, List.find?_cons_of_pos (by simpa using h)]; rfl
      · rw [if_neg h, List.find?_cons_of_neg (by simpa using h)]

theorem gather_append (refs : Dict Nat (List Nat)) (a b : List Obj) : gather (gather refs a) b = gather refs (a ++ b) := by
  unfold gather; rw [List.foldl_append]

/-- The references collected by the model. -/
def M.refs (m : M) : Dict Nat (List Nat) := gather [] m.providers

theorem refs_eq (m : M) :
    gather (gather (gather (gather (gather [] m.environment) m.map) m.movers) m.weatherers) m.outputters = m.refs := by
  unfold M.refs M.providers
  simp only [gather_append, List.append_assoc]

theorem refs_head (m : M) (n : Nat) : ((m.refs.get? n).getD []).head? = firstProvider m.providers n := by
  unfold M.refs
  rw [gather_head]; rfl

theorem attachOne_eq (refs : Dict Nat (List Nat)) (cur : Nat → Option Nat) (n m : Nat) :
    attachOne refs cur n m = if m = n ∧ cur m = none then ((refs.get? n).getD []).head? else cur m := by
  unfold attachOne
  cases h : (refs.get? n).getD [] with
  | nil =>
    simp only [List.head?_nil]
    split
    · rename_i hc; exact hc.2
    · rfl
  | cons p t =>
    simp only [List.head?_cons]
    by_cases hm : m = n
    · subst hm
      by_cases hc : cur m = none
      · simp [hc]
      · simp [hc]
    · simp only [hm, false_and, if_false]
      split <;> simp [hm]

theorem attachFold_eq (refs : Dict Nat (List Nat)) (req : List Nat) (cur : Nat → Option Nat) (m : Nat) :
    req.foldl (attachOne refs) cur m =
      if m ∈ req ∧ cur m = none then ((refs.get? m).getD []).head? else cur m := by
  induction req generalizing cur with
  | nil => simp
  | cons a t ih =>
    rw [List.foldl_cons, ih, attachOne_eq]
    by_cases hc : cur m = none
    · by_cases hma : m = a
      · subst hma
        simp only [hc, and_self, if_true, List.mem_cons, true_or]
        split <;> rfl
      · simp [hma, hc]
    · simp [hc]

/-- **C54** (what is attached).  After setup every reference of every object is what it was if it was set, if the object does
not require that name or opted out; otherwise it is the first object of the model serving the name, in the order environment,
map, movers, weatherers, outputters. -/
theorem C54_attached (m : M) (o : Obj) (n : Nat) :
    (attach m.refs o).refs n =
      if o.auto = true ∧ n ∈ o.req ∧ o.refs n = none then firstProvider m.providers n else o.refs n := by
  unfold attach
  cases h : o.auto with
  | false => simp
  | true =>
    simp only [if_true, true_and]
    rw [attachFold_eq, refs_head]

/-- Setup treats all collections that way, and nothing else about the objects changes. -/
theorem C54_everywhere (m : M) :
    m.attachAll.environment = m.environment.map (attach m.refs) ∧ m.attachAll.movers = m.movers.map (attach m.refs) ∧
      m.attachAll.weatherers = m.weatherers.map (attach m.refs) ∧ m.attachAll.outputters = m.outputters.map (attach m.refs) ∧
      m.attachAll.spills = m.spills.map (attach m.refs) ∧ m.attachAll.map = m.map := by
  unfold M.attachAll
  rw [refs_eq]
  exact ⟨rfl, rfl, rfl, rfl, rfl, rfl⟩

/-- **C54** (user's choice respected).  References set by the user are never changed. -/
theorem C54_kept (m : M) (o : Obj) (n p : Nat) (h : o.refs n = some p) : (attach m.refs o).refs n = some p := by
  rw [C54_attached, if_neg (by rw [h]; simp), h]

theorem attach_static (refs : Dict Nat (List Nat)) (o : Obj) :
    (attach refs o).id = o.id ∧ (attach refs o).refAs = o.refAs ∧ (attach refs o).req = o.req ∧ (attach refs o).auto = o.auto := by
  unfold attach
  split <;> exact ⟨rfl, rfl, rfl, rfl⟩

theorem firstProvider_map (refs : Dict Nat (List Nat)) (l r : List Obj) (n : Nat) (hl : l.map (attach refs) = r) :
    firstProvider r n = firstProvider l n := by
  subst hl
  unfold firstProvider
  induction l with
  | nil => rfl
  | cons a t ih =>
    rw [List.map_cons]
    have := attach_static refs a
    by_cases h : n ∈ a.refAs
    · rw [List.find?_cons_of_pos (by simpa [this.2.1] using h), List.find?_cons_of_pos (by simpa using h)]
      simp [this.1]
    · rw [List.find?_cons_of_neg (by simpa [this.2.1] using h), List.find?_cons_of_neg (by simpa using h)]
      exact ih

theorem firstProvider_append (l r : List Obj) (n : Nat) :
    firstProvider (l ++ r) n = (firstProvider l n).or (firstProvider r n) := by
  unfold firstProvider
  rw [List.find?_append]
  cases List.find? (fun o => decide (n ∈ o.refAs)) l <;> rfl

theorem firstProvider_attachAll (m : M) (n : Nat) : firstProvider m.attachAll.providers n = firstProvider m.providers n := by
  obtain ⟨h1, h2, h3, h4, -, h6⟩ := C54_everywhere m
  unfold M.providers
  simp only [firstProvider_append]
  rw [h1, h2, h3, h4, h6]
  rw [firstProvider_map m.refs m.environment _ n rfl, firstProvider_map m.refs m.movers _ n rfl,
    firstProvider_map m.refs m.weatherers _ n rfl, firstProvider_map m.refs m.outputters _ n rfl]

/-- **C54** (idempotent).  Setting up again changes no reference. -/
theorem C54_idempotent (m : M) (o : Obj) (n : Nat) :
    (attach m.attachAll.refs (attach m.refs o)).refs n = (attach m.refs o).refs n := by
  have hs := attach_static m.refs o
  rw [C54_attached m.attachAll, hs.2.2.1, hs.2.2.2, firstProvider_attachAll]
  rw [C54_attached]
  by_cases h : o.auto = true ∧ n ∈ o.req ∧ o.refs n = none
  · rw [if_pos h]
    split
    · rfl
    · rfl
  · rw [if_neg h, if_neg h]

/-- After setup every required reference of an object that did not opt out is set whenever some object of the model serves
the name. -/
theorem C54_complete (m : M) (o q : Obj) (n : Nat) (hmk : o.auto = true) (hn : n ∈ o.req) (hq : q ∈ m.providers)
    (hs : n ∈ q.refAs) : ((attach m.refs o).refs n).isSome = true := by
  rw [C54_attached]
  split
  · unfold firstProvider
    rw [Option.isSome_map, List.find?_isSome]
    exact ⟨q, hq, by simpa using hs⟩
  · rename_i h
    cases hr : o.refs n with
    | some p => rfl
    | none => exact absurd ⟨hmk, hn, hr⟩ h

/-- a wind (name 0) of identity `i` -/
def windObj (i : Nat) : Obj := ⟨i, [0], [], true, fun _ => none⟩
/-- an evaporation that requires a wind -/
def evapObj : Obj := ⟨9, [], [0], true, fun _ => none⟩

/-- An automatically attached reference is not released: after the wind is taken out of the model and another is put in, a
new setup leaves the object that was attached to the old one where it was. -/
theorem C54_counterexample_stale :
    let m1 : M := ⟨[windObj 1], [], [], [evapObj], [], []⟩
    let m2 : M := { m1.attachAll with environment := [windObj 2] }
    (m2.attachAll.weatherers.map (fun o => o.refs 0)) = [some 1] ∧ firstProvider m2.providers 0 = some 2 := by
  decide

example : evapObj.auto = true ∧ 0 ∈ evapObj.req ∧ 0 ∈ (windObj 1).refAs := by decide

end Verif.RefDict
