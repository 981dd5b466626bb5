import Verif.Run.MergeModel
import Mathlib.Data.List.Nodup
/-!
# C205: merging a model adds what is missing and nothing else
-/
namespace Verif.Run.Merge

/-! ## Specification -/

/-- the identities in a collection -/
def ids (l : List Obj) : List Nat := l.map Obj.ident

mutual
/-- an object and all it refers to, directly or not -/
def Obj.all : Obj → List Nat
  | .mk i rs => i :: allOf rs
def allOf : List Obj → List Nat
  | [] => []
  | o :: os => o.all ++ allOf os
end

/-- the objects of `l` that are not in `own`, in their order -/
def missing (own l : List Obj) : List Obj := l.filter (fun o => decide (o.ident ∉ ids own))

/-- the number of time steps is the one of the duration -/
def Consistent (m : M) : Prop := m.num = numFor m.step m.duration

/-- whatever the objects of a model refer to is in its environment -/
structure Closed (m : M) : Prop where
  movers : ∀ i ∈ allOf (m.movers.flatMap Obj.refs), i ∈ ids m.env
  weatherers : ∀ i ∈ allOf (m.weatherers.flatMap Obj.refs), i ∈ ids m.env
  env : ∀ i ∈ allOf m.env, i ∈ ids m.env

/-- **C205 in full**: the merged model has the objects of both, its own first, and is as consistent as the two were. -/
def C205_claim : Prop := ∀ a b : M, Consistent a → Consistent b →
  (ids b.movers).Nodup → (ids b.weatherers).Nodup → (ids b.outputters).Nodup → (ids b.spills).Nodup →
  (merge a b).movers = a.movers ++ missing a.movers b.movers ∧
  (merge a b).weatherers = a.weatherers ++ missing a.weatherers b.weatherers ∧
  (merge a b).outputters = a.outputters ++ missing a.outputters b.outputters ∧
  (merge a b).spills = a.spills ++ missing a.spills b.spills ∧
  (Closed b → ∀ i, i ∈ ids (merge a b).env ↔ i ∈ ids a.env ∨ i ∈ ids b.env) ∧
  Consistent (merge a b)

/-! ## Lemmas -/

theorem has_iff (l : List Obj) (o : Obj) : has l o = true ↔ o.ident ∈ ids l := by
  simp [has, ids]

theorem mergePlain_eq (mine l : List Obj) (hl : (ids l).Nodup) : mergePlain mine l = mine ++ missing mine l := by
  induction l generalizing mine with
  | nil => simp [mergePlain, missing]
  | cons o os ih =>
    have hn : o.ident ∉ ids os ∧ (ids os).Nodup := by simpa [ids] using hl
    rw [mergePlain]
    by_cases h : has mine o = true
    · rw [if_pos h, ih _ hn.2]
      rw [has_iff] at h
      simp [missing, h]
    · rw [if_neg h, ih _ hn.2]
      rw [has_iff] at h
      have e : missing (mine ++ [o]) os = missing mine os := by
        unfold missing
        apply List.filter_congr
        intro x hx
        have : x.ident ≠ o.ident := by
          intro e; exact hn.1 (e ▸ List.mem_map.mpr ⟨x, hx, rfl⟩)
        simp [ids, this]
      rw [e]
      simp [missing, h]

theorem mergeItems_fst (mine env l : List Obj) : (mergeItems mine env l).1 = mergePlain mine l := by
  induction l generalizing mine env with
  | nil => rfl
  | cons o os ih =>
    rw [mergeItems, mergePlain]
    split_ifs <;> exact ih _ _

mutual
theorem addEnv_append (env : List Obj) : (o : Obj) → ∃ t, addEnv env o = env ++ t ∧ (∀ x ∈ ids t, x ∈ o.all ∧ x ∉ ids env) ∧
    (ids t).Nodup ∧ o.ident ∈ ids (addEnv env o)
  | .mk i rs => by
    rw [addEnv]
    by_cases h : has env (.mk i rs) = true
    · rw [if_pos h]
      exact ⟨[], by simp, by simp [ids], by simp [ids], (has_iff _ _).mp h⟩
    · rw [if_neg h]
      rw [has_iff] at h
      obtain ⟨t, e, h1, h2, h3⟩ := addRefs_append (env ++ [.mk i rs]) rs
      refine ⟨.mk i rs :: t, by rw [e]; simp, ?_, ?_, ?_⟩
      · intro x hx
        simp only [ids, List.map_cons, List.mem_cons] at hx
        rcases hx with rfl | hx
        · exact ⟨by simp [Obj.all], h⟩
        · obtain ⟨a1, a2⟩ := h1 x hx
          refine ⟨by simp [Obj.all, a1], fun hm => a2 ?_⟩
          simp only [ids, List.map_append, List.mem_append]
          exact .inl hm
      · show (Obj.ident (.mk i rs) :: ids t).Nodup
        rw [List.nodup_cons]
        refine ⟨fun hm => (h1 _ hm).2 ?_, h2⟩
        simp [ids]
      · rw [e]; simp [ids]
theorem addRefs_append (env : List Obj) : (os : List Obj) → ∃ t, addRefs env os = env ++ t ∧
    (∀ x ∈ ids t, x ∈ allOf os ∧ x ∉ ids env) ∧ (ids t).Nodup ∧ ∀ o ∈ os, o.ident ∈ ids (addRefs env os)
  | [] => ⟨[], by simp [addRefs], by simp [ids], by simp [ids], by simp⟩
  | o :: os => by
    obtain ⟨t, e, h1, h2, h3⟩ := addEnv_append env o
    obtain ⟨u, e', k1, k2, k3⟩ := addRefs_append (addEnv env o) os
    rw [addRefs]
    refine ⟨t ++ u, by rw [e', e]; simp, ?_, ?_, ?_⟩
    · intro x hx
      simp only [ids, List.map_append, List.mem_append] at hx
      rcases hx with hx | hx
      · obtain ⟨a1, a2⟩ := h1 x hx
        exact ⟨by simp [allOf, a1], a2⟩
      · obtain ⟨a1, a2⟩ := k1 x hx
        refine ⟨by simp [allOf, a1], fun hm => a2 ?_⟩
        rw [e]
        simp only [ids, List.map_append, List.mem_append]
        exact .inl hm
    · have : ids (t ++ u) = ids t ++ ids u := by simp [ids]
      rw [this, List.nodup_append']
      refine ⟨h2, k2, fun x hx hy => (k1 x hy).2 ?_⟩
      rw [e]
      simp only [ids, List.map_append, List.mem_append]
      exact .inr hx
    · intro x hx
      rcases List.mem_cons.mp hx with rfl | hx
      · rw [e']
        simp only [ids, List.map_append, List.mem_append]
        exact .inl h3
      · exact k3 x hx
end

theorem mergeItems_snd (mine env l : List Obj) : ∃ t, (mergeItems mine env l).2 = env ++ t ∧
    (∀ x ∈ ids t, x ∈ allOf (l.flatMap Obj.refs) ∧ x ∉ ids env) ∧ (ids t).Nodup := by
  induction l generalizing mine env with
  | nil => exact ⟨[], by simp [mergeItems], by simp [ids], by simp [ids]⟩
  | cons o os ih =>
    have happ : ∀ p q : List Obj, allOf (p ++ q) = allOf p ++ allOf q := by
      intro p q
      induction p with
      | nil => simp [allOf]
      | cons x p ihp => simp [allOf, ihp]
    rw [mergeItems]
    by_cases h : has mine o = true
    · rw [if_pos h]
      obtain ⟨t, e, h1, h2⟩ := ih mine env
      refine ⟨t, e, fun x hx => ⟨?_, (h1 x hx).2⟩, h2⟩
      rw [List.flatMap_cons, happ]
      exact List.mem_append_right _ (h1 x hx).1
    · rw [if_neg h]
      obtain ⟨t, e, h1, h2, -⟩ := addRefs_append env o.refs
      obtain ⟨u, e', k1, k2⟩ := ih (mine ++ [o]) (addRefs env o.refs)
      refine ⟨t ++ u, by rw [e', e]; simp, ?_, ?_⟩
      · intro x hx
        rw [List.flatMap_cons, happ]
        simp only [ids, List.map_append, List.mem_append] at hx
        rcases hx with hx | hx
        · exact ⟨List.mem_append_left _ (h1 x hx).1, (h1 x hx).2⟩
        · refine ⟨List.mem_append_right _ (k1 x hx).1, fun hm => (k1 x hx).2 ?_⟩
          rw [e]
          simp only [ids, List.map_append, List.mem_append]
          exact .inl hm
      · have : ids (t ++ u) = ids t ++ ids u := by simp [ids]
        rw [this, List.nodup_append']
        refine ⟨h2, k2, fun x hx hy => (k1 x hy).2 ?_⟩
        rw [e]
        simp only [ids, List.map_append, List.mem_append]
        exact .inr hx

theorem mergeEnv_eq (env l : List Obj) : mergeEnv env l = addRefs env l := by
  induction l generalizing env with
  | nil => rfl
  | cons o os ih =>
    rw [mergeEnv, addRefs]
    by_cases h : has env o = true
    · rw [if_pos h, ih]
      have : addEnv env o = env := by
        cases o with
        | mk i rs => rw [addEnv, if_pos h]
      rw [this]
    · rw [if_neg h, ih]

theorem ids_append (p q : List Obj) : ids (p ++ q) = ids p ++ ids q := by simp [ids]

/-- the environment after a merge -/
theorem merge_env (a b : M) : ∃ t, (merge a b).env = a.env ++ t ∧ (ids t).Nodup ∧
    (∀ x ∈ ids t, x ∉ ids a.env ∧ (x ∈ allOf (b.movers.flatMap Obj.refs) ∨ x ∈ allOf (b.weatherers.flatMap Obj.refs) ∨
      x ∈ allOf b.env)) ∧ ∀ x ∈ ids b.env, x ∈ ids (merge a b).env := by
  obtain ⟨t, e, h1, h2⟩ := mergeItems_snd a.movers a.env b.movers
  obtain ⟨u, e', k1, k2⟩ := mergeItems_snd a.weatherers (mergeItems a.movers a.env b.movers).2 b.weatherers
  obtain ⟨v, e'', l1, l2, l3⟩ := addRefs_append (mergeItems a.weatherers (mergeItems a.movers a.env b.movers).2 b.weatherers).2 b.env
  have hm : (merge a b).env = addRefs (mergeItems a.weatherers (mergeItems a.movers a.env b.movers).2 b.weatherers).2 b.env :=
    mergeEnv_eq _ _
  refine ⟨t ++ u ++ v, ?_, ?_, ?_, ?_⟩
  · rw [hm, e'', e', e]; simp
  · rw [ids_append, ids_append, List.nodup_append', List.nodup_append']
    refine ⟨⟨h2, k2, fun x hx hy => (k1 x hy).2 ?_⟩, l2, fun x hx hy => (l1 x hy).2 ?_⟩
    · rw [e, ids_append]; exact List.mem_append_right _ hx
    · rw [e', e, ids_append, ids_append]
      rw [List.mem_append] at hx
      rcases hx with hx | hx
      · exact List.mem_append_left _ (List.mem_append_right _ hx)
      · exact List.mem_append_right _ hx
  · intro x hx
    rw [ids_append, ids_append, List.mem_append, List.mem_append] at hx
    rcases hx with (hx | hx) | hx
    · exact ⟨(h1 x hx).2, .inl (h1 x hx).1⟩
    · refine ⟨fun hm => (k1 x hx).2 ?_, .inr (.inl (k1 x hx).1)⟩
      rw [e, ids_append]; exact List.mem_append_left _ hm
    · refine ⟨fun hm => (l1 x hx).2 ?_, .inr (.inr (l1 x hx).1)⟩
      rw [e', e, ids_append, ids_append]
      exact List.mem_append_left _ (List.mem_append_left _ hm)
  · intro x hx
    obtain ⟨o, ho, rfl⟩ := List.mem_map.mp hx
    rw [hm]
    exact l3 o ho

/-! ## C205 -/

/-- **C205 (partial)**: movers, weatherers, outputters and spills are its own and then those of the other that it did not have, in
their order; the environment begins with its own and no object is there twice; it has all of the other's environment and otherwise
nothing but what the other's objects refer to, so nothing else if the other model is closed; what was set stays, what was not is taken over.
Missing for the full claim: the number of time steps (`C205_steps`, `C205_counterexample`). -/
theorem C205_partial (a b : M) (h1 : (ids b.movers).Nodup) (h2 : (ids b.weatherers).Nodup) (h3 : (ids b.outputters).Nodup)
    (h4 : (ids b.spills).Nodup) :
    (merge a b).movers = a.movers ++ missing a.movers b.movers ∧
    (merge a b).weatherers = a.weatherers ++ missing a.weatherers b.weatherers ∧
    (merge a b).outputters = a.outputters ++ missing a.outputters b.outputters ∧
    (merge a b).spills = a.spills ++ missing a.spills b.spills ∧
    (Closed b → ∀ i, i ∈ ids (merge a b).env ↔ i ∈ ids a.env ∨ i ∈ ids b.env) ∧
    (∃ t, (merge a b).env = a.env ++ t) ∧ ((ids a.env).Nodup → (ids (merge a b).env).Nodup) ∧
    (∀ k v, a.rest k = some v → (merge a b).rest k = some v) ∧
    (∀ k, a.rest k = none → (merge a b).rest k = b.rest k) := by
  obtain ⟨t, e, k1, k2, k3⟩ := merge_env a b
  refine ⟨?_, ?_, mergePlain_eq _ _ h3, mergePlain_eq _ _ h4, ?_, ⟨t, e⟩, ?_, ?_, ?_⟩
  · show (mergeItems a.movers a.env b.movers).1 = _
    rw [mergeItems_fst, mergePlain_eq _ _ h1]
  · show (mergeItems a.weatherers _ b.weatherers).1 = _
    rw [mergeItems_fst, mergePlain_eq _ _ h2]
  · intro hc i
    constructor
    · intro hi
      rw [e, ids_append, List.mem_append] at hi
      rcases hi with hi | hi
      · exact .inl hi
      · rcases (k2 i hi).2 with h | h | h
        · exact .inr (hc.movers i h)
        · exact .inr (hc.weatherers i h)
        · exact .inr (hc.env i h)
    · rintro (hi | hi)
      · rw [e, ids_append]; exact List.mem_append_left _ hi
      · exact k3 i hi
  · intro hn
    rw [e, ids_append, List.nodup_append']
    exact ⟨hn, k1, fun x hx hy => (k2 x hy).1 hx⟩
  · intro k v hk
    show (a.rest k).or (b.rest k) = _
    rw [hk]; rfl
  · intro k hk
    show (a.rest k).or (b.rest k) = _
    rw [hk]; rfl

theorem mergePlain_mem (mine l : List Obj) : (∀ o ∈ l, o.ident ∈ ids (mergePlain mine l)) ∧ ∀ i ∈ ids mine, i ∈ ids (mergePlain mine l) := by
  induction l generalizing mine with
  | nil => simp [mergePlain]
  | cons o os ih =>
    rw [mergePlain]
    by_cases h : has mine o = true
    · rw [if_pos h]
      refine ⟨fun x hx => ?_, (ih mine).2⟩
      rcases List.mem_cons.mp hx with rfl | hx
      · exact (ih mine).2 _ ((has_iff _ _).mp h)
      · exact (ih mine).1 x hx
    · rw [if_neg h]
      refine ⟨fun x hx => ?_, fun i hi => (ih _).2 i (by rw [ids_append]; exact List.mem_append_left _ hi)⟩
      rcases List.mem_cons.mp hx with rfl | hx
      · exact (ih _).2 _ (by rw [ids_append]; simp [ids])
      · exact (ih _).1 x hx

theorem mergePlain_noop (mine l : List Obj) (h : ∀ o ∈ l, o.ident ∈ ids mine) : mergePlain mine l = mine := by
  induction l with
  | nil => rfl
  | cons o os ih =>
    rw [mergePlain, if_pos ((has_iff _ _).mpr (h o (by simp))), ih fun x hx => h x (by simp [hx])]

theorem mergeItems_noop (mine env l : List Obj) (h : ∀ o ∈ l, o.ident ∈ ids mine) : mergeItems mine env l = (mine, env) := by
  induction l with
  | nil => rfl
  | cons o os ih =>
    rw [mergeItems, if_pos ((has_iff _ _).mpr (h o (by simp))), ih fun x hx => h x (by simp [hx])]

theorem mergeEnv_noop (env l : List Obj) (h : ∀ o ∈ l, o.ident ∈ ids env) : mergeEnv env l = env := by
  induction l with
  | nil => rfl
  | cons o os ih =>
    rw [mergeEnv, if_pos ((has_iff _ _).mpr (h o (by simp))), ih fun x hx => h x (by simp [hx])]

/-- **C205, again**: merging a second time changes nothing, and a model merged into itself stays as it is. -/
theorem C205_again (a b : M) : merge (merge a b) b = merge a b ∧ merge a a = a := by
  have gen : ∀ a b : M, (∀ o ∈ b.movers, o.ident ∈ ids a.movers) → (∀ o ∈ b.weatherers, o.ident ∈ ids a.weatherers) →
      (∀ o ∈ b.env, o.ident ∈ ids a.env) → (∀ o ∈ b.outputters, o.ident ∈ ids a.outputters) →
      (∀ o ∈ b.spills, o.ident ∈ ids a.spills) → merge a b = { a with
        step := a.step.or b.step, num := a.num.or b.num, rest := fun k => (a.rest k).or (b.rest k) } := by
    intro a b h1 h2 h3 h4 h5
    unfold merge
    simp only [mergeItems_noop _ _ _ h1, mergeItems_noop _ _ _ h2, mergeEnv_noop _ _ h3, mergePlain_noop _ _ h4,
      mergePlain_noop _ _ h5]
  have self : ∀ l : List Obj, ∀ o ∈ l, o.ident ∈ ids l := fun l o ho => List.mem_map.mpr ⟨o, ho, rfl⟩
  constructor
  · rw [gen (merge a b) b]
    · have hor : ∀ {α : Type} (x y : Option α), (x.or y).or y = x.or y := by
        intro α x y; cases x <;> cases y <;> rfl
      have e1 : (merge a b).step = a.step.or b.step := rfl
      have e2 : (merge a b).num = a.num.or b.num := rfl
      have e3 : (merge a b).rest = fun k => (a.rest k).or (b.rest k) := rfl
      rw [e1, e2, e3, hor, hor]
      simp only [hor]
      rfl
    · intro o ho
      show o.ident ∈ ids (mergeItems a.movers a.env b.movers).1
      rw [mergeItems_fst]
      exact (mergePlain_mem _ _).1 o ho
    · intro o ho
      show o.ident ∈ ids (mergeItems a.weatherers _ b.weatherers).1
      rw [mergeItems_fst]
      exact (mergePlain_mem _ _).1 o ho
    · intro o ho
      obtain ⟨-, -, -, -, k⟩ := merge_env a b
      exact k _ (self _ o ho)
    · exact (mergePlain_mem _ _).1
    · exact (mergePlain_mem _ _).1
  · rw [gen a a (self _) (self _) (self _) (self _) (self _)]
    have hor : ∀ {α : Type} (x : Option α), x.or x = x := by intro α x; cases x <;> rfl
    simp only [hor]

/-- **C205, the number of time steps**: it is the one of the duration if the model had a time step, or the other has none, or both last
equally long. -/
theorem C205_steps (a b : M) (ha : Consistent a) (hb : Consistent b) (h : a.step ≠ none ∨ b.step = none ∨ a.duration = b.duration) :
    Consistent (merge a b) := by
  unfold Consistent at *
  show a.num.or b.num = numFor (a.step.or b.step) a.duration
  rw [ha, hb]
  cases hs : a.step with
  | some s => simp [numFor]
  | none =>
    rcases h with h | h | h
    · exact absurd hs h
    · simp [numFor, h]
    · simp [numFor, h]

/-- a model of two days without a time step, and one of a day with steps of 900 s -/
def twoDays : M := ⟨none, none, 172800, fun _ => none, [.mk 1 []], [], [], [], []⟩
def oneDay : M := ⟨some 900, some 97, 86400, fun _ => none, [.mk 2 [.mk 3 [], .mk 4 [.mk 3 [], .mk 5 []]]], [], [.mk 3 [], .mk 4 [.mk 3 [], .mk 5 []], .mk 5 []], [], [.mk 6 []]⟩

/-- movers and environment of the merged model -/
example : ids (merge twoDays oneDay).movers = [1, 2] ∧ ids (merge twoDays oneDay).env = [3, 4, 5] ∧
    ids (merge twoDays oneDay).spills = [6] := by
  simp [merge, twoDays, oneDay, mergeItems, mergeEnv, mergePlain, addRefs, addEnv, has, ids, Obj.ident, Obj.refs]

/-- **C205 is false of the code**: a model of two days without a time step that takes over a time step of 900 s also takes over the number of
steps of a run of one day, and ends after that day. -/
theorem C205_counterexample : Consistent twoDays ∧ Consistent oneDay ∧ (merge twoDays oneDay).duration = 172800 ∧
    (merge twoDays oneDay).step = some 900 ∧ (merge twoDays oneDay).num = some 97 ∧ ¬ C205_claim := by
  have h1 : Consistent twoDays := by unfold Consistent; decide
  have h2 : Consistent oneDay := by unfold Consistent; decide
  refine ⟨h1, h2, rfl, rfl, rfl, fun h => ?_⟩
  have := (h twoDays oneDay h1 h2 (by simp [oneDay, ids]) (by simp [oneDay, ids]) (by simp [oneDay, ids]) (by simp [oneDay, ids])).2.2.2.2.2
  have e : some (97 : Int) = numFor (some 900) 172800 := this
  revert e
  decide

end Verif.Run.Merge
