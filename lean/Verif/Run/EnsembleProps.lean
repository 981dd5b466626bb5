import Verif.Run.EnsembleModel
import Mathlib.Data.List.Nodup
import Mathlib.Data.List.Forall2

/-!
# C218: ensembles of models
-/
namespace Verif.Run.Ensemble
open Verif.Py

variable {W S R U A : Type} [DecidableEq W] [DecidableEq S]

/-- the model that a pair is to have: with the shifts of the pair, no uncertain spills, no cache, only output of weathering -/
def Wanted (m : M W S R) (p : W × S) : M W S R :=
  ⟨false, m.winds ++ [p.1], m.amounts ++ [p.2], false, m.outs.filter (· = true), m.rest⟩

/-- **C218 in full**: an ensemble has for each pair of uncertainties a model with those shifts, found by the pair; a command goes to the model of its target, or to all, is answered by them
in order, and changes no other model; an exception in a model is raised with its class. -/
def C218_claim : Prop := ∀ (W S R U A : Type) [DecidableEq W] [DecidableEq S] (user : U → M W S R → M W S R × Ans A) (unit : A) (m : M W S R) (ws : List W) (ss : List S),
  (∃ b, make user unit m ws ss = .ok b ∧ b.tasks = (pairs ws ss).map (Wanted m) ∧ ∀ p ∈ pairs ws ss, ∃ k, b.lookup.get? p = some k ∧ b.tasks[k]? = some (Wanted m p)) ∧
  ∀ (b : B W S R) (k : Nat) (x : M W S R) (u : U), b.tasks[k]? = some x → ∀ c, (user u x).2 = .raised c → (cmd (user u) b (.idx k)).1 = .raised c

/-! ### commands -/

/-- the task that a target means -/
def chosen (b : B W S R) : Target W S → Option Nat
  | .idx i => pyIdx b.tasks.length i
  | .pair p => b.lookup.get? p
  | .all => none

theorem values_some (l : List (Ans A)) (v : List A) : values l = some v ↔ l = v.map .ok := by
  induction l generalizing v with
  | nil => cases v <;> simp [values]
  | cons x r ih =>
    cases x with
    | ok a =>
      simp only [values, Option.map_eq_some_iff]
      constructor
      · rintro ⟨w, hw, rfl⟩
        rw [(ih w).mp hw]; rfl
      · intro h
        cases v with
        | nil => simp at h
        | cons y ys =>
          simp only [List.map_cons, List.cons.injEq, Ans.ok.injEq] at h
          exact ⟨ys, (ih ys).mpr h.2, by rw [h.1]⟩
    | raised c => cases v <;> simp [values]

theorem values_none (l : List (Ans A)) : values l = none ↔ ∃ c, Ans.raised c ∈ l := by
  induction l with
  | nil => simp [values]
  | cons x r ih =>
    cases x with
    | ok a => simp [values, ih]
    | raised c => simp only [values, true_iff]; exact ⟨c, by simp⟩

theorem pyIdx_nat (n k : Nat) (h : k < n) : pyIdx n (k : Int) = some k := by
  unfold pyIdx
  have h1 : (0 : Int) ≤ k := Int.natCast_nonneg k
  have h2 : (k : Int) < n := by exact_mod_cast h
  simp [h]

/-- a command for one task: only the model of that task acts, it gives the answer, and the others stay as they are -/
theorem C218_one (ex : M W S R → M W S R × Ans A) (b : B W S R) (t : Target W S) (k : Nat) (m : M W S R) (a : A) (ht : chosen b t = some k)
    (hk : b.tasks[k]? = some m) (ha : (ex m).2 = .ok a) :
    (cmd ex b t).1 = .one a ∧ (cmd ex b t).2.lookup = b.lookup ∧ (cmd ex b t).2.tasks.length = b.tasks.length ∧ (cmd ex b t).2.tasks[k]? = some (ex m).1 ∧
    ∀ j, j ≠ k → (cmd ex b t).2.tasks[j]? = b.tasks[j]? := by
  have hne : b.tasks ≠ [] := by rintro h; simp [h] at hk
  have hlt : k < b.tasks.length := by
    by_contra h; rw [List.getElem?_eq_none (by omega)] at hk; cases hk
  have hc : cmd ex b t = cmdOne ex b k := by
    unfold cmd
    rw [if_neg hne]
    cases t with
    | idx i => simp only [chosen] at ht; simp only [ht]
    | pair p => simp only [chosen] at ht; simp only [ht]
    | all => simp [chosen] at ht
  have hx : ex m = ((ex m).1, .ok a) := by rw [← ha]
  have h1 : cmdOne ex b k = (.one a, { b with tasks := b.tasks.set k (ex m).1 }) := by
    unfold cmdOne
    rw [hk]
    simp only
    rw [hx]
  rw [hc, h1]
  refine ⟨rfl, rfl, by simp, ?_, ?_⟩
  · simp [List.getElem?_set_self hlt]
  · intro j hj
    simp [List.getElem?_set_ne (Ne.symm hj)]

/-- a command for all: every model acts, and the answers are in the order of the tasks -/
theorem C218_all (ex : M W S R → M W S R × Ans A) (b : B W S R) (l : List A) (hne : b.tasks ≠ []) (ha : b.tasks.map (fun m => (ex m).2) = l.map .ok) :
    cmd ex b .all = (.many l, ⟨b.tasks.map (fun m => (ex m).1), b.lookup⟩) := by
  unfold cmd
  rw [if_neg hne]
  simp only [(values_some _ l).mpr ha]

/-- what can go wrong: the ensemble is stopped, and then every command is answered with `None`. In a stopped ensemble nothing changes. -/
theorem C218_stopped (ex ex' : M W S R → M W S R × Ans A) (b : B W S R) (t t' : Target W S) (c : Nat) (h : (cmd ex b t).1 = .raised c) :
    cmd ex' (cmd ex b t).2 t' = (.none, stop) := by
  have : (cmd ex b t).2 = stop := by
    unfold cmd at h ⊢
    by_cases hne : b.tasks = []
    · rw [if_pos hne] at h; cases h
    · rw [if_neg hne] at h ⊢
      have hone : ∀ k, (cmdOne ex b k).1 = .raised c → (cmdOne ex b k).2 = stop := by
        intro k hk
        unfold cmdOne at hk ⊢
        cases hm : b.tasks[k]? with
        | none => simp [hm] at hk
        | some m =>
          simp only [hm] at hk ⊢
          rcases hx : ex m with ⟨m', a | c'⟩
          · simp [hx] at hk
          · rfl
      cases t with
      | idx i =>
        cases hp : pyIdx b.tasks.length i with
        | none => simp [hp] at h
        | some k => simp only [hp] at h ⊢; exact hone k h
      | pair p =>
        cases hp : b.lookup.get? p with
        | none => simp [hp] at h
        | some k => simp only [hp] at h ⊢; exact hone k h
      | all =>
        cases hv : values (b.tasks.map (fun m => (ex m).2)) with
        | none => rfl
        | some l => simp [hv] at h
  rw [this]
  rfl

/-- the exception of a model is never raised to the caller with its class, but as a `TypeError` -/
theorem C218_error (ex : M W S R → M W S R × Ans A) (b : B W S R) (t : Target W S) (k : Nat) (m : M W S R) (c : Nat) (ht : chosen b t = some k)
    (hk : b.tasks[k]? = some m) (ha : (ex m).2 = .raised c) : cmd ex b t = (.raised typeError, stop) := by
  have hne : b.tasks ≠ [] := by rintro h; simp [h] at hk
  have hc : cmd ex b t = cmdOne ex b k := by
    unfold cmd
    rw [if_neg hne]
    cases t with
    | idx i => simp only [chosen] at ht; simp only [ht]
    | pair p => simp only [chosen] at ht; simp only [ht]
    | all => simp [chosen] at ht
  have hx : ex m = ((ex m).1, .raised c) := by rw [← ha]
  rw [hc]
  unfold cmdOne
  rw [hk]
  simp only
  rw [hx]

/-- the same for a command for all -/
theorem C218_errorAll (ex : M W S R → M W S R × Ans A) (b : B W S R) (m : M W S R) (c : Nat) (hm : m ∈ b.tasks) (ha : (ex m).2 = .raised c) :
    cmd ex b .all = (.raised typeError, stop) := by
  have hne : b.tasks ≠ [] := by rintro h; simp [h] at hm
  unfold cmd
  rw [if_neg hne]
  have : values (b.tasks.map (fun m => (ex m).2)) = none := (values_none _).mpr ⟨c, List.mem_map.mpr ⟨m, hm, ha⟩⟩
  simp only [this]

/-! ### histories -/

/-- commands one after the other -/
def run (b : B W S R) : List ((M W S R → M W S R × Ans A) × Target W S) → List (Res A) × B W S R
  | [] => ([], b)
  | (ex, t) :: r =>
    let x := cmd ex b t
    let y := run x.2 r
    (x.1 :: y.1, y.2)

/-- the commands of a history that concern task `k` of `n`, each found by its index or through the pairs -/
def mine (n : Nat) (lookup : Dict (W × S) Nat) (k : Nat) (h : List ((M W S R → M W S R × Ans A) × Target W S)) : List (M W S R → M W S R × Ans A) :=
  (h.filter (fun c => match c.2 with
    | .idx i => decide (pyIdx n i = some k)
    | .pair p => decide (lookup.get? p = some k)
    | .all => true)).map Prod.fst

/-- the state of a model after commands -/
def after (m : M W S R) (l : List (M W S R → M W S R × Ans A)) : M W S R := l.foldl (fun x ex => (ex x).1) m

/-- **any history**: if no command raised an exception, every model is as if it had been given the commands for it, and only those, in order -/
theorem C218_history (h : List ((M W S R → M W S R × Ans A) × Target W S)) (b : B W S R) (hr : ∀ r ∈ (run b h).1, ∀ c, r ≠ .raised c) (k : Nat) (m : M W S R)
    (hm : b.tasks[k]? = some m) : (run b h).2.tasks[k]? = some (after m (mine b.tasks.length b.lookup k h)) := by
  induction h generalizing b m with
  | nil => simpa [run, mine, after] using hm
  | cons e h ih =>
    obtain ⟨ex, t⟩ := e
    have hlt : k < b.tasks.length := by
      by_contra h'; rw [List.getElem?_eq_none (by omega)] at hm; cases hm
    have hne : b.tasks ≠ [] := by rintro h'; simp [h'] at hm
    have hr1 : ∀ c, (cmd ex b t).1 ≠ .raised c := hr _ (by simp [run])
    have hr2 : ∀ r ∈ (run (cmd ex b t).2 h).1, ∀ c, r ≠ .raised c := fun r hr' => hr r (by simp [run, hr'])
    have hrun : (run b ((ex, t) :: h)).2 = (run (cmd ex b t).2 h).2 := rfl
    rw [hrun]
    -- one command for task j
    have hone : ∀ j, chosen b t = some j → j < b.tasks.length → (t = .all → False) →
        ∃ x, b.tasks[j]? = some x ∧ (cmd ex b t).2.lookup = b.lookup ∧ (cmd ex b t).2.tasks.length = b.tasks.length ∧ (cmd ex b t).2.tasks[j]? = some (ex x).1 ∧
        ∀ i, i ≠ j → (cmd ex b t).2.tasks[i]? = b.tasks[i]? := by
      intro j hj hjl _
      obtain ⟨x, hx⟩ : ∃ x, b.tasks[j]? = some x := ⟨_, List.getElem?_eq_getElem hjl⟩
      cases ha : (ex x).2 with
      | ok a => exact ⟨x, hx, (C218_one ex b t j x a hj hx ha).2⟩
      | raised c => exact absurd (congrArg Prod.fst (C218_error ex b t j x c hj hx ha)) (hr1 typeError)
    -- nothing happens
    have hnothing : (cmd ex b t).2 = b → mine b.tasks.length b.lookup k ((ex, t) :: h) = mine b.tasks.length b.lookup k h →
        (run (cmd ex b t).2 h).2.tasks[k]? = some (after m (mine b.tasks.length b.lookup k ((ex, t) :: h))) := by
      intro h1 h2
      rw [h1] at hr2 ⊢
      rw [h2]
      exact ih b hr2 m hm
    have hsingle : ∀ j, chosen b t = some j → t ≠ .all → (cmd ex b t).2 = b ∨ j < b.tasks.length →
        (mine b.tasks.length b.lookup k ((ex, t) :: h) = if j = k then ex :: mine b.tasks.length b.lookup k h else mine b.tasks.length b.lookup k h) →
        (j < b.tasks.length ∨ j ≠ k) → (run (cmd ex b t).2 h).2.tasks[k]? = some (after m (mine b.tasks.length b.lookup k ((ex, t) :: h))) := by
      intro j hj hta hb hmine hjk
      by_cases hjl : j < b.tasks.length
      · obtain ⟨x, hx, h1, h2, h3, h4⟩ := hone j hj hjl (fun e => hta e)
        by_cases hk : j = k
        · subst hk
          rw [hx] at hm
          cases hm
          rw [hmine, if_pos rfl]
          have := ih (cmd ex b t).2 hr2 _ h3
          rw [h1, h2] at this
          exact this
        · rw [hmine, if_neg hk]
          have := ih (cmd ex b t).2 hr2 m (by rw [h4 k (Ne.symm hk)]; exact hm)
          rw [h1, h2] at this
          exact this
      · have hkj : j ≠ k := by omega
        rw [if_neg hkj] at hmine
        exact hnothing (hb.resolve_right hjl) hmine
    cases t with
    | idx i =>
      cases hp : pyIdx b.tasks.length i with
      | none =>
        apply hnothing
        · unfold cmd; rw [if_neg hne]; simp only [hp]
        · simp [mine, hp]
      | some j =>
        apply hsingle j hp (by simp)
        · right
          unfold pyIdx at hp
          split_ifs at hp <;> simp at hp <;> omega
        · by_cases hk : j = k <;> simp [mine, hp, hk]
        · left
          unfold pyIdx at hp
          split_ifs at hp <;> simp at hp <;> omega
    | pair p =>
      cases hp : b.lookup.get? p with
      | none =>
        apply hnothing
        · unfold cmd; rw [if_neg hne]; simp only [hp]
        · simp [mine, hp]
      | some j =>
        apply hsingle j hp (by simp)
        · by_cases hj : j < b.tasks.length
          · exact Or.inr hj
          · left
            unfold cmd
            rw [if_neg hne]
            simp only [hp]
            unfold cmdOne
            rw [List.getElem?_eq_none (by omega)]
        · by_cases hk : j = k <;> simp [mine, hp, hk]
        · by_cases hj : j < b.tasks.length
          · exact Or.inl hj
          · exact Or.inr (by omega)
    | all =>
      cases hv : values (b.tasks.map (fun m => (ex m).2)) with
      | none =>
        exfalso
        apply hr1 typeError
        unfold cmd
        rw [if_neg hne]
        simp only [hv]
      | some l =>
        have h1 := C218_all ex b l hne ((values_some _ l).mp hv)
        rw [h1] at hr2 ⊢
        have := ih _ hr2 (ex m).1 (by simp [hm])
        simp only [List.length_map] at this
        rw [this]
        simp [mine, after]

/-! ### construction -/

omit [DecidableEq W] [DecidableEq S] in
/-- the number of models -/
theorem C218_size (ws : List W) (ss : List S) : (pairs ws ss).length = ws.length * ss.length := by
  unfold pairs
  rw [List.length_flatMap]
  simp

theorem mkLookup_get (ps : List (W × S)) (i : Nat) (d : Dict (W × S) Nat) (h : ps.Nodup) (k : Nat) (p : W × S) (hk : ps[k]? = some p) :
    (mkLookup ps i d).get? p = some (i + k) := by
  induction ps generalizing i d k with
  | nil => simp at hk
  | cons q r ih =>
    obtain ⟨h1, h2⟩ := List.nodup_cons.mp h
    cases k with
    | zero =>
      simp only [List.getElem?_cons_zero, Option.some.injEq] at hk
      subst hk
      have hother : ∀ (r : List (W × S)) (i : Nat) (d : Dict (W × S) Nat), q ∉ r → (mkLookup r i d).get? q = d.get? q := by
        intro r
        induction r with
        | nil => intros; rfl
        | cons x xs ihx =>
          intro i d hx
          rw [mkLookup, ihx _ _ (fun hm => hx (List.mem_cons_of_mem _ hm)), Dict.get?_set, if_neg]
          rintro rfl
          exact hx (by simp)
      rw [mkLookup, hother r _ _ h1, Dict.get?_set_self]
      rfl
    | succ k =>
      simp only [List.getElem?_cons_succ] at hk
      rw [mkLookup, ih (i + 1) _ h2 k hk]
      congr 1
      omega

/-- the pairs are found at their place -/
theorem C218_lookup (ws : List W) (ss : List S) (h : (pairs ws ss).Nodup) (k : Nat) (p : W × S) (hk : (pairs ws ss)[k]? = some p) :
    (mkLookup (pairs ws ss) 0 []).get? p = some k := by
  have := mkLookup_get (pairs ws ss) 0 [] h k p hk
  rwa [Nat.zero_add] at this

/-- three commands for one task -/
theorem cmds_three (user : U → M W S R → M W S R × Ans A) (unit : A) (b : B W S R) (k : Nat) (m : M W S R) (hm : b.tasks[k]? = some m) (w : W) (s : S) :
    cmds [exec user unit .setContainer, exec user unit (.setWind w), exec user unit (.setAmount s)] (.idx k) b =
      (none, ⟨b.tasks.set k { m with uncertain := false, winds := m.winds ++ [w], amounts := m.amounts ++ [s] }, b.lookup⟩) := by
  have hlt : k < b.tasks.length := by
    by_contra h'; rw [List.getElem?_eq_none (by omega)] at hm; cases hm
  have step : ∀ (ts : List (M W S R)) (x : M W S R) (ex : M W S R → M W S R × Ans A) (y : M W S R), k < ts.length → ts[k]? = some x → ex x = (y, .ok unit) →
      cmd ex ⟨ts, b.lookup⟩ (.idx k) = (.one unit, ⟨ts.set k y, b.lookup⟩) := by
    intro ts x ex y hl hx hy
    unfold cmd
    rw [if_neg (by rintro h; simp only at h; simp [h] at hl)]
    simp only [pyIdx_nat _ _ hl]
    unfold cmdOne
    simp only [hx, hy]
  have e : b = ⟨b.tasks, b.lookup⟩ := rfl
  rw [e]
  unfold cmds
  rw [step b.tasks m _ { m with uncertain := false } hlt hm rfl]
  simp only
  unfold cmds
  rw [step _ { m with uncertain := false } _ { m with uncertain := false, winds := m.winds ++ [w] } (by simpa using hlt) (by simp [List.getElem?_set_self hlt]) rfl]
  simp only
  unfold cmds
  rw [step _ { m with uncertain := false, winds := m.winds ++ [w] } _ { m with uncertain := false, winds := m.winds ++ [w], amounts := m.amounts ++ [s] } (by simpa using hlt)
    (by simp [List.getElem?_set_self hlt]) rfl]
  simp [cmds, List.set_set]

theorem setAll_spec (user : U → M W S R → M W S R × Ans A) (unit : A) (m : M W S R) (l : Dict (W × S) Nat) (ps : List (W × S)) (done : List (M W S R))
    (hl : ∀ k p, ps[k]? = some p → l.get? p = some (done.length + k)) :
    setAll user unit ps ⟨done ++ ps.map (fun _ => m), l⟩ =
      (none, ⟨done ++ ps.map (fun p => { m with uncertain := false, winds := m.winds ++ [p.1], amounts := m.amounts ++ [p.2] }), l⟩) := by
  induction ps generalizing done with
  | nil => simp [setAll]
  | cons p r ih =>
    have h0 := hl 0 p (by simp)
    rw [Nat.add_zero] at h0
    unfold setAll
    simp only [h0]
    rw [cmds_three user unit _ done.length m (by simp) p.1 p.2]
    simp only
    have hset : (done ++ List.map (fun _ => m) (p :: r)).set done.length { m with uncertain := false, winds := m.winds ++ [p.1], amounts := m.amounts ++ [p.2] } =
        (done ++ [{ m with uncertain := false, winds := m.winds ++ [p.1], amounts := m.amounts ++ [p.2] }]) ++ r.map (fun _ => m) := by
      rw [List.set_append_right _ _ (Nat.le_refl _)]
      simp
    rw [hset, ih]
    · simp
    · intro k q hq
      rw [hl (k + 1) q (by simpa using hq)]
      simp
      omega

/-- **C218 (partial)**: if all pairs are different, then after the uncertainties are set the models are, in order, those of the pairs, and each is found by its pair.
Missing for the full claim: `C218_counterexample` (no ensemble can be made), `C218_counterexample_twice`, `C218_error`. -/
theorem C218_partial (user : U → M W S R → M W S R × Ans A) (unit : A) (m : M W S R) (ws : List W) (ss : List S) (h : (pairs ws ss).Nodup) :
    ∃ b, shifted user unit m ws ss = (none, b) ∧
      b.tasks = (pairs ws ss).map (fun p => { m with uncertain := false, winds := m.winds ++ [p.1], amounts := m.amounts ++ [p.2] }) ∧
      ∀ p ∈ pairs ws ss, ∃ k, b.lookup.get? p = some k ∧ b.tasks[k]? = some { m with uncertain := false, winds := m.winds ++ [p.1], amounts := m.amounts ++ [p.2] } := by
  refine ⟨⟨(pairs ws ss).map (fun p => { m with uncertain := false, winds := m.winds ++ [p.1], amounts := m.amounts ++ [p.2] }), mkLookup (pairs ws ss) 0 []⟩, ?_, rfl, ?_⟩
  · have := setAll_spec user unit m (mkLookup (pairs ws ss) 0 []) (pairs ws ss) [] (fun k p hk => by rw [C218_lookup ws ss h k p hk]; simp)
    simpa [shifted] using this
  · intro p hp
    obtain ⟨k, hk, e⟩ := List.getElem_of_mem hp
    have hk' : (pairs ws ss)[k]? = some p := by rw [List.getElem?_eq_getElem hk, e]
    refine ⟨k, C218_lookup ws ss h k p hk', ?_⟩
    simp [hk']

omit [DecidableEq W] [DecidableEq S] in
/-- different uncertainties make different pairs -/
theorem C218_nodup (ws : List W) (ss : List S) (hw : ws.Nodup) (hs : ss.Nodup) : (pairs ws ss).Nodup := by
  unfold pairs
  rw [List.nodup_flatMap]
  refine ⟨fun w _ => hs.map (fun a b e => by simpa using e), hw.imp ?_⟩
  intro a b hab
  simp only [Function.onFun]
  rw [List.disjoint_left]
  rintro ⟨x, y⟩ h1 h2
  simp at h1 h2
  exact hab (h1.2.trans h2.2.symm)

/-- the constructor fails for all models and all uncertainties -/
theorem C218_never (user : U → M W S R → M W S R × Ans A) (unit : A) (m : M W S R) (ws : List W) (ss : List S) (hw : ws.Nodup) (hs : ss.Nodup) (h1 : ws ≠ []) (h2 : ss ≠ []) :
    make user unit m ws ss = .error typeError := by
  obtain ⟨b, e, ht, _⟩ := C218_partial user unit m ws ss (C218_nodup ws ss hw hs)
  have hlen : 0 < b.tasks.length := by
    rw [ht, List.length_map, C218_size]
    exact Nat.mul_pos (List.length_pos_iff.mpr h1) (List.length_pos_iff.mpr h2)
  obtain ⟨n, hn⟩ : ∃ n, b.tasks.length = n + 1 := ⟨b.tasks.length - 1, by omega⟩
  unfold make
  rw [e]
  simp only
  have hr : List.range b.tasks.length = 0 :: (List.range n).map Nat.succ := by rw [hn, List.range_succ_eq_map]
  obtain ⟨x, hx⟩ : ∃ x, b.tasks[0]? = some x := ⟨_, List.getElem?_eq_getElem hlen⟩
  have hc := C218_error (exec user unit .setCacheDir) b (.idx ((0 : Nat) : Int)) 0 x attributeError (pyIdx_nat _ _ hlen) hx rfl
  rw [hr]
  unfold prepAll cmds
  rw [hc]

def demo : M Nat Nat Nat := ⟨true, [], [], true, [true, false], 7⟩
def demoUser : Nat → M Nat Nat Nat → M Nat Nat Nat × Ans Nat := fun u m => if u = 0 then (m, .raised 5) else ({ m with rest := m.rest + u }, .ok (m.rest + u))

example : ((shifted demoUser 0 demo [1, 2] [3, 4]).2.tasks.map (fun m => (m.winds, m.amounts))) = [([1], [3]), ([1], [4]), ([2], [3]), ([2], [4])] := by decide
example : (cmd (demoUser 3) (shifted demoUser 0 demo [1, 2] [3, 4]).2 .all).1 = .many [10, 10, 10, 10] := by decide

/-- no ensemble can be made -/
theorem C218_counterexample : ¬ C218_claim := by
  intro h
  obtain ⟨⟨b, hb, _⟩, _⟩ := h Nat Nat Nat Nat Nat demoUser 0 demo [1, 2] [3, 4]
  rw [C218_never demoUser 0 demo [1, 2] [3, 4] (by decide) (by decide) (by decide) (by decide)] at hb
  cases hb

/-- **the preparation as it was meant**: the commands that turn the cache off and leave only outputs of weathering, sent to all, do just that in every model -/
theorem C218_prepare (user : U → M W S R → M W S R × Ans A) (unit : A) (b : B W S R) (hne : b.tasks ≠ []) :
    (cmd (exec user unit .weatheringOnly) (cmd (exec user unit .cacheOff) b .all).2 .all).2.tasks =
      b.tasks.map (fun m => { m with cacheOn := false, outs := m.outs.filter (· = true) }) := by
  rw [C218_all (exec user unit .cacheOff) b (b.tasks.map (fun _ => unit)) hne (by simp [exec])]
  rw [C218_all (exec user unit .weatheringOnly) _ (b.tasks.map (fun _ => unit)) (by simpa using hne) (by simp [exec, Function.comp_def])]
  simp [exec]

example : (cmd (exec demoUser 0 .weatheringOnly) (cmd (exec demoUser 0 .cacheOff) ⟨[demo, demo], []⟩ .all).2 .all).2.tasks.map (·.cacheOn) = [false, false] := by decide

/-- with an uncertainty given twice one of the models is not shifted, and another one twice -/
theorem C218_counterexample_twice : ((shifted demoUser 0 demo [1, 1] [3]).2.tasks.map (fun m => (m.winds, m.amounts))) = [([], []), ([1, 1], [3, 3])] := by decide

end Verif.Run.Ensemble
