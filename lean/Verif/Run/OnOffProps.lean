import Verif.Run.OnOffModel
/-!
# C311: movers and weatherers can be switched on and off during a run
-/
namespace Verif.Run.OnOff

/-- A model as it is before its first run. -/
def Fresh (m : M) : Prop := m.balance = [] ∧ ∀ x ∈ m.movers, x.first = false ∧ x.start = none

/-- The claim: whatever is switched when, no step raises. -/
def C311_claim : Prop := ∀ (m : M) (t : Int) (os : List Op), Fresh m → M.run (.begin t :: os) m ≠ none

/-- the operations that leave the beginning of a run with the object on -/
inductive Careful : List Op → M → Prop
  | nil (m : M) : Careful [] m
  | begin {t : Int} {os : List Op} {m : M} (hm : ∀ x ∈ m.movers, x.on = true) (hw : ∀ w ∈ m.weath, w.on = true)
      (h : ∀ e m', m.op (.begin t) = some (e, m') → Careful os m') : Careful (.begin t :: os) m
  | switch {i : Nat} {on : Bool} {os : List Op} {m : M} (h : Careful os (m.switch i on)) : Careful (.switch i on :: os) m
  | step {t : Int} {os : List Op} {m : M} (h : ∀ e m', m.op (.step t) = some (e, m') → Careful os m') : Careful (.step t :: os) m

/-- every mover has a start, every weatherer its entries -/
structure Prepared (m : M) : Prop where
  movers : ∀ x ∈ m.movers, x.first = true ∨ x.start ≠ none
  weath : ∀ w ∈ m.weath, ∀ k ∈ w.keys, k ∈ m.balance

theorem moveAll_some (t : Int) : ∀ ms : List Mover, (∀ x ∈ ms, x.first = true ∨ x.start ≠ none) →
    ∃ es ms', moveAll t ms = some (es, ms') ∧ (∀ x ∈ ms', x.first = true ∨ x.start ≠ none) ∧ ms'.map Mover.on = ms.map Mover.on
  | [], _ => ⟨[], [], rfl, by simp, rfl⟩
  | m :: ms, h => by
    obtain ⟨es, ms', h1, h2, h3⟩ := moveAll_some t ms fun x hx => h x (List.mem_cons_of_mem _ hx)
    have hm := h m List.mem_cons_self
    unfold moveAll
    by_cases ho : m.on = true
    · have : ∃ s, (if m.first then some t else m.start) = some s := by
        rcases hm with hm | hm
        · exact ⟨t, by rw [hm]; rfl⟩
        · cases hf : m.first with
          | true => exact ⟨t, rfl⟩
          | false => exact Option.ne_none_iff_exists'.1 hm
      obtain ⟨s, hs⟩ := this
      have hst : m.step t = some (some (t - s).natAbs, { m with first := false, start := some s }) := by
        unfold Mover.step
        rw [if_pos ho, hs]
        rfl
      rw [hst, h1]
      refine ⟨_, _, rfl, ?_, ?_⟩
      · intro x hx
        rcases List.mem_cons.1 hx with rfl | hx
        · exact Or.inr nofun
        · exact h2 x hx
      · rw [List.map_cons, List.map_cons, h3]
    · have hst : m.step t = some (none, m) := by unfold Mover.step; rw [if_neg ho]
      rw [hst, h1]
      refine ⟨_, _, rfl, ?_, ?_⟩
      · intro x hx
        rcases List.mem_cons.1 hx with rfl | hx
        · exact hm
        · exact h2 x hx
      · rw [List.map_cons, List.map_cons, h3]

theorem finds_of (b : List String) (w : Weath) (h : ∀ k ∈ w.keys, k ∈ b) : w.finds b = true := by
  unfold Weath.finds
  rw [Bool.or_eq_true]
  exact Or.inr (List.all_eq_true.2 fun k hk => List.contains_iff_mem.2 (h k hk))

theorem step_prepared (t : Int) (m : M) (h : Prepared m) : ∃ e m', m.op (.step t) = some (e, m') ∧ Prepared m' := by
  obtain ⟨es, ms', h1, h2, _⟩ := moveAll_some t m.movers h.movers
  refine ⟨es, { m with movers := ms' }, ?_, h2, h.weath⟩
  simp only [M.op]
  rw [if_pos (List.all_eq_true.2 fun w hw => finds_of _ w (h.weath w hw)), h1]
  rfl

theorem begin_prepared (t : Int) (m : M) (hm : ∀ x ∈ m.movers, x.on = true) (hw : ∀ w ∈ m.weath, w.on = true) :
    ∃ e m', m.op (.begin t) = some (e, m') ∧ Prepared m' := by
  have hb : ∀ w ∈ m.weath, ∀ k ∈ w.keys, k ∈ (m.weath.filter (·.on)).flatMap (·.keys) := fun w hwm k hk =>
    List.mem_flatMap.2 ⟨w, List.mem_filter.2 ⟨hwm, hw w hwm⟩, hk⟩
  have hf : ∀ x ∈ m.movers.map Mover.begin, x.first = true ∨ x.start ≠ none := by
    intro x hx
    obtain ⟨y, hy, rfl⟩ := List.mem_map.1 hx
    left
    unfold Mover.begin
    rw [if_pos (hm y hy)]
  obtain ⟨es, ms', h1, h2, _⟩ := moveAll_some t _ hf
  refine ⟨es, { m with movers := ms', balance := (m.weath.filter (·.on)).flatMap (·.keys) }, ?_, h2, hb⟩
  simp only [M.op]
  rw [if_pos (List.all_eq_true.2 fun w hwm => finds_of _ w (hb w hwm)), h1]
  rfl

theorem switch_prepared (i : Nat) (on : Bool) (m : M) (h : Prepared m) : Prepared (m.switch i on) := by
  unfold M.switch
  split
  · refine ⟨fun x hx => ?_, h.weath⟩
    obtain ⟨j, hj, rfl⟩ := List.mem_iff_getElem.1 hx
    rw [List.getElem_modify]
    have hj' : j < m.movers.length := by simpa using hj
    split
    · exact h.movers m.movers[j] (List.getElem_mem hj')
    · exact h.movers _ (List.getElem_mem hj')
  · refine ⟨h.movers, fun x hx => ?_⟩
    obtain ⟨j, hj, rfl⟩ := List.mem_iff_getElem.1 hx
    rw [List.getElem_modify]
    have hj' : j < m.weath.length := by simpa using hj
    split
    · exact h.weath m.weath[j] (List.getElem_mem hj')
    · exact h.weath _ (List.getElem_mem hj')

theorem careful_runs : ∀ (os : List Op) (m : M), Prepared m → Careful os m → M.run os m ≠ none
  | [], _, _, _ => nofun
  | o :: os, m, hp, hc => by
    have fin : ∀ e m', m.op o = some (e, m') → Prepared m' → Careful os m' → M.run (o :: os) m ≠ none := by
      intro e m' he hp' hc'
      have ih := careful_runs os m' hp' hc'
      unfold M.run
      rw [he]
      obtain ⟨r, hr⟩ := Option.ne_none_iff_exists'.1 ih
      simp only [hr, Option.map_some]
      exact nofun
    cases hc with
    | begin hm hw h =>
      obtain ⟨e, m', he, hp'⟩ := begin_prepared _ m hm hw
      exact fin e m' he hp' (h e m' he)
    | switch h => exact fin [] _ rfl (switch_prepared _ _ m hp) h
    | step h =>
      obtain ⟨e, m', he, hp'⟩ := step_prepared _ m hp
      exact fin e m' he hp' (h e m' he)

/-- C311, if everything is on whenever a run begins (what is missing: what is off when the run begins, `C311_needs`): then it can be switched off and on at any time. -/
theorem C311_partial (m : M) (t : Int) (os : List Op) (h : Careful (.begin t :: os) m) : M.run (.begin t :: os) m ≠ none := by
  cases h with
  | begin hm hw h =>
    obtain ⟨e, m', he, hp'⟩ := begin_prepared t m hm hw
    have ih := careful_runs os m' hp' (h e m' he)
    obtain ⟨r, hr⟩ := Option.ne_none_iff_exists'.1 ih
    unfold M.run
    rw [he]
    simp only [hr, Option.map_some]
    exact nofun

/-- C311. Exactly when the first step after a switch raises: a mover that was off when the first run began is on, or a weatherer adds to an entry that none of those on at
the beginning has. -/
theorem C311_needs (m : M) (t t' : Int) (i : Nat) (h : Fresh m) :
    (M.run [.begin t, .switch i true, .step t'] m = none) ↔
      (∃ x, m.movers[i]? = some x ∧ x.on = false) ∨
      (m.movers.length ≤ i ∧ ∃ w, m.weath[i - m.movers.length]? = some w ∧ ∃ k ∈ w.keys, ∀ v ∈ m.weath, v.on = true → k ∉ v.keys) := by
  -- the beginning
  have hf : ∀ x ∈ m.movers.map Mover.begin, x.on = true → x.first = true := by
    intro x hx ho
    obtain ⟨y, _, rfl⟩ := List.mem_map.1 hx
    unfold Mover.begin at ho ⊢
    split at ho <;> simp_all
  have hmv : ∀ ms : List Mover, (∀ x ∈ ms, x.first = false ∧ x.start = none) →
      moveAll t (ms.map Mover.begin) = some (ms.map fun x => if x.on then some 0 else none, ms.map fun x => if x.on then ⟨true, false, some t⟩ else ⟨false, false, none⟩) := by
    intro ms
    induction ms with
    | nil => intro _; rfl
    | cons x ms ih =>
      intro hx
      have hx0 := hx x List.mem_cons_self
      have ih := ih fun y hy => hx y (List.mem_cons_of_mem _ hy)
      obtain ⟨xo, xf, xs⟩ := x
      obtain ⟨rfl, rfl⟩ : xf = false ∧ xs = none := hx0
      rw [List.map_cons, moveAll, ih]
      cases xo <;> simp [Mover.begin, Mover.step]
  set b := (m.weath.filter (·.on)).flatMap (·.keys) with hb
  set mv := m.movers.map fun x => if x.on then (⟨true, false, some t⟩ : Mover) else ⟨false, false, none⟩ with hmvd
  have hbf : m.weath.all (Weath.finds b) = true := by
    rw [List.all_eq_true]
    intro w hw
    unfold Weath.finds
    cases ho : w.on with
    | false => rfl
    | true =>
      simp only [Bool.not_true, Bool.false_or, List.all_eq_true, List.contains_iff_mem]
      exact fun k hk => List.mem_flatMap.2 ⟨w, List.mem_filter.2 ⟨hw, ho⟩, hk⟩
  have hbegin : m.op (.begin t) = some (m.movers.map fun x => if x.on then some 0 else none, ⟨mv, m.weath, b⟩) := by
    simp only [M.op]
    rw [if_pos hbf, hmv m.movers h.2]
    rfl
  have hrun : M.run [.begin t, .switch i true, .step t'] m = none ↔ (M.switch i true ⟨mv, m.weath, b⟩).op (.step t') = none := by
    simp only [M.run, hbegin]
    have hsw : M.op (.switch i true) ⟨mv, m.weath, b⟩ = some ([], M.switch i true ⟨mv, m.weath, b⟩) := rfl
    rw [hsw]
    simp only
    cases (M.switch i true ⟨mv, m.weath, b⟩).op (.step t') with
    | none => simp
    | some r => simp
  rw [hrun]
  have hlen : mv.length = m.movers.length := by simp [hmvd]
  -- a list of movers raises exactly if one of them is on without a start
  have hnone : ∀ ms : List Mover, (∀ x ∈ ms, x.first = false) → (moveAll t' ms = none ↔ ∃ x ∈ ms, x.on = true ∧ x.start = none) := by
    intro ms
    induction ms with
    | nil => intro _; simp [moveAll]
    | cons x ms ih =>
      intro hx
      have ih := ih fun y hy => hx y (List.mem_cons_of_mem _ hy)
      have hx0 := hx x List.mem_cons_self
      unfold moveAll
      obtain ⟨xo, xf, xs⟩ := x
      obtain rfl : xf = false := hx0
      cases xo with
      | false => simp [Mover.step, ih]
      | true => cases xs <;> simp [Mover.step, ih]
  have hmvs : ∀ x ∈ mv, x.first = false ∧ (x.on = true → x.start ≠ none) := by
    intro x hx
    rw [hmvd] at hx
    obtain ⟨y, _, rfl⟩ := List.mem_map.1 hx
    split <;> simp
  by_cases hi : i < m.movers.length
  · have hsw : M.switch i true ⟨mv, m.weath, b⟩ = ⟨mv.modify i fun x => { x with on := true }, m.weath, b⟩ := by
      unfold M.switch
      rw [if_pos (by simpa [hlen] using hi)]
    rw [hsw]
    simp only [M.op]
    rw [if_pos hbf, Option.map_eq_none_iff, hnone]
    · constructor
      · rintro ⟨x, hx, ho, hs⟩
        left
        obtain ⟨j, hj, rfl⟩ := List.mem_iff_getElem.1 hx
        have hj' : j < mv.length := by simpa using hj
        rw [List.getElem_modify] at ho hs
        by_cases hij : i = j
        · subst hij
          rw [if_pos rfl] at hs
          refine ⟨m.movers[i], List.getElem?_eq_getElem hi, ?_⟩
          have he : mv[i] = if m.movers[i].on then (⟨true, false, some t⟩ : Mover) else ⟨false, false, none⟩ := by simp [hmvd]
          cases hoo : m.movers[i].on with
          | false => rfl
          | true =>
            rw [hoo, if_pos rfl] at he
            simp only [he] at hs
            exact absurd hs nofun
        · rw [if_neg hij] at ho hs
          exact absurd hs ((hmvs _ (List.getElem_mem hj')).2 ho)
      · rintro (⟨x, hx, ho⟩ | ⟨hge, _⟩)
        · obtain ⟨_, rfl⟩ := List.getElem?_eq_some_iff.1 hx
          have hj : i < (mv.modify i fun x => { x with on := true }).length := by simpa [hlen] using hi
          refine ⟨_, List.getElem_mem hj, ?_, ?_⟩
          · rw [List.getElem_modify, if_pos rfl]
          · rw [List.getElem_modify, if_pos rfl]
            have he : mv[i]'(by rw [hlen]; exact hi) = ⟨false, false, none⟩ := by simp [hmvd, ho]
            simp only [he]
        · omega
    · intro x hx
      obtain ⟨j, hj, rfl⟩ := List.mem_iff_getElem.1 hx
      have hj' : j < mv.length := by simpa using hj
      rw [List.getElem_modify]
      split
      · exact (hmvs _ (List.getElem_mem hj')).1
      · exact (hmvs _ (List.getElem_mem hj')).1
  · have hsw : M.switch i true ⟨mv, m.weath, b⟩ = ⟨mv, m.weath.modify (i - m.movers.length) fun x => { x with on := true }, b⟩ := by
      unfold M.switch
      rw [if_neg (by simpa [hlen] using hi)]
      simp only [hlen]
    rw [hsw]
    simp only [M.op]
    have hall : moveAll t' mv ≠ none := by
      rw [Ne, hnone mv fun x hx => (hmvs x hx).1]
      rintro ⟨x, hx, ho, hs⟩
      exact (hmvs x hx).2 ho hs
    obtain ⟨r, hr⟩ := Option.ne_none_iff_exists'.1 hall
    rw [hr]
    constructor
    · intro hn
      right
      refine ⟨by omega, ?_⟩
      by_contra hno
      have : (m.weath.modify (i - m.movers.length) fun x => { x with on := true }).all (Weath.finds b) = true := by
        rw [List.all_eq_true]
        intro w hw
        obtain ⟨j, hj, rfl⟩ := List.mem_iff_getElem.1 hw
        have hj' : j < m.weath.length := by simpa using hj
        rw [List.getElem_modify]
        split
        · next hij =>
          subst hij
          apply finds_of
          intro k hk
          by_contra hkb
          refine hno ⟨m.weath[i - m.movers.length], List.getElem?_eq_getElem hj', k, hk, fun v hv ho hkv => hkb ?_⟩
          exact List.mem_flatMap.2 ⟨v, List.mem_filter.2 ⟨hv, ho⟩, hkv⟩
        · exact List.all_eq_true.1 hbf _ (List.getElem_mem hj')
      rw [if_pos this] at hn
      exact absurd hn nofun
    · rintro (⟨x, hx, _⟩ | ⟨_, w, hw, k, hk, hv⟩)
      · exact absurd (List.getElem?_eq_some_iff.1 hx).1 hi
      · obtain ⟨hj, rfl⟩ := List.getElem?_eq_some_iff.1 hw
        rw [if_neg]
        rw [List.all_eq_true]
        intro hall
        have hj2 : i - m.movers.length < (m.weath.modify (i - m.movers.length) fun x => { x with on := true }).length := by simpa using hj
        have := hall _ (List.getElem_mem hj2)
        rw [List.getElem_modify, if_pos rfl] at this
        unfold Weath.finds at this
        simp only [Bool.not_true, Bool.false_or, List.all_eq_true, List.contains_iff_mem] at this
        obtain ⟨v, hvm, hkv⟩ := List.mem_flatMap.1 (this k hk)
        rw [List.mem_filter] at hvm
        exact hv v hvm.1 hvm.2 hkv

/-- a current that is off, and evaporation -/
def oneOff : M := ⟨[Mover.fresh false], [⟨true, ["evaporated"]⟩], []⟩

/-- C311 fails: a current switched on in the second step of the first run with uncertainty. -/
theorem C311_counterexample : ¬ C311_claim := by
  intro h
  exact h oneOff 0 [.switch 0 true, .step 900] ⟨rfl, by simp [oneOff, Mover.fresh]⟩ (by decide)

/-- C311 fails for weatherers: evaporation switched on after the first step. -/
theorem C311_counterexample_weathering : M.run [.begin 0, .switch 1 true, .step 900] ⟨[Mover.fresh true], [⟨false, ["evaporated"]⟩, ⟨true, ["water_content"]⟩], []⟩ = none := by
  decide

/-- And in a second run a mover that was off when it began counts the time of uncertainty from the start of the first run: half an hour into the run it is a day and half an
hour. -/
theorem C311_counterexample_time :
    (M.run [.begin 0, .switch 0 false, .begin 86400, .step 87300, .switch 0 true, .step 88200] ⟨[Mover.fresh true], [], []⟩).map (·.1) =
      some [[some 0], [], [none], [none], [], [some 88200]] := by
  decide

/-- Off and on again in a run: what `C311_partial` is about. -/
example : (M.run [.begin 0, .switch 0 false, .step 900, .switch 0 true, .switch 1 false, .step 1800] ⟨[Mover.fresh true], [⟨true, ["evaporated"]⟩], []⟩).map (·.1) =
    some [[some 0], [], [none], [], [], [some 1800]] := by
  decide

end Verif.Run.OnOff
