import Verif.Run.AgeModel
import Mathlib.Tactic.Linarith
import Mathlib.Tactic.NormNum
import Mathlib.Tactic.Ring
import Mathlib.Tactic.FieldSimp
import Mathlib.Tactic.Positivity

/-!
# C347: the age of an element is the time since its release, to half a time step
-/
namespace Verif.Run.Age

/-- The instant of release of an element: before it the release does not ask for the element, after it it does. -/
def Due (ss : List Spill) (e : El) (τ : ℚ) : Prop :=
  ∃ s, ss[e.spill]? = some s ∧ (∀ t, t < τ → s.expected t ≤ e.num) ∧ (∀ t, τ < t → e.num < s.expected t)

/-- the elements that a call of `release_elements` adds -/
lemma releaseAll_mem (ss : List Spill) (t : ℚ) : ∀ (i : Nat) (st : State) (e : El), e ∈ (releaseAll i ss t st).els →
    e ∈ st.els ∨ ∃ k s, ss[k]? = some s ∧ e.spill = i + k ∧ s.on = true ∧ e.age = 0 ∧ st.released (i + k) ≤ e.num ∧ e.num < s.expected t := by
  induction ss with
  | nil => intro i st e h; exact Or.inl h
  | cons s ss ih =>
    intro i st e h
    rcases ih (i + 1) _ e h with h1 | ⟨k, s', hk, he, hon, ha, hr, hx⟩
    · unfold releaseOne at h1
      split at h1
      · exact Or.inl h1
      · rename_i hon
        split at h1
        · exact Or.inl h1
        · rename_i hlt
          simp only [List.mem_append, List.mem_map, List.mem_range] at h1
          rcases h1 with h1 | ⟨j, hj, rfl⟩
          · exact Or.inl h1
          · refine Or.inr ⟨0, s, rfl, rfl, ?_, rfl, ?_, ?_⟩
            · cases h : s.on <;> simp_all
            · simp
            · show st.released i + j < s.expected t
              omega
    · refine Or.inr ⟨k + 1, s', by simpa using hk, by rw [he]; omega, hon, ha, ?_, hx⟩
      have hne : i + 1 + k ≠ i := by omega
      have : (releaseOne s i t st).released (i + 1 + k) = st.released (i + 1 + k) := by
        unfold releaseOne
        split
        · rfl
        · split
          · rfl
          · simp [hne]
      rw [this] at hr
      rw [show i + (k + 1) = i + 1 + k by omega]
      exact hr

lemma releaseOne_mono (s : Spill) (i : Nat) (t : ℚ) (st : State) (j : Nat) : st.released j ≤ (releaseOne s i t st).released j := by
  unfold releaseOne
  split
  · exact le_refl _
  · split
    · exact le_refl _
    · rename_i h
      show st.released j ≤ if j = i then s.expected t else st.released j
      split
      · rename_i hj; subst hj; omega
      · exact le_refl _

lemma releaseAll_mono (ss : List Spill) (t : ℚ) : ∀ (i : Nat) (st : State) (j : Nat), st.released j ≤ (releaseAll i ss t st).released j := by
  induction ss with
  | nil => intro i st j; exact le_refl _
  | cons s ss ih => intro i st j; exact le_trans (releaseOne_mono s i t st j) (ih (i + 1) _ j)

lemma releaseAll_enough (ss : List Spill) (t : ℚ) : ∀ (i : Nat) (st : State) (k : Nat) (s : Spill), ss[k]? = some s → s.on = true →
    s.expected t ≤ (releaseAll i ss t st).released (i + k) := by
  induction ss with
  | nil => intro i st k s h; simp at h
  | cons s0 ss ih =>
    intro i st k s h hon
    cases k with
    | zero =>
      simp only [List.getElem?_cons_zero, Option.some.injEq] at h
      subst h
      refine le_trans ?_ (releaseAll_mono ss t (i + 1) _ (i + 0))
      unfold releaseOne
      simp only [hon, Bool.true_eq_false, if_false]
      split
      · assumption
      · simp
    | succ k =>
      simp only [List.getElem?_cons_succ] at h
      have := ih (i + 1) (releaseOne s0 i t st) k s h hon
      rw [show i + (k + 1) = i + 1 + k by omega]
      exact this

lemma releaseOne_clock (s : Spill) (i : Nat) (t : ℚ) (st : State) : (releaseOne s i t st).clock = st.clock := by
  unfold releaseOne; split
  · rfl
  · split <;> rfl

lemma releaseAll_clock (ss : List Spill) (t : ℚ) : ∀ (i : Nat) (st : State), (releaseAll i ss t st).clock = st.clock := by
  induction ss with
  | nil => intro i st; rfl
  | cons s ss ih => intro i st; exact (ih (i + 1) _).trans (releaseOne_clock s i t st)

/-- the state in a step before the second half is released -/
def mid (ss : List Spill) (dt : ℚ) (keep : El → Bool) (st : State) : State :=
  { clock := st.clock + dt
    els := ((releaseAll 0 ss (st.clock + dt / 2) st).els.filter keep).map (older dt)
    released := (releaseAll 0 ss (st.clock + dt / 2) st).released }

lemma step_eq (ss : List Spill) (dt : ℚ) (keep : El → Bool) (st : State) :
    step ss dt keep st = releaseAll 0 ss (st.clock + dt) (mid ss dt keep st) := rfl

/-- what holds at each output -/
structure Inv (ss : List Spill) (start dt : ℚ) (n : Nat) (st : State) : Prop where
  clock : st.clock = start + n * dt
  mult : ∀ e ∈ st.els, ∃ m : Nat, (e.age : ℚ) = m * |dt|
  enough : ∀ k s, ss[k]? = some s → s.on = true → s.expected st.clock ≤ st.released k
  close : ∀ e ∈ st.els, ∀ τ, start ≤ τ → Due ss e τ → |st.clock - τ - e.age| ≤ dt / 2

lemma older_int (z : Int) (hz : 0 ≤ z) (e : El) : (older z e).age = e.age + z := by
  unfold older
  have : ((e.age : ℚ) + |(z : ℚ)|) = ((e.age + z : ℤ) : ℚ) := by
    rw [abs_of_nonneg (by exact_mod_cast hz)]; push_cast; ring
  simp only [this, Int.floor_intCast]

lemma inv_first (ss : List Spill) (start dt : ℚ) (hdt : 0 < dt) : Inv ss start dt 0 (first ss start) := by
  refine ⟨?_, ?_, ?_, ?_⟩
  · unfold first; rw [releaseAll_clock]; simp
  · intro e he
    rcases releaseAll_mem ss start 0 _ e he with h | ⟨k, s, _, _, _, ha, _⟩
    · simp at h
    · exact ⟨0, by simp [ha]⟩
  · intro k s hk hon
    have := releaseAll_enough ss start 0 ⟨start, [], fun _ => 0⟩ k s hk hon
    unfold first
    rw [releaseAll_clock]
    simpa using this
  · intro e he τ hτ ⟨s', hs', hb, _⟩
    have hc : (first ss start).clock = start := by unfold first; rw [releaseAll_clock]
    rcases releaseAll_mem ss start 0 _ e he with h | ⟨k, s, hk, hsp, _, ha, _, hx⟩
    · simp at h
    · rw [hsp, Nat.zero_add, hk] at hs'
      cases hs'
      have h1 : ¬ start < τ := fun hh => absurd (hb start hh) (by omega)
      have : τ = start := le_antisymm (not_lt.mp h1) hτ
      rw [hc, this, ha]
      simp
      positivity

lemma inv_step (ss : List Spill) (start : ℚ) (z : Int) (hz : 0 < z) (n : Nat) (keep : El → Bool) (st : State)
    (h : Inv ss start z n st) : Inv ss start z (n + 1) (step ss z keep st) := by
  have hzq : (0 : ℚ) < z := by exact_mod_cast hz
  have hclk : (step ss z keep st).clock = st.clock + z := by unfold step; simp only [releaseAll_clock]
  refine ⟨?_, ?_, ?_, ?_⟩
  · rw [hclk, h.clock]; push_cast; ring
  · intro e he
    rw [step_eq] at he
    rcases releaseAll_mem ss _ 0 _ e he with h1 | ⟨k, s, _, _, _, ha, _⟩
    · simp only [mid, List.mem_map, List.mem_filter] at h1
      obtain ⟨a, ⟨ha, _⟩, rfl⟩ := h1
      rcases releaseAll_mem ss _ 0 _ a ha with h2 | ⟨k, s, _, _, _, ha', _⟩
      · obtain ⟨m, hm⟩ := h.mult a h2
        refine ⟨m + 1, ?_⟩
        rw [older_int z hz.le]
        push_cast
        rw [hm, abs_of_pos hzq]; ring
      · refine ⟨1, ?_⟩
        rw [older_int z hz.le, ha', abs_of_pos hzq]; push_cast; ring
    · exact ⟨0, by simp [ha]⟩
  · intro k s hk hon
    rw [hclk]
    rw [step_eq]
    have := releaseAll_enough ss (st.clock + z) 0 (mid ss z keep st) k s hk hon
    simpa using this
  · intro e he τ hτ hdue
    rw [hclk]
    rw [step_eq] at he
    rcases releaseAll_mem ss _ 0 _ e he with h1 | ⟨k, s, hk, hsp, hon, ha, hr, hx⟩
    · simp only [mid, List.mem_map, List.mem_filter] at h1
      obtain ⟨a, ⟨ha, _⟩, rfl⟩ := h1
      have hdue' : Due ss a τ := hdue
      rw [older_int z hz.le]
      push_cast
      rcases releaseAll_mem ss _ 0 _ a ha with h2 | ⟨k, s, hk, hsp, hon, ha', hr, hx⟩
      · have := h.close a h2 τ hτ hdue'
        rwa [show st.clock + z - τ - ((a.age : ℚ) + z) = st.clock - τ - a.age by ring]
      · obtain ⟨s', hs', hb, haft⟩ := hdue'
        rw [hsp, Nat.zero_add, hk] at hs'
        cases hs'
        have e1 : ¬ st.clock + (z : ℚ) / 2 < τ := fun hh => absurd (hb _ hh) (by omega)
        have e2 : ¬ τ < st.clock := by
          intro hh
          have h3 := haft _ hh
          have h4 := h.enough k s hk hon
          rw [Nat.zero_add] at hr
          omega
        rw [ha']
        push_cast
        rw [abs_le]
        constructor <;> linarith [not_lt.mp e1, not_lt.mp e2]
    · obtain ⟨s', hs', hb, haft⟩ := hdue
      rw [hsp, Nat.zero_add, hk] at hs'
      cases hs'
      have e1 : ¬ st.clock + (z : ℚ) < τ := fun hh => absurd (hb _ hh) (by omega)
      have e2 : ¬ τ < st.clock + (z : ℚ) / 2 := by
        intro hh
        have h3 := haft _ hh
        have h4 := releaseAll_enough ss (st.clock + (z : ℚ) / 2) 0 st k s hk hon
        simp only [Nat.zero_add, mid] at hr h4
        omega
      rw [ha]
      push_cast
      rw [abs_le]
      constructor <;> linarith [not_lt.mp e1, not_lt.mp e2]

lemma inv_run (ss : List Spill) (start : ℚ) (z : Int) (hz : 0 < z) (keeps : List (El → Bool)) :
    Inv ss start z keeps.length (run ss start z keeps) := by
  have hzq : (0 : ℚ) < z := by exact_mod_cast hz
  have key : ∀ (ks : List (El → Bool)) (n : Nat) (st : State), Inv ss start z n st →
      Inv ss start z (n + ks.length) (ks.foldl (fun st keep => step ss z keep st) st) := by
    intro ks
    induction ks with
    | nil => intro n st h; exact h
    | cons k ks ih =>
      intro n st h
      have := ih (n + 1) _ (inv_step ss start z hz n k st h)
      rw [show n + (k :: ks).length = n + 1 + ks.length by simp only [List.length_cons]; omega]
      exact this
  have := key keeps 0 _ (inv_first ss start z hzq)
  rw [Nat.zero_add] at this
  exact this

/-- The full statement: for any time step. -/
def C347_claim : Prop :=
  ∀ (ss : List Spill) (start dt : ℚ), 0 < dt → ∀ (keeps : List (El → Bool)) (e : El), e ∈ (run ss start dt keeps).els →
    ∀ τ, start ≤ τ → Due ss e τ → |(start + keeps.length * dt - τ) - e.age| ≤ dt / 2

/-- **C347**, for time steps of whole seconds: at each output, the age of each element is the time since its release to within half a time step.
Missing: time steps with fractions of a second, for which it does not hold. -/
theorem C347_age_partial (ss : List Spill) (start : ℚ) (dt : Int) (hdt : 0 < dt) (keeps : List (El → Bool)) (e : El)
    (he : e ∈ (run ss start dt keeps).els) (τ : ℚ) (hτ : start ≤ τ) (hd : Due ss e τ) :
    |(start + keeps.length * dt - τ) - e.age| ≤ (dt : ℚ) / 2 := by
  have h := inv_run ss start dt hdt keeps
  rw [← h.clock]
  exact h.close e he τ hτ hd

/-- **C347**: ages are whole numbers of time steps, so elements that are released together are of the same age for ever. -/
theorem C347_steps (ss : List Spill) (start : ℚ) (dt : Int) (hdt : 0 < dt) (keeps : List (El → Bool)) (e : El)
    (he : e ∈ (run ss start dt keeps).els) : ∃ m : Nat, e.age = m * dt ∧ m ≤ keeps.length := by
  have h := inv_run ss start dt hdt keeps
  have hzq : (0 : ℚ) < dt := by exact_mod_cast hdt
  have key : ∀ (ks : List (El → Bool)) (n : Nat) (st : State), (∀ e ∈ st.els, ∃ m : Nat, e.age = m * dt ∧ m ≤ n) →
      ∀ e ∈ (ks.foldl (fun st keep => step ss dt keep st) st).els, ∃ m : Nat, e.age = m * dt ∧ m ≤ n + ks.length := by
    intro ks
    induction ks with
    | nil => intro n st h; exact h
    | cons k ks ih =>
      intro n st h e he
      have := ih (n + 1) (step ss dt k st) (by
        intro e he
        rw [step_eq] at he
        rcases releaseAll_mem ss _ 0 _ e he with h1 | ⟨_, _, _, _, _, ha, _⟩
        · simp only [mid, List.mem_map, List.mem_filter] at h1
          obtain ⟨a, ⟨ha, _⟩, rfl⟩ := h1
          rw [older_int dt hdt.le]
          rcases releaseAll_mem ss _ 0 _ a ha with h2 | ⟨_, _, _, _, _, ha', _⟩
          · obtain ⟨m, hm, hn⟩ := h a h2
            exact ⟨m + 1, by rw [hm]; push_cast; ring, by omega⟩
          · exact ⟨1, by rw [ha']; simp, by omega⟩
        · exact ⟨0, by simp [ha], by omega⟩) e he
      obtain ⟨m, hm, hn⟩ := this
      exact ⟨m, hm, by simp only [List.length_cons]; omega⟩
  have := key keeps 0 (first ss start) (by
    intro e he
    rcases releaseAll_mem ss _ 0 _ e he with h1 | ⟨_, _, _, _, _, ha, _⟩
    · simp at h1
    · exact ⟨0, by simp [ha], le_refl _⟩) e he
  simpa using this

/-- **C347**: elements that are due at the start of the run have the time since the start as their age, exactly. -/
theorem C347_exact (ss : List Spill) (start : ℚ) (dt : Int) (hdt : 0 < dt) (keeps : List (El → Bool)) (e : El)
    (he : e ∈ (run ss start dt keeps).els) (hd : Due ss e start) : e.age = keeps.length * dt := by
  have hzq : (0 : ℚ) < dt := by exact_mod_cast hdt
  have h1 := C347_age_partial ss start dt hdt keeps e he start (le_refl _) hd
  obtain ⟨m, hm, _⟩ := C347_steps ss start dt hdt keeps e he
  rw [hm] at h1 ⊢
  push_cast at h1
  have h2 : |((keeps.length : ℚ) - m)| * dt ≤ dt / 2 := by
    rw [← abs_of_pos hzq, ← abs_mul, abs_of_pos hzq]
    rwa [show ((keeps.length : ℚ) - m) * dt = start + keeps.length * dt - start - m * dt by ring]
  have h3 : |((keeps.length : ℚ) - m)| < 1 := by nlinarith [abs_nonneg ((keeps.length : ℚ) - m)]
  have h4 : |((keeps.length : ℤ) - m)| < 1 := by exact_mod_cast h3
  have h5 : (keeps.length : ℤ) - m = 0 := Int.abs_lt_one_iff.mp h4
  have : (m : ℤ) = keeps.length := by omega
  rw [this]

/-- **C347**: in a run backwards, with releases that do not ask for fewer elements at later times, all elements have the time since the start of the
run as their age. -/
theorem C347_backwards (ss : List Spill) (start : ℚ) (dt : Int) (hdt : dt < 0) (hmono : ∀ s ∈ ss, Monotone s.expected)
    (keeps : List (El → Bool)) (e : El) (he : e ∈ (run ss start dt keeps).els) : e.age = keeps.length * |dt| := by
  have hzq : (dt : ℚ) < 0 := by exact_mod_cast hdt
  have hold : ∀ e : El, (older dt e).age = e.age + |dt| := by
    intro e
    unfold older
    have : ((e.age : ℚ) + |(dt : ℚ)|) = ((e.age + |dt| : ℤ) : ℚ) := by push_cast; ring
    simp only [this, Int.floor_intCast]
  -- no element is added by a call that ends before the start
  have key : ∀ (ks : List (El → Bool)) (n : Nat) (st : State), st.clock ≤ start →
      (∀ k s, ss[k]? = some s → s.on = true → s.expected start ≤ st.released k) → (∀ e ∈ st.els, e.age = n * |dt|) →
      ∀ e ∈ (ks.foldl (fun st keep => step ss dt keep st) st).els, e.age = (n + ks.length : ℕ) * |dt| := by
    intro ks
    induction ks with
    | nil => intro n st _ _ h; exact h
    | cons k ks ih =>
      intro n st hc hen h e he
      have none_new : ∀ (t : ℚ) (st' : State), t ≤ start → (∀ j, st.released j ≤ st'.released j) → ∀ e ∈ (releaseAll 0 ss t st').els, e ∈ st'.els := by
        intro t st' ht hr e he
        rcases releaseAll_mem ss t 0 _ e he with h1 | ⟨k, s, hk, _, hon, _, hr', hx⟩
        · exact h1
        · exfalso
          have h1 := hmono s (List.mem_of_getElem? hk) ht
          have h2 := hen k s hk hon
          have h3 := hr k
          rw [Nat.zero_add] at hr'
          omega
      have hmid : ∀ j, st.released j ≤ (releaseAll 0 ss (st.clock + (dt : ℚ) / 2) st).released j := releaseAll_mono ss _ 0 st
      have hstep : ∀ e ∈ (step ss dt k st).els, e.age = ((n + 1 : ℕ) : ℤ) * |dt| := by
        intro e he
        rw [step_eq] at he
        have h1 := none_new _ (mid ss dt k st) (by linarith) hmid e he
        simp only [mid, List.mem_map, List.mem_filter] at h1
        obtain ⟨a, ⟨ha, _⟩, rfl⟩ := h1
        have h2 := none_new _ _ (by linarith) (fun j => le_refl _) a ha
        rw [hold, h a h2]; push_cast; ring
      have hcs : (step ss dt k st).clock ≤ start := by
        unfold step; simp only [releaseAll_clock]; linarith
      have hes : ∀ k' s, ss[k']? = some s → s.on = true → s.expected start ≤ (step ss dt k st).released k' := by
        intro k' s hk hon
        refine le_trans (hen k' s hk hon) (le_trans (hmid k') ?_)
        rw [step_eq]
        exact releaseAll_mono ss _ 0 (mid ss dt k st) k'
      have := ih (n + 1) _ hcs hes hstep e he
      rw [this]
      simp only [List.length_cons]
      push_cast; ring
  have := key keeps 0 (first ss start) (by unfold first; rw [releaseAll_clock]) (by
      intro k s hk hon
      have := releaseAll_enough ss start 0 ⟨start, [], fun _ => 0⟩ k s hk hon
      simpa [first] using this) (by
      intro e he
      rcases releaseAll_mem ss start 0 _ e he with h1 | ⟨_, _, _, _, _, ha, _⟩
      · simp at h1
      · simp [ha]) e he
  simpa using this

/-- an instantaneous release of one element at the start -/
def atOnce : Spill := ⟨true, fun t => if t < 0 then 0 else 1⟩

lemma atOnce_due : Due [atOnce] ⟨0, 0, 3⟩ 0 := by
  refine ⟨atOnce, rfl, ?_, ?_⟩
  · intro t ht; simp [atOnce, ht]
  · intro t ht; simp [atOnce, not_lt.mpr ht.le]

/-- With a time step of one and a half seconds the ages fall behind. -/
theorem C347_counterexample : ¬ C347_claim := by
  intro h
  have hmem : (⟨0, 0, 3⟩ : El) ∈ (run [atOnce] 0 (3 / 2) [fun _ => true, fun _ => true, fun _ => true]).els := by decide +kernel
  have := h [atOnce] 0 (3 / 2) (by norm_num) [fun _ => true, fun _ => true, fun _ => true] ⟨0, 0, 3⟩ hmem 0 (le_refl _) atOnce_due
  norm_num [abs_le] at this

/-- a release of four elements within the first hour -/
def fourSoon : Spill := ⟨true, fun t => if t < 1 then 0 else if t < 1200 then 1 else if t < 2400 then 2 else 4⟩

/-- In steps of one hour: after the first step the ages are one hour for what came in the first half of the step and nothing for the rest. -/
example : (run [fourSoon] 0 ((3600 : Int) : ℚ) [fun _ => true]).els = [⟨0, 0, 3600⟩, ⟨0, 1, 3600⟩, ⟨0, 2, 0⟩, ⟨0, 3, 0⟩] := by decide +kernel

/-- The second of them is due after 1200 seconds, its age after two hours is two hours, which is within half an hour of the truth. -/
example : |((0 : ℚ) + ([fun _ => true, fun _ => true] : List (El → Bool)).length * ((3600 : Int) : ℚ) - 1200) - (7200 : Int)| ≤ ((3600 : Int) : ℚ) / 2 := by
  refine C347_age_partial [fourSoon] 0 3600 (by norm_num) [fun _ => true, fun _ => true] ⟨0, 1, 7200⟩ (by decide +kernel) 1200 (by norm_num) ⟨fourSoon, rfl, ?_, ?_⟩
  · intro t ht
    have h1 : t < 1200 := ht
    simp only [fourSoon, h1, if_true]
    split <;> simp
  · intro t ht
    have h1 : ¬ t < 1 := by intro h; linarith
    have h2 : ¬ t < 1200 := not_lt.mpr ht.le
    simp only [fourSoon, h1, h2, if_false]
    split <;> simp

example : (⟨0, 0, 1800⟩ : El) ∈ (run [atOnce] 0 ((-900 : Int) : ℚ) [fun _ => true, fun _ => true]).els := by decide +kernel

end Verif.Run.Age
