import Verif.Roc.BurnRun
/-!
# Steps of the in-situ burn (C136, C137)
-/
namespace Verif.Roc.Burn

/-! ## how much was collected, from the list of states -/

theorem transit_col (s : St) : (transit s).tsCollected = s.tsCollected ∧ totalOf .collect (transit s).log = totalOf .collect s.log := by
  unfold transit
  split
  · simp [totalOf, total]
  · split
    · simp [totalOf, total]
    · exact ⟨rfl, rfl⟩

theorem burn_col (c : Cfg) (s : St) : (burn c s).tsCollected = s.tsCollected ∧ totalOf .collect (burn c s).log = totalOf .collect s.log := by
  have h : (startBurn c s).tsCollected = s.tsCollected ∧ (startBurn c s).log = s.log := by
    unfold startBurn
    split <;> exact ⟨rfl, rfl⟩
  unfold burn
  dsimp only
  split
  · simp [totalOf, total, h.1, h.2]
  · split
    · simp [totalOf, total, h.1, h.2]
    · exact ⟨h.1, by rw [h.2]⟩

theorem clean_col (c : Cfg) (active : Bool) (s : St) :
    (clean c active s).tsCollected = s.tsCollected ∧ totalOf .collect (clean c active s).log = totalOf .collect s.log := by
  unfold clean
  dsimp only
  split
  · simp [totalOf, total]
  · split
    · split <;> simp [totalOf, total]
    · exact ⟨rfl, rfl⟩

theorem mid_col (c : Cfg) (active : Bool) (s : St) :
    (mid c active s).tsCollected = s.tsCollected ∧ totalOf .collect (mid c active s).log = totalOf .collect s.log := by
  have h1 : (if s.transiting then transit s else s).tsCollected = s.tsCollected ∧
      totalOf .collect (if s.transiting then transit s else s).log = totalOf .collect s.log := by
    split
    · exact transit_col s
    · exact ⟨rfl, rfl⟩
  unfold mid
  generalize (if s.transiting then transit s else s) = u at *
  have h2 : (if u.burning then burn c u else u).tsCollected = u.tsCollected ∧
      totalOf .collect (if u.burning then burn c u else u).log = totalOf .collect u.log := by
    split
    · exact burn_col c u
    · exact ⟨rfl, rfl⟩
  unfold tail
  dsimp only
  generalize (if u.burning then burn c u else u) = w at *
  split
  · have h3 := clean_col c active w
    exact ⟨h3.1.trans (h2.1.trans h1.1), h3.2.trans (h2.2.trans h1.2)⟩
  · exact ⟨h2.1.trans h1.1, h2.2.trans h1.2⟩

theorem pass_col (c : Cfg) (o : Oil) (active : Bool) (s : St) (hr : 0 < s.rem) (h0 : s.tsCollected = 0) :
    (pass c o active s).tsCollected = o.rr * (totalOf .collect (pass c o active s).log - totalOf .collect s.log) / c.gal := by
  rw [pass_eq]
  have hu : (if !s.collecting && !s.transiting && !s.burning && !s.cleaning && active then { s with collecting := true } else s).tsCollected = 0 ∧
     (if !s.collecting && !s.transiting && !s.burning && !s.cleaning && active then { s with collecting := true } else s).log = s.log ∧
     (if !s.collecting && !s.transiting && !s.burning && !s.cleaning && active then { s with collecting := true } else s).rem = s.rem := by
    split <;> exact ⟨h0, rfl, rfl⟩
  generalize (if !s.collecting && !s.transiting && !s.burning && !s.cleaning && active then { s with collecting := true } else s) = u at *
  obtain ⟨h1, h2, h3⟩ := hu
  split
  · rw [(mid_col c active (collect c o u)).1, (mid_col c active (collect c o u)).2, ← h2]
    rw [← h3] at hr
    unfold collect
    dsimp only
    generalize (if o.thick = true then c.gal * u.cap / o.rr else u.rem) = x
    split
    · simp [totalOf, total]
    · simp [totalOf, total]
  · rw [(mid_col c active u).1, (mid_col c active u).2, h1, h2]; simp

/-! ## the loop -/

theorem loop_ok {c : Cfg} {o : Oil} (active : Bool) (hc : Good c) (ho : GoodOil o) : ∀ (n : Nat) (s s' : St) (p : Phase),
    Inv c s → Is s p → (0 < s.rem → p = .idle → active = true) → loop c o active n s = some s' →
    Keep c active s s' ∧ s'.rem = 0 ∧ (∃ q, Is s' q) ∧
    (s.rem ≤ 3600 → s.tsCollected = 0 → s.tsBurned = 0 →
      s'.cap = s.cap - s'.tsCollected + s'.tsBurned ∧
      s'.tsCollected = o.rr * (totalOf .collect s'.log - totalOf .collect s.log) / c.gal) := by
  intro n
  induction n with
  | zero =>
    intro s s' p hi hp hn h
    unfold loop at h
    split at h
    · simp at h
    · cases h
      refine ⟨Keep.refl hi, le_antisymm (not_lt.1 ‹_›) hi.rem, ⟨p, hp⟩, fun _ h1 h2 => ⟨by rw [h1, h2]; ring, by rw [h1]; simp⟩⟩
  | succ n ih =>
    intro s s' p hi hp hn h
    unfold loop at h
    split at h
    · rename_i hr
      obtain ⟨k1, k2, q, k3, k4⟩ := pass_ok active hc ho hi hp hr (hn hr)
      have kc := pass_col c o active s hr
      generalize pass c o active s = u at *
      obtain ⟨j1, j2, j3, j4⟩ := ih u s' q k1.inv k3 (fun hu hq => by
        rcases k4 with k | k
        · rw [k] at hu; exact absurd hu (lt_irrefl _)
        · exact absurd hq k.1) h
      refine ⟨k1.trans j1 ?_, j2, j3, ?_⟩
      · intro hb hr0
        left
        have : s' = u := by
          have hz : ¬ 0 < u.rem := by rw [hr0]; exact lt_irrefl _
          cases n with
          | zero => unfold loop at h; rw [if_neg hz] at h; exact (Option.some.inj h).symm
          | succ m => unfold loop at h; rw [if_neg hz] at h; exact (Option.some.inj h).symm
        rw [this]
        exact ⟨hb, hr0⟩
      · intro h3 h1 h2
        obtain ⟨e1, e2⟩ := k2 h1 h2
        have ec := kc h1
        rcases e2 with e2 | e2
        · have hu0 : u.rem = 0 := le_antisymm (e2.trans (max_le (le_refl _) (by linarith))) k1.inv.rem
          have hz : ¬ 0 < u.rem := by rw [hu0]; exact lt_irrefl _
          have : s' = u := by
            cases n with
            | zero => unfold loop at h; rw [if_neg hz] at h; exact (Option.some.inj h).symm
            | succ m => unfold loop at h; rw [if_neg hz] at h; exact (Option.some.inj h).symm
          rw [this]
          exact ⟨e1, ec⟩
        · obtain ⟨f1, f2⟩ := j4 (k1.rem.trans h3) e2.1 e2.2
          rw [e2.1, e2.2] at e1
          refine ⟨by rw [f1, e1]; ring, ?_⟩
          rw [e2.1] at ec
          rw [f2]
          have : o.rr * (totalOf .collect s'.log - totalOf .collect s.log) / c.gal =
            o.rr * (totalOf .collect s'.log - totalOf .collect u.log) / c.gal + o.rr * (totalOf .collect u.log - totalOf .collect s.log) / c.gal := by ring
          rw [this, ← ec]; ring
    · cases h
      refine ⟨Keep.refl hi, le_antisymm (not_lt.1 ‹_›) hi.rem, ⟨p, hp⟩, fun _ h1 h2 => ⟨by rw [h1, h2]; ring, by rw [h1]; simp⟩⟩

/-- the loop ends -/
theorem loop_ends {c : Cfg} {o : Oil} (active : Bool) (hc : Good c) (ho : GoodOil o) : ∀ (m : Nat) (s : St) (p : Phase),
    Inv c s → Is s p → (0 < s.rem → p = .idle → active = true) → 3 * ⌊s.rem / 3600⌋.toNat + rank p s.full < m →
    ∃ s', loop c o active m s = some s' := by
  intro m
  induction m with
  | zero => intro s p _ _ _ h; omega
  | succ m ih =>
    intro s p hi hp hn hm
    unfold loop
    split
    · rename_i hr
      obtain ⟨k1, _, q, k3, k4⟩ := pass_ok active hc ho hi hp hr (hn hr)
      generalize pass c o active s = u at *
      rcases k4 with k | ⟨kq, k⟩
      · refine ⟨u, ?_⟩
        have hz : ¬ 0 < u.rem := by rw [k]; exact lt_irrefl _
        cases m with
        | zero => unfold loop; rw [if_neg hz]
        | succ m => unfold loop; rw [if_neg hz]
      · refine ih u q k1.inv k3 (fun _ h => absurd h kq) ?_
        have hu := k1.inv.rem
        have f0 : 0 ≤ ⌊u.rem / 3600⌋ := Int.floor_nonneg.2 (by positivity)
        rcases k with k | k
        · have hf : ⌊u.rem / 3600⌋ + 1 ≤ ⌊s.rem / 3600⌋ := by
            rw [Int.le_floor]
            have := Int.floor_le (u.rem / 3600)
            push_cast
            have h2 : u.rem / 3600 ≤ s.rem / 3600 - 1 := by
              rw [div_le_iff₀ (by norm_num)]; linarith
            linarith
          have hrk : rank q u.full ≤ 2 := by
            unfold rank; split
            · exact le_refl _
            · split <;> omega
            · omega
          omega
        · have hf : ⌊u.rem / 3600⌋ ≤ ⌊s.rem / 3600⌋ := by
            refine Int.floor_le_floor ?_
            have := k1.rem
            exact div_le_div_of_nonneg_right this (by norm_num)
          omega
    · exact ⟨s, rfl⟩

/-! ## the steps -/

/-- the states a response can be in after any number of steps, of any lengths, with any oil, within and outside the schedule -/
inductive Reach (c : Cfg) : St → Prop
  | new : Reach c (new c)
  | step {s s' : St} (o : Oil) (active : Bool) (dt : ℚ) (n : Nat) : Reach c s → GoodOil o → 0 ≤ dt → step c o active dt n s = some s' → Reach c s'

theorem begin_inv {c : Cfg} {s : St} {dt : ℚ} (active : Bool) (hi : Inv c s) (hdt : 0 ≤ dt) :
    Inv c (begin s active dt).1 := by
  unfold begin
  dsimp only
  split
  · exact ⟨hi.cap0, hi.cap1, hi.off, hi.burn, hi.clean, hi.rate, hi.full, hi.start, by simp, hdt⟩
  · exact ⟨hi.cap0, hi.cap1, hi.off, hi.burn, hi.clean, hi.rate, hi.full, hi.start, by simp, hi.rem⟩

theorem begin_is {s : St} {p : Phase} (active : Bool) (dt : ℚ) (h : Is s p) : Is (begin s active dt).1 p := by
  unfold begin
  dsimp only
  split <;> exact ⟨h.c, h.t, h.b, h.k⟩

theorem begin_two (s : St) (active : Bool) (dt : ℚ) : (begin s active dt).2 = (active || s.burning || s.cleaning) := by
  unfold begin
  dsimp only
  cases h : (active || s.burning || s.cleaning) <;> simp_all

theorem begin_one (s : St) (active : Bool) (dt : ℚ) : (begin s active dt).1.log = [] ∧ (begin s active dt).1.tsCollected = 0 ∧
    (begin s active dt).1.tsBurned = 0 ∧ (begin s active dt).1.cap = s.cap ∧ (begin s active dt).1.timeBurning = s.timeBurning ∧
    ((begin s active dt).2 = true → (begin s active dt).1.rem = dt) ∧ ((begin s active dt).2 = false → (begin s active dt).1.rem = s.rem) := by
  unfold begin
  dsimp only
  split <;> simp

/-- everything about a step from a state with the invariant -/
theorem step_ok {c : Cfg} {o : Oil} {s s' : St} {active : Bool} {dt : ℚ} {n : Nat} (hc : Good c) (ho : GoodOil o) (hdt : 0 ≤ dt)
    (hi : Inv c s) {p : Phase} (hp : Is s p) (h : step c o active dt n s = some s') :
    Inv c s' ∧ (∃ q, Is s' q) ∧ total s'.log ≤ dt ∧ (active = true → total s'.log = dt) ∧
    (s.rem = 0 → s'.rem = 0) ∧
    (s'.timeBurning - s.timeBurning = totalOf .burn s'.log ∨ s'.burning = true) ∧
    (dt ≤ 3600 → s'.cap = s.cap - s'.tsCollected + s'.tsBurned ∧ s'.tsCollected = o.rr * totalOf .collect s'.log / c.gal) := by
  unfold step at h
  dsimp only at h
  have hb := begin_inv active hi hdt
  have hq := begin_is active dt hp
  have h2 := begin_two s active dt
  obtain ⟨b1, b2, b3, b4, b5, b6, b7⟩ := begin_one s active dt
  generalize begin s active dt = r at *
  split at h
  · rename_i hr
    have hdr := b6 hr
    obtain ⟨k1, k2, k3, k4⟩ := loop_ok active hc ho n r.1 s' p hb hq (by
      intro _ hpi
      subst hpi
      rw [hr, hp.b, hp.k] at h2
      simpa using h2.symm) h
    have hl := k1.le
    have he := k1.eq
    rw [k2, b1, hdr] at hl he
    simp only [total, List.map_nil, List.sum_nil, zero_add, add_zero] at hl he
    refine ⟨k1.inv, k3, hl, he, fun _ => k2, ?_, ?_⟩
    · rcases k1.tb with t | t
      · left
        rw [b5, b1] at t
        rw [t]; simp [totalOf, total]
      · exact Or.inr t.1
    · intro h3
      obtain ⟨e1, e2⟩ := k4 (by rw [hdr]; exact h3) b2 b3
      rw [b4] at e1
      rw [b1] at e2
      refine ⟨e1, ?_⟩
      rw [e2]; simp [totalOf, total]
  · rename_i hr
    simp only [Bool.not_eq_true] at hr
    cases h
    have t0 : total ([] : List (Act × ℚ)) = 0 := rfl
    refine ⟨hb, ⟨p, hq⟩, by rw [b1, t0]; exact hdt, ?_, fun h => (b7 hr).trans h, Or.inl (by rw [b1, b5]; simp [totalOf, total]), ?_⟩
    · intro ha
      rw [hr, ha] at h2
      simp at h2
    · intro _
      rw [b1, b2, b3, b4]
      simp [totalOf, total]

theorem reach_ok {c : Cfg} {s : St} (hc : Good c) (h : Reach c s) : Inv c s ∧ (∃ p, Is s p) ∧ s.rem = 0 := by
  induction h with
  | new =>
    exact ⟨⟨hc.cap, le_refl _, le_refl _, le_refl _, le_refl _, le_refl _, by simp [new], by simp [new], by simp [new], le_refl _⟩,
      ⟨.collect, ⟨rfl, rfl, rfl, rfl⟩⟩, rfl⟩
  | step o active dt n _ ho hdt hs ih =>
    obtain ⟨i1, ⟨p, i2⟩, i3⟩ := ih
    obtain ⟨k1, k2, _, _, k5, _⟩ := step_ok hc ho hdt i1 i2 hs
    exact ⟨k1, k2, k5 i3⟩

/-- C136: however long the steps, whatever the oil: the times in the list of states of a step are not negative, add up to the length of
the step when it is within the schedule, and to no more than that otherwise. -/
theorem C136_time {c : Cfg} {o : Oil} {s s' : St} {active : Bool} {dt : ℚ} {n : Nat} (hc : Good c) (h : Reach c s) (ho : GoodOil o)
    (hdt : 0 ≤ dt) (hs : step c o active dt n s = some s') :
    (∀ e ∈ s'.log, 0 ≤ e.2) ∧ total s'.log ≤ dt ∧ (active = true → total s'.log = dt) := by
  obtain ⟨i1, ⟨p, i2⟩, _⟩ := reach_ok hc h
  obtain ⟨k1, _, k3, k4, _⟩ := step_ok hc ho hdt i1 i2 hs
  exact ⟨k1.log, k3, k4⟩

/-- C136: a step always ends. -/
theorem C136_ends {c : Cfg} {o : Oil} {s : St} (active : Bool) {dt : ℚ} (hc : Good c) (h : Reach c s) (ho : GoodOil o) (hdt : 0 ≤ dt) :
    ∃ n s', step c o active dt n s = some s' := by
  obtain ⟨i1, ⟨p, i2⟩, _⟩ := reach_ok hc h
  unfold step
  dsimp only
  have hb := begin_inv active i1 hdt
  have hq := begin_is active dt i2
  have h2 := begin_two s active dt
  generalize begin s active dt = r at *
  split
  · rename_i hr
    exact ⟨_, loop_ends active hc ho _ r.1 p hb hq (by
      intro _ hpi
      subst hpi
      rw [hr, i2.b, i2.k] at h2
      simpa using h2.symm) (Nat.lt_succ_self _)⟩
  · exact ⟨0, _, rfl⟩

/-- the fuel does not matter -/
theorem loop_mono {c : Cfg} {o : Oil} {active : Bool} : ∀ (n m : Nat) (s a b : St), loop c o active n s = some a → loop c o active m s = some b → a = b := by
  intro n
  induction n with
  | zero =>
    intro m s a b h1 h2
    unfold loop at h1
    split at h1
    · simp at h1
    · rename_i hz
      cases m with
      | zero => unfold loop at h2; rw [if_neg hz] at h2; rw [← Option.some.inj h1, ← Option.some.inj h2]
      | succ m => unfold loop at h2; rw [if_neg hz] at h2; rw [← Option.some.inj h1, ← Option.some.inj h2]
  | succ n ih =>
    intro m s a b h1 h2
    unfold loop at h1
    split at h1
    · rename_i hz
      cases m with
      | zero => unfold loop at h2; rw [if_pos hz] at h2; simp at h2
      | succ m => unfold loop at h2; rw [if_pos hz] at h2; exact ih m _ a b h1 h2
    · rename_i hz
      cases m with
      | zero => unfold loop at h2; rw [if_neg hz] at h2; rw [← Option.some.inj h1, ← Option.some.inj h2]
      | succ m => unfold loop at h2; rw [if_neg hz] at h2; rw [← Option.some.inj h1, ← Option.some.inj h2]

/-- The claim about the time of burning a user is told: in each step it grows by the time spent burning. -/
def C136_claim : Prop := ∀ (c : Cfg) (o : Oil) (s s' : St) (active : Bool) (dt : ℚ) (n : Nat), Good c → Reach c s → GoodOil o → 0 ≤ dt →
  step c o active dt n s = some s' → s'.timeBurning - s.timeBurning = totalOf .burn s'.log

/-- C136, in part: it does when the step does not end in the middle of a burn. -/
theorem C136_partial {c : Cfg} {o : Oil} {s s' : St} {active : Bool} {dt : ℚ} {n : Nat} (hc : Good c) (h : Reach c s) (ho : GoodOil o)
    (hdt : 0 ≤ dt) (hs : step c o active dt n s = some s') (hb : s'.burning = false) :
    s'.timeBurning - s.timeBurning = totalOf .burn s'.log := by
  obtain ⟨i1, ⟨p, i2⟩, _⟩ := reach_ok hc h
  obtain ⟨_, _, _, _, _, k6, _⟩ := step_ok hc ho hdt i1 i2 hs
  rcases k6 with k | k
  · exact k
  · rw [hb] at k; simp at k

/-- a boom of a cubic foot, to be burned where it is -/
def small : Cfg := ⟨1, 0, 100 / 33, 1⟩

theorem small_good : Good small := ⟨by norm_num [small], by norm_num [small], by norm_num [small], by norm_num [small]⟩

/-- oil that fills it in a second and burns an inch per ten minutes -/
def fast : Oil := ⟨true, 1, 1, 1 / 10⟩

theorem fast_good : GoodOil fast := ⟨by norm_num [fast], by simp [fast], by norm_num [fast]⟩

/-- A burn of ten minutes of which one second is in the step: the time reported grows by 599 seconds, what remains instead of what has passed. -/
theorem C136_counterexample : ¬ C136_claim := by
  intro h
  have := h small fast (new small)
    ((step small fast true 2 5 (new small)).getD (new small)) true 2 5 small_good .new fast_good (by norm_num) (by decide +kernel)
  revert this
  decide +kernel

/-- C137: the room left in the boom is between nothing and all of it, over any number of steps. -/
theorem C137_capacity {c : Cfg} {s : St} (hc : Good c) (h : Reach c s) : 0 ≤ s.cap ∧ s.cap ≤ c.capMax :=
  ⟨(reach_ok hc h).1.cap0, (reach_ok hc h).1.cap1⟩

/-- The claim about the oil taken from the water in a step: what is recovered in the time spent collecting. -/
def C137_claim : Prop := ∀ (c : Cfg) (o : Oil) (s s' : St) (active : Bool) (dt : ℚ) (n : Nat), Good c → Reach c s → GoodOil o → 0 ≤ dt →
  step c o active dt n s = some s' → s'.tsCollected = o.rr * totalOf .collect s'.log / c.gal

/-- C137, in part: it is for steps of no more than an hour, and then the boom has what was in it before, what was collected, and not what
was burned. -/
theorem C137_partial {c : Cfg} {o : Oil} {s s' : St} {active : Bool} {dt : ℚ} {n : Nat} (hc : Good c) (h : Reach c s) (ho : GoodOil o)
    (hdt : 0 ≤ dt) (hs : step c o active dt n s = some s') (hh : dt ≤ 3600) :
    s'.tsCollected = o.rr * totalOf .collect s'.log / c.gal ∧
    c.capMax - s'.cap = (c.capMax - s.cap) + s'.tsCollected - s'.tsBurned := by
  obtain ⟨i1, ⟨p, i2⟩, _⟩ := reach_ok hc h
  obtain ⟨_, _, _, _, _, _, k7⟩ := step_ok hc ho hdt i1 i2 hs
  obtain ⟨a, b⟩ := k7 hh
  exact ⟨b, by rw [a]; ring⟩

/-- In a step of an hour and a quarter the boom is filled, burned and cleaned, and half filled again: only the half is taken from the water. -/
theorem C137_counterexample : ¬ C137_claim := by
  intro h
  have := h small fast (new small)
    ((step small fast true (8403 / 2) 9 (new small)).getD (new small)) true (8403 / 2) 9 small_good .new fast_good (by norm_num) (by decide +kernel)
  revert this
  decide +kernel

/-- An hour's step: filled, ten minutes of burning, 2999 seconds of the hour of cleaning. -/
example : (step small fast true 3600 5 (new small)).map (fun s => (s.log, s.tsCollected, s.tsBurned, s.cap, s.timeBurning)) =
    some ([(.collect, 1), (.transit, 0), (.burn, 600), (.clean, 2999)], 1, 1, 1, 600) := by decide +kernel

/-- and the next, after the end of the schedule: the rest of the cleaning -/
example : ((step small fast true 3600 5 (new small)).bind (step small fast false 3600 5)).map (fun s => (s.log, s.tsCollected)) =
    some ([(.clean, 601)], 0) := by decide +kernel

end Verif.Roc.Burn
