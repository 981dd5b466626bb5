import Verif.Roc.PlaneProps
/-!
# Steps of a plane (C143-C146)
-/
namespace Verif.Roc.Plane

theorem loop_ok {c : Cfg} {ts : List Period} {ttni : Int} {o : Oil} {E D : Int} {S : ℚ} (hc : Good c) (ht : 0 < ttni) (hrate : 0 ≤ o.rate) :
    ∀ (n : Nat) (s : St), Inv c E D S o.rate s → (0 < s.rem → 4 * s.rem.toNat + rank (E - s.rem) s < n) →
      ∃ s', loop c ts ttni o n s = some s' ∧ Inv c E D S o.rate s' ∧ s'.rem = 0 := by
  intro n
  induction n with
  | zero =>
    intro s hi h
    have : ¬ 0 < s.rem := fun h' => by have := h h'; omega
    have := hi.rem
    refine ⟨s, by unfold loop; rw [if_neg (by omega)], hi, by omega⟩
  | succ n ih =>
    intro s hi h
    have h0 := hi.rem
    by_cases hr : 0 < s.rem
    · obtain ⟨s', h1, h2, h3⟩ := pass_ok (ts := ts) hc ht hrate hi hr
      unfold loop
      rw [if_pos hr, h1, Option.bind_some]
      have := h hr
      have hk := rank_le (E - s'.rem) s'
      have hk2 := rank_le (E - s.rem) s
      refine ih s' h2 (fun hr' => ?_)
      rcases h3 with h3 | h3 | ⟨h3, h4⟩
      · omega
      · omega
      · omega
    · exact ⟨s, by unfold loop; rw [if_neg hr], hi, by omega⟩

/-- a loop that has come to an end ends the same way with a larger bound -/
theorem loop_mono {c : Cfg} {ts : List Period} {ttni : Int} {o : Oil} : ∀ (n : Nat) (s s' : St), loop c ts ttni o n s = some s' →
    ∀ m, n ≤ m → loop c ts ttni o m s = some s' := by
  intro n
  induction n with
  | zero =>
    intro s s' h m _
    unfold loop at h
    by_cases hr : 0 < s.rem
    · rw [if_pos hr] at h; cases h
    · rw [if_neg hr] at h
      cases m with
      | zero => unfold loop; rw [if_neg hr]; exact h
      | succ m => unfold loop; rw [if_neg hr]; exact h
  | succ n ih =>
    intro s s' h m hm
    obtain ⟨k, rfl⟩ : ∃ k, m = k + 1 := ⟨m - 1, by omega⟩
    unfold loop at h ⊢
    by_cases hr : 0 < s.rem
    · rw [if_pos hr] at h ⊢
      cases hp : pass c ts ttni o s with
      | none => rw [hp] at h; cases h
      | some u =>
        rw [hp, Option.bind_some] at h
        rw [Option.bind_some]
        exact ih u s' h k (by omega)
    · rw [if_neg hr] at h ⊢; exact h

/-- the state of a plane between two steps, at time `t` -/
structure Between (c : Cfg) (t : Int) (s : St) : Prop where
  nst : Timed s.cur = true → ∃ n, s.nst = some n ∧ t ≤ n
  casc : s.cur = .cascade → ∀ n, s.nst = some n → t ≤ n
  op : Onsite s.cur = true → s.opEnd.isSome = true
  bid : s.cur = .uTurn → c.bidir = true
  d0 : 0 ≤ s.disp
  d1 : s.disp ≤ c.payload
  live : s.cur ≠ .deactivated

theorem between_new {c : Cfg} (hc : Good c) (casc : Bool) (t : Int) : Between c t (new c casc) := by
  have := hc.payload.le
  cases casc
  · exact ⟨by simp [new, Timed], by simp [new], by simp [new, Onsite], by simp [new], this, le_refl _, by simp [new]⟩
  · exact ⟨by simp [new, Timed], by simp [new], by simp [new, Onsite], by simp [new], this, le_refl _, by simp [new]⟩

theorem step_ok {c : Cfg} {ts : List Period} {o : Oil} {t dt : Int} {s : St} (hc : Good c) (hw : WF ts) (hrate : 0 ≤ o.rate) (hdt : 0 < dt)
    (hb : Between c t s) (ha : isActive ts t dt = true) :
    ∃ s', step c ts o t dt (4 * dt.toNat + 4) s = some s' ∧ Between c (t + dt) s' ∧ (∀ e ∈ s'.log, 0 ≤ e.2) ∧ total s'.log ≤ dt ∧
      s.sprayed ≤ s'.sprayed ∧ s'.sprayed - s.sprayed ≤ o.rate * (totalOf .onsite s'.log : ℚ) / 1000000 := by
  unfold step
  rw [if_pos ha]
  dsimp only
  rw [if_neg hb.live]
  obtain ⟨r, hr, h1, h2⟩ := C135_time hw t
  rw [hr]
  -- in a period there is a next boundary
  have hop := ((C135_partial (ts := ts) t dt hdt).1 ha).1
  obtain ⟨i, hi⟩ := Option.isSome_iff_exists.1 hop
  obtain ⟨p, hp, hp1, hp2⟩ := (C135_index hw t i).1 hi
  cases r with
  | none =>
    exfalso
    have := h2 rfl p.2 ⟨p, List.mem_of_getElem? hp, Or.inr rfl⟩
    omega
  | some ttni =>
    dsimp only
    obtain ⟨hpos, _, _⟩ := h1 ttni rfl
    have hi0 : Inv c (t + dt) dt s.sprayed o.rate { s with log := [], calls := 0, payloads := 0, rem := dt, now := t, ts := dt } := by
      refine ⟨hdt.le, fun _ => ⟨?_, rfl⟩, ?_, ?_, hb.op, hb.bid, hb.d0, hb.d1, by simp, by simp [total], hb.live, le_refl _, ?_⟩
      · show t = t + dt - dt; omega
      · intro h
        obtain ⟨n, hn, hn2⟩ := hb.nst h
        exact ⟨n, hn, by show t + dt - dt ≤ n; omega⟩
      · intro h n hn
        have := hb.casc h n hn
        show t + dt - dt ≤ n; omega
      · simp [totalOf, total]
    obtain ⟨s', e1, e2, e3⟩ := loop_ok (ts := ts) hc hpos hrate (4 * dt.toNat + 4) _ hi0 (fun _ => by
      have := rank_le (t + dt - dt) { s with log := [], calls := 0, payloads := 0, rem := dt, now := t, ts := dt }
      dsimp only
      omega)
    have htot := e2.tot
    refine ⟨s', e1, ⟨?_, ?_, e2.op, e2.bid, e2.d0, e2.d1, e2.live⟩, e2.log, by omega, e2.sp0, e2.sp1⟩
    · intro h
      obtain ⟨n, hn, hn2⟩ := e2.nst h
      exact ⟨n, hn, by omega⟩
    · intro h n hn
      have := e2.casc h n hn
      omega

/-- running a plane: steps that follow one another, or that leave a pause only when the plane is at its base -/
inductive Reach (c : Cfg) (ts : List Period) : Int → St → Prop
  | new (casc : Bool) (t : Int) : Reach c ts t (new c casc)
  | step {t dt : Int} {s s' : St} (o : Oil) (n : Nat) : Reach c ts t s → 0 < dt → 0 ≤ o.rate → isActive ts t dt = true → step c ts o t dt n s = some s' →
      Reach c ts (t + dt) s'
  | report {t : Int} {s : St} (a b : ℚ) : Reach c ts t s → Reach c ts t (report a b s).2.2
  | pause {t t' : Int} {s : St} : Reach c ts t s → t ≤ t' → Timed s.cur = false → (s.cur = .cascade → s.nst = none) → Reach c ts t' { s with log := [] }

/-- whatever bound the loop is given, it gives the same -/
theorem step_mono {c : Cfg} {ts : List Period} {o : Oil} {t dt : Int} {s s' s'' : St} {n m : Nat} (h : step c ts o t dt n s = some s')
    (h' : step c ts o t dt m s = some s'') : s' = s'' := by
  unfold step at h h'
  split at h
  · rename_i ha
    rw [if_pos ha] at h'
    dsimp only at h h'
    split at h
    · rename_i hd
      rw [if_pos hd] at h'
      rw [h] at h'; exact Option.some.inj h'
    · rename_i hd
      rw [if_neg hd] at h'
      generalize timeToNext ts t = r at *
      cases r with
      | error e => simp at h
      | ok r =>
        cases r with
        | none =>
          dsimp only at h h'
          rw [h] at h'; exact Option.some.inj h'
        | some d =>
          dsimp only at h h'
          have h1 := loop_mono _ _ _ h (max n m) (le_max_left _ _)
          have h2 := loop_mono _ _ _ h' (max n m) (le_max_right _ _)
          rw [h1] at h2; exact Option.some.inj h2
  · rename_i ha
    rw [if_neg ha] at h'
    rw [h] at h'; exact Option.some.inj h'

theorem reach_between {c : Cfg} {ts : List Period} (hc : Good c) (hw : WF ts) {t : Int} {s : St} (h : Reach c ts t s) : Between c t s := by
  induction h with
  | new casc t => exact between_new hc casc t
  | step o n h hdt ho ha hs ih =>
    obtain ⟨s'', h1, h2, _⟩ := step_ok hc hw ho hdt ih ha
    rw [step_mono hs h1]; exact h2
  | report a b h ih =>
    unfold report
    split
    · exact ⟨ih.nst, ih.casc, ih.op, ih.bid, ih.d0, ih.d1, ih.live⟩
    · exact ih
  | pause h _ ht hcas ih =>
    exact ⟨fun h => absurd h (by dsimp only; rw [ht]; simp), fun h n hn => absurd ((hcas h).symm.trans hn) (by simp), ih.op, ih.bid, ih.d0, ih.d1, ih.live⟩

/-! ## C143 -/

/-- a run of steps, one after the other, in any of which the plane may be idle -/
inductive Run (c : Cfg) (ts : List Period) : Int → St → Prop
  | new (casc : Bool) (t : Int) : Run c ts t (new c casc)
  | step {t dt : Int} {s s' : St} (o : Oil) (n : Nat) : Run c ts t s → 0 < dt → 0 ≤ o.rate → step c ts o t dt n s = some s' → Run c ts (t + dt) s'

/-- C143 in full: in every step of a run the times of the activities are not negative and do not add up to more than the step, and the
plane never has less than no dispersant, or more than its payload -/
def C143_claim : Prop := ∀ (c : Cfg) (ts : List Period) (o : Oil) (t dt : Int) (n : Nat) (s s' : St), Good c → WF ts → 0 ≤ o.rate → 0 < dt →
  Run c ts t s → step c ts o t dt n s = some s' → (∀ e ∈ s'.log, 0 ≤ e.2) ∧ total s'.log ≤ dt ∧ 0 ≤ s'.disp ∧ s'.disp ≤ c.payload

/-- a quarter of an hour to the slick, half an hour at it -/
def cfg : Cfg :=
  { transit := 900000000, approach := 200000000, spray := 200000000, uTurn := 60000000, depart := 100000000, refuel := 1000000000, maxOnsite := 3000000000
    cascade := 600000000, passDur := 500000000, mission := 2300000000, bidir := false, payload := 20, ratio := 20 }
def oil : Oil := { any := true, mass := 1000000, dens := 900, rate := 1 / 100 }

theorem cfg_good : Good cfg := ⟨by decide, by decide, by decide, by decide, by decide, by decide, by decide, by norm_num [cfg]⟩

/-- When a period ends while the plane is away, and another begins later, the plane goes on with an activity that should have been over long
ago: it reports negative times, and the dispersant grows. -/
def early : List Period := [(0, 2800000000), (18000000000, 28800000000)]

theorem C143_partial {c : Cfg} {ts : List Period} {o : Oil} {t dt : Int} {s : St} (hc : Good c) (hw : WF ts) (hrate : 0 ≤ o.rate) (hdt : 0 < dt)
    (hr : Reach c ts t s) (ha : isActive ts t dt = true) :
    ∃ s', step c ts o t dt (4 * dt.toNat + 4) s = some s' ∧ (∀ e ∈ s'.log, 0 ≤ e.2) ∧ total s'.log ≤ dt ∧ 0 ≤ s'.disp ∧ s'.disp ≤ c.payload ∧
      (∀ m ≥ 4 * dt.toNat + 4, step c ts o t dt m s = some s') := by
  obtain ⟨s', h1, h2, h3, h4, _, _⟩ := step_ok hc hw hrate hdt (reach_between hc hw hr) ha
  refine ⟨s', h1, h3, h4, h2.d0, h2.d1, ?_⟩
  intro m hm
  unfold step at h1 ⊢
  rw [if_pos ha] at h1 ⊢
  dsimp only at h1 ⊢
  split at h1
  · rename_i hd; rw [if_pos hd]; exact h1
  · rename_i hd
    rw [if_neg hd]
    generalize timeToNext ts t = r at *
    cases r with
    | error e => simp at h1
    | ok r =>
      cases r with
      | none => exact h1
      | some d => exact loop_mono _ _ _ h1 m hm

/-- the dispersant sprayed in a step is not more than the pump can give in the time on site -/
theorem C143_pump {c : Cfg} {ts : List Period} {o : Oil} {t dt : Int} {s s' : St} {n : Nat} (hc : Good c) (hw : WF ts) (hrate : 0 ≤ o.rate) (hdt : 0 < dt)
    (hr : Reach c ts t s) (ha : isActive ts t dt = true) (hs : step c ts o t dt n s = some s') :
    s.sprayed ≤ s'.sprayed ∧ s'.sprayed - s.sprayed ≤ o.rate * (totalOf .onsite s'.log : ℚ) / 1000000 ∧
    s'.sprayed - s.sprayed ≤ o.rate * (dt : ℚ) / 1000000 := by
  obtain ⟨s'', h1, h2, h3, h4, h5, h6⟩ := step_ok hc hw hrate hdt (reach_between hc hw hr) ha
  rw [step_mono hs h1]
  refine ⟨h5, h6, le_trans h6 ?_⟩
  have h7 : totalOf .onsite s''.log ≤ total s''.log := by
    clear h1 h2 h4 h5 h6
    unfold totalOf
    generalize s''.log = l at *
    induction l with
    | nil => simp [total]
    | cons x l ih =>
      have hx := h3 x (by simp)
      have := ih (fun e he => h3 e (by simp [he]))
      by_cases hk : (x.1 == Act.onsite) = true
      · rw [List.filter_cons_of_pos (by exact hk)]
        simp only [total, List.map_cons, List.sum_cons] at this ⊢
        omega
      · rw [List.filter_cons_of_neg (by exact hk)]
        simp only [total, List.map_cons, List.sum_cons] at this ⊢
        omega
  have h8 : (totalOf .onsite s''.log : ℚ) ≤ (dt : ℚ) := by exact_mod_cast le_trans h7 h4
  have := mul_le_mul_of_nonneg_left h8 hrate
  linarith

end Verif.Roc.Plane
