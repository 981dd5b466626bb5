import Verif.Roc.BurnProps
/-!
# A step of the in-situ burn (C136, C137)
-/
namespace Verif.Roc.Burn

theorem collect_tb (c : Cfg) (o : Oil) (s : St) :
    (collect c o s).timeBurning = s.timeBurning ∧ totalOf .burn (collect c o s).log = totalOf .burn s.log := by
  unfold collect
  dsimp only
  generalize (if o.thick = true then c.gal * s.cap / o.rr else s.rem) = x
  split
  · simp [totalOf, total]
  · split
    · simp [totalOf, total]
    · exact ⟨rfl, rfl⟩

theorem transit_tb (s : St) :
    (transit s).timeBurning = s.timeBurning ∧ totalOf .burn (transit s).log = totalOf .burn s.log ∧ (transit s).full = s.full := by
  unfold transit
  split
  · simp [totalOf, total]
  · split
    · simp [totalOf, total]
    · exact ⟨rfl, rfl, rfl⟩

/-- the end of a pass: burning, cleaning -/
def tail (c : Cfg) (active : Bool) (s : St) : St :=
  let s := if s.burning then burn c s else s
  if s.cleaning then clean c active s else s

/-- the pass after collecting -/
def mid (c : Cfg) (active : Bool) (s : St) : St := tail c active (if s.transiting then transit s else s)

theorem pass_eq (c : Cfg) (o : Oil) (active : Bool) (s : St) : pass c o active s =
    mid c active (if (if !s.collecting && !s.transiting && !s.burning && !s.cleaning && active then { s with collecting := true } else s).collecting
      then collect c o (if !s.collecting && !s.transiting && !s.burning && !s.cleaning && active then { s with collecting := true } else s)
      else (if !s.collecting && !s.transiting && !s.burning && !s.cleaning && active then { s with collecting := true } else s)) := rfl

/-- what a part of a pass keeps -/
structure Keep (c : Cfg) (active : Bool) (s s' : St) : Prop where
  inv : Inv c s'
  le : total s'.log + s'.rem ≤ total s.log + s.rem
  eq : active = true → total s'.log + s'.rem = total s.log + s.rem
  rem : s'.rem ≤ s.rem
  tb : s'.timeBurning - s.timeBurning = totalOf .burn s'.log - totalOf .burn s.log ∨ (s'.burning = true ∧ s'.rem = 0)

theorem Keep.refl {c : Cfg} {active : Bool} {s : St} (h : Inv c s) : Keep c active s s :=
  ⟨h, le_refl _, fun _ => rfl, le_refl _, Or.inl (by simp)⟩

theorem Keep.trans {c : Cfg} {active : Bool} {s s' s'' : St} (h : Keep c active s s') (h' : Keep c active s' s'')
    (hb : s'.burning = true → s'.rem = 0 → s''.burning = true ∧ s''.rem = 0 ∨
      s'.timeBurning - s.timeBurning = totalOf .burn s'.log - totalOf .burn s.log) : Keep c active s s'' := by
  refine ⟨h'.inv, h'.le.trans h.le, fun a => (h'.eq a).trans (h.eq a), h'.rem.trans h.rem, ?_⟩
  rcases h'.tb with h2 | h2
  · rcases h.tb with h1 | h1
    · left; linarith
    · rcases hb h1.1 h1.2 with h3 | h3
      · exact Or.inr h3
      · left; linarith
  · exact Or.inr h2

/-- the end of a pass, from burning or cleaning -/
theorem tail_ok {c : Cfg} {s : St} (active : Bool) (hc : Good c) (hi : Inv c s) (hp : Is s .burn ∨ Is s .clean) :
    Keep c active s (tail c active s) ∧ (tail c active s).tsCollected = s.tsCollected ∧ (tail c active s).full = false ∧
    (((tail c active s).cap = s.cap ∧ (tail c active s).tsBurned = s.tsBurned) ∨
      (Is s .burn ∧ (tail c active s).cap = s.cap + (tail c active s).tsBurned ∧ (tail c active s).rem ≤ max 0 (s.rem - 3600))) ∧
    (∃ p, Is (tail c active s) p ∧ ((tail c active s).rem = 0 ∨
      (p = .transit ∧ (Is s .burn → (tail c active s).rem ≤ s.rem - 3600)))) := by
  have full_false : ∀ u : St, Inv c u → Is u .clean → u.full = false := by
    intro u hu hk
    by_contra hf
    have := (hu.full (by simpa using hf)).2
    rw [hk.t, hk.b] at this
    simp at this
  rcases hp with hp | hp
  · obtain ⟨i1, i2, i3, i4, i5, i6⟩ := burn_ok hc hi hp
    unfold tail
    dsimp only
    rw [show s.burning = true by rw [hp.b]; rfl, if_pos rfl]
    generalize burn c s = u at *
    rcases i6 with ⟨j1, j2, j3, j4⟩ | ⟨j1, j2, j3, j4⟩
    · rw [show u.cleaning = false by rw [j1.k]; rfl, if_neg (by simp)]
      exact ⟨⟨i1, i2.le, fun _ => i2, i4, Or.inr ⟨by rw [j1.b]; rfl, j2⟩⟩, i3, i5, Or.inl ⟨j3, j4⟩, .burn, j1, Or.inl j2⟩
    · rw [show u.cleaning = true by rw [j1.k]; rfl, if_pos rfl]
      obtain ⟨k1, k2, k3, k4, k5, k6, k7, k8, k9, k10⟩ := clean_ok active hc i1 j1 i5
      generalize clean c active u = w at *
      have hw0 := k1.rem
      have hrem : w.rem ≤ max 0 (s.rem - 3600) ∧ w.rem ≤ u.rem ∧ ∃ p, Is w p ∧ (w.rem = 0 ∨ (p = .transit ∧ w.rem ≤ s.rem - 3600)) := by
        have hu := i1.rem
        rcases k10 with ⟨a, b⟩ | ⟨a, b⟩ | ⟨a, b⟩
        · exact ⟨by rw [b]; exact le_max_left _ _, by rw [b]; exact hu, _, a, Or.inl b⟩
        · rw [j2] at b
          exact ⟨le_max_of_le_right (by linarith), by linarith, _, a, Or.inr ⟨rfl, by linarith⟩⟩
        · exact ⟨by rw [b]; exact le_max_left _ _, by rw [b]; exact hu, _, a, Or.inl b⟩
      refine ⟨⟨k1, by linarith, fun ha => (k3 ha).trans i2, hrem.2.1.trans i4, Or.inl ?_⟩, k5.trans i3, k9, Or.inr ⟨hp, ?_, hrem.1⟩, ?_⟩
      · rw [k7, k8]; exact j4
      · rw [k4, k6]; exact j3
      · obtain ⟨p, h1, h2⟩ := hrem.2.2
        exact ⟨p, h1, h2.imp id (fun h => ⟨h.1, fun _ => h.2⟩)⟩
  · have hf := full_false s hi hp
    obtain ⟨k1, k2, k3, k4, k5, k6, k7, k8, k9, k10⟩ := clean_ok active hc hi hp hf
    unfold tail
    dsimp only
    have e1 : s.burning = false := by rw [hp.b]; rfl
    have e2 : s.cleaning = true := by rw [hp.k]; rfl
    simp only [e1, e2, Bool.false_eq_true, if_false, if_true]
    generalize clean c active s = w at *
    have hk := hi.clean
    have hsr := hi.rem
    have hnb : ¬ Is s .burn := fun h => by have := hp.b; rw [h.b] at this; simp at this
    refine ⟨⟨k1, k2, k3, ?_, Or.inl (by rw [k7, k8]; ring)⟩, k5, k9, Or.inl ⟨k4, k6⟩, ?_⟩
    · rcases k10 with ⟨a, b⟩ | ⟨a, b⟩ | ⟨a, b⟩
      · rw [b]; exact hsr
      · linarith
      · rw [b]; exact hsr
    · rcases k10 with ⟨a, b⟩ | ⟨a, b⟩ | ⟨a, b⟩
      · exact ⟨_, a, Or.inl b⟩
      · exact ⟨_, a, Or.inr ⟨rfl, fun h => absurd h hnb⟩⟩
      · exact ⟨_, a, Or.inl b⟩

theorem tail_id {c : Cfg} {s : St} (active : Bool) (hb : s.burning = false) (hk : s.cleaning = false) : tail c active s = s := by
  unfold tail
  dsimp only
  simp only [hb, hk, Bool.false_eq_true, if_false]

/-- how far the response is from the next long wait -/
def rank (p : Phase) (full : Bool) : Nat :=
  match p with
  | .clean => 2
  | .transit => if full then 0 else 1
  | _ => 0

/-- the pass after collecting -/
theorem mid_ok {c : Cfg} {s : St} (active : Bool) (hc : Good c) (hi : Inv c s) {p : Phase} (hp : Is s p)
    (hr : p = .transit → 0 < s.rem) (hn : p = .burn ∨ p = .clean ∨ p = .transit) :
    Keep c active s (mid c active s) ∧ (mid c active s).tsCollected = s.tsCollected ∧
    (((mid c active s).cap = s.cap ∧ (mid c active s).tsBurned = s.tsBurned) ∨
      ((p = .burn ∨ s.full = true) ∧ (mid c active s).cap = s.cap + (mid c active s).tsBurned ∧ (mid c active s).rem ≤ max 0 (s.rem - 3600))) ∧
    (∃ q, Is (mid c active s) q ∧ ((mid c active s).rem = 0 ∨
      (q ≠ .idle ∧ ((mid c active s).rem ≤ s.rem - 3600 ∨ rank q (mid c active s).full < rank p s.full)))) := by
  unfold mid
  rcases hn with rfl | rfl | rfl
  · rw [show s.transiting = false by rw [hp.t]; rfl, if_neg (by simp)]
    obtain ⟨t1, t2, t3, t4, q, t5, t6⟩ := tail_ok active hc hi (Or.inl hp)
    refine ⟨t1, t2, t4.imp id (fun h => ⟨Or.inl rfl, h.2⟩), q, t5, t6.imp id ?_⟩
    rintro ⟨rfl, h⟩
    exact ⟨by simp, Or.inl (h hp)⟩
  · rw [show s.transiting = false by rw [hp.t]; rfl, if_neg (by simp)]
    obtain ⟨t1, t2, t3, t4, q, t5, t6⟩ := tail_ok active hc hi (Or.inr hp)
    refine ⟨t1, t2, Or.inl ?_, q, t5, t6.imp id ?_⟩
    · rcases t4 with h | h
      · exact h
      · have := h.1.b; rw [hp.b] at this; simp at this
    · rintro ⟨rfl, h⟩
      exact ⟨by simp, Or.inr (by simp [rank, t3])⟩
  · rw [show s.transiting = true by rw [hp.t]; rfl, if_pos rfl]
    obtain ⟨i1, i2, i3, i4, i5, i6, i7⟩ := transit_ok hi hp (hr rfl)
    obtain ⟨b1, b2, b3⟩ := transit_tb s
    generalize transit s = u at *
    have hk : Keep c active s u := ⟨i1, i2.le, fun _ => i2, i6, Or.inl (by rw [b1, b2]; ring)⟩
    rcases i7 with ⟨a, b⟩ | ⟨a, b⟩ | ⟨a, b⟩
    · rw [tail_id active (by rw [a.b]; rfl) (by rw [a.k]; rfl)]
      exact ⟨hk, i4, Or.inl ⟨i3, i5⟩, _, a, Or.inl b⟩
    · obtain ⟨t1, t2, t3, t4, q, t5, t6⟩ := tail_ok active hc i1 (Or.inl a)
      refine ⟨hk.trans t1 (fun _ _ => Or.inr (by rw [b1, b2]; ring)), t2.trans i4, ?_, q, t5, t6.imp id ?_⟩
      · rcases t4 with h | h
        · exact Or.inl ⟨h.1.trans i3, h.2.trans i5⟩
        · refine Or.inr ⟨Or.inr b, by rw [h.2.1, i3], h.2.2.trans ?_⟩
          exact max_le_max (le_refl _) (by linarith)
      · rintro ⟨rfl, h⟩
        exact ⟨by simp, Or.inl (by linarith [h a])⟩
    · rw [tail_id active (by rw [a.b]; rfl) (by rw [a.k]; rfl)]
      refine ⟨hk, i4, Or.inl ⟨i3, i5⟩, _, a, ?_⟩
      rcases eq_or_ne u.rem 0 with h | h
      · exact Or.inl h
      · exact Or.inr ⟨by simp, Or.inr (by simp [rank, b])⟩

/-- A pass: what it keeps, and that it ends the step, or takes an hour, or goes on to the next phase. -/
theorem pass_ok {c : Cfg} {o : Oil} {s : St} (active : Bool) (hc : Good c) (ho : GoodOil o) (hi : Inv c s) {p : Phase} (hp : Is s p)
    (hr : 0 < s.rem) (hn : p = .idle → active = true) :
    Keep c active s (pass c o active s) ∧
    (s.tsCollected = 0 → s.tsBurned = 0 →
      ((pass c o active s).cap = s.cap - (pass c o active s).tsCollected + (pass c o active s).tsBurned) ∧
      ((pass c o active s).rem ≤ max 0 (s.rem - 3600) ∨
        ((pass c o active s).tsCollected = 0 ∧ (pass c o active s).tsBurned = 0))) ∧
    (∃ q, Is (pass c o active s) q ∧ ((pass c o active s).rem = 0 ∨
      (q ≠ .idle ∧ ((pass c o active s).rem ≤ s.rem - 3600 ∨ rank q (pass c o active s).full < rank p s.full)))) := by
  -- from collecting
  have coll : ∀ u : St, Inv c u → Is u .collect → 0 < u.rem → 
      Keep c active u (mid c active (collect c o u)) ∧
      (u.tsCollected = 0 → u.tsBurned = 0 →
        ((mid c active (collect c o u)).cap = u.cap - (mid c active (collect c o u)).tsCollected + (mid c active (collect c o u)).tsBurned) ∧
        ((mid c active (collect c o u)).rem ≤ max 0 (u.rem - 3600) ∨
          ((mid c active (collect c o u)).tsCollected = 0 ∧ (mid c active (collect c o u)).tsBurned = 0))) ∧
      (∃ q, Is (mid c active (collect c o u)) q ∧ ((mid c active (collect c o u)).rem = 0 ∨
        (q ≠ .idle ∧ (mid c active (collect c o u)).rem ≤ u.rem - 3600))) := by
    intro u hu hpu hru
    obtain ⟨i1, i2, i3, i4, i5, i6⟩ := collect_ok hc ho hu hpu hru
    obtain ⟨b1, b2⟩ := collect_tb c o u
    generalize collect c o u = v at *
    have hk : Keep c active u v := ⟨i1, i2.le, fun _ => i2, i5, Or.inl (by rw [b1, b2]; ring)⟩
    rcases i6 with ⟨a, b⟩ | ⟨a, b, d⟩
    · have : mid c active v = v := by
        unfold mid
        rw [show v.transiting = false by rw [a.t]; rfl, if_neg (by simp)]
        exact tail_id active (by rw [a.b]; rfl) (by rw [a.k]; rfl)
      rw [this]
      refine ⟨hk, fun _ h2 => ⟨by rw [i3, i4, h2]; ring, Or.inl (by rw [b]; exact le_max_left _ _)⟩, _, a, Or.inl b⟩
    · obtain ⟨t1, t2, t4, q, t5, t6⟩ := mid_ok active hc i1 a (fun _ => d) (by simp)
      refine ⟨hk.trans t1 (fun _ _ => Or.inr (by rw [b1, b2]; ring)), ?_, q, t5, ?_⟩
      · intro _ h2
        rcases t4 with h | h
        · refine ⟨by rw [h.1, h.2, t2, i3, i4, h2]; ring, ?_⟩
          rcases t6 with h0 | ⟨_, h0 | h0⟩
          · exact Or.inl (by rw [h0]; exact le_max_left _ _)
          · exact Or.inl (le_max_of_le_right (by linarith))
          · simp [rank, b] at h0
        · refine ⟨by rw [h.2.1, t2, i3], Or.inl (h.2.2.trans ?_)⟩
          exact max_le_max (le_refl _) (by linarith)
      · rcases t6 with h0 | ⟨h1, h0 | h0⟩
        · exact Or.inl h0
        · exact Or.inr ⟨h1, by linarith⟩
        · simp [rank, b] at h0
  rw [pass_eq]
  have hmid : p = .burn ∨ p = .clean ∨ p = .transit → 
      Keep c active s (mid c active s) ∧
      (s.tsCollected = 0 → s.tsBurned = 0 →
        ((mid c active s).cap = s.cap - (mid c active s).tsCollected + (mid c active s).tsBurned) ∧
        ((mid c active s).rem ≤ max 0 (s.rem - 3600) ∨
          ((mid c active s).tsCollected = 0 ∧ (mid c active s).tsBurned = 0))) ∧
      (∃ q, Is (mid c active s) q ∧ ((mid c active s).rem = 0 ∨
        (q ≠ .idle ∧ ((mid c active s).rem ≤ s.rem - 3600 ∨ rank q (mid c active s).full < rank p s.full)))) := by
    intro h
    obtain ⟨t1, t2, t4, q, t5, t6⟩ := mid_ok active hc hi hp (fun _ => hr) h
    refine ⟨t1, fun h1 h2 => ?_, q, t5, t6⟩
    rcases t4 with h | h
    · exact ⟨by rw [h.1, h.2, t2, h1, h2]; ring, Or.inr ⟨t2.trans h1, h.2.trans h2⟩⟩
    · exact ⟨by rw [h.2.1, t2, h1]; ring, Or.inl h.2.2⟩
  cases p with
  | idle =>
    have ha := hn rfl
    have e : (!s.collecting && !s.transiting && !s.burning && !s.cleaning && active) = true := by
      rw [hp.c, hp.t, hp.b, hp.k, ha]; rfl
    rw [e, if_pos rfl, if_pos rfl]
    obtain ⟨k1, k2, q, k3, k4⟩ := coll { s with collecting := true }
      ⟨hi.cap0, hi.cap1, hi.off, hi.burn, hi.clean, hi.rate, hi.full, hi.start, hi.log, hi.rem⟩ ⟨rfl, hp.t, hp.b, hp.k⟩ hr
    exact ⟨⟨k1.inv, k1.le, k1.eq, k1.rem, k1.tb⟩, k2, q, k3, k4.imp id (fun h => ⟨h.1, Or.inl h.2⟩)⟩
  | collect =>
    have e : (!s.collecting && !s.transiting && !s.burning && !s.cleaning && active) = false := by rw [hp.c]; simp
    have e2 : s.collecting = true := by rw [hp.c]; rfl
    simp only [e, Bool.false_eq_true, if_false]
    simp only [e2, if_true]
    obtain ⟨k1, k2, q, k3, k4⟩ := coll s hi hp hr
    exact ⟨k1, k2, q, k3, k4.imp id (fun h => ⟨h.1, Or.inl h.2⟩)⟩
  | transit =>
    have e : (!s.collecting && !s.transiting && !s.burning && !s.cleaning && active) = false := by rw [hp.t]; simp
    have e2 : s.collecting = false := by rw [hp.c]; rfl
    simp only [e, Bool.false_eq_true, if_false]
    simp only [e2, Bool.false_eq_true, if_false]
    exact hmid (by simp)
  | burn =>
    have e : (!s.collecting && !s.transiting && !s.burning && !s.cleaning && active) = false := by rw [hp.b]; simp
    have e2 : s.collecting = false := by rw [hp.c]; rfl
    simp only [e, Bool.false_eq_true, if_false]
    simp only [e2, Bool.false_eq_true, if_false]
    exact hmid (by simp)
  | clean =>
    have e : (!s.collecting && !s.transiting && !s.burning && !s.cleaning && active) = false := by rw [hp.k]; simp
    have e2 : s.collecting = false := by rw [hp.c]; rfl
    simp only [e, Bool.false_eq_true, if_false]
    simp only [e2, Bool.false_eq_true, if_false]
    exact hmid (by simp)

end Verif.Roc.Burn
