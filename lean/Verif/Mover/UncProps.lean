import Verif.Mover.UncLemmas
import Verif.Mover.UncSpec

/-!
# C97, C98: the draws of uncertain elements over a run
-/

namespace Verif.Mover

variable {D : Type}

/-- What holds between steps of a run that has shown `past`. -/
structure Inv (c : UPar) (t0 dt : Rat) (past : List (Row D)) (s : St D) : Prop where
  nodup : s.elems.Nodup
  lt : ∀ e ∈ s.elems, e < s.nextId
  pastLt : ∀ r ∈ past, ∀ p ∈ r.tab, p.1 < s.nextId
  len : s.unc.list.length ≤ s.elems.length
  delay : s.unc.list ≠ [] → c.delay ≤ s.unc.setAt
  align : ∀ r ∈ past, ∀ p ∈ r.tab, p.1 ∈ s.elems →
    (r.setAt = s.unc.setAt ∧ p ∈ s.elems.zip s.unc.list) ∨ r.setAt + c.duration ≤ s.unc.setAt
  fst : s.unc.first = true → s.unc.list = [] ∧ s.unc.setAt = 0
  later : s.unc.first = false → ∃ ks : Nat, ks < s.k ∧ s.unc.start = t0 + ks * dt ∧ s.unc.setAt ≤ ((s.k : Rat) - 1 - ks) * |dt|
  age : s.unc.setAt = 0 ∨ s.unc.first = false

theorem newIds_mem {m n e : Nat} : e ∈ newIds m n ↔ m ≤ e ∧ e < m + n := by
  unfold newIds
  rw [List.mem_range'_1]

theorem newIds_nodup (m n : Nat) : (newIds m n).Nodup := List.nodup_range'

theorem append_new_nodup {l : List Nat} {m : Nat} (n : Nat) (h : l.Nodup) (hlt : ∀ e ∈ l, e < m) : (l ++ newIds m n).Nodup := by
  rw [List.nodup_append]
  refine ⟨h, newIds_nodup m n, ?_⟩
  intro a ha b hb hab
  have := hlt a ha
  have := (newIds_mem.mp hb).1
  omega

theorem applied_of_len {list : List D} {elems : List Nat} (h : list = [] ∨ list.length = elems.length) :
    applied true list elems = some (elems.zip list) := by
  unfold applied
  by_cases he : elems = []
  · rw [if_pos (Or.inr he), he]; simp
  · rw [if_neg (by simp [he])]
    rcases h with h | h
    · subst h; simp
    · match list, h with
      | [], h => simp
      | [d], h =>
          match elems, h with
          | [e], _ => rfl
      | d :: d' :: l, h =>
          simp only [h, if_true]

/-- Times since the start of the mover only grow. -/
theorem setAt_le_elapsed {c : UPar} {t0 dt : Rat} {past : List (Row D)} {s : St D} (hi : Inv c t0 dt past s) :
    s.unc.setAt ≤ |t0 + s.k * dt - (markStart (t0 + s.k * dt) s.unc).start| := by
  unfold markStart
  by_cases hf : s.unc.first = true
  · rw [if_pos hf, (hi.fst hf).2]
    exact abs_nonneg _
  · rw [if_neg hf]
    have hf' : s.unc.first = false := by simpa using hf
    obtain ⟨ks, hks, hst, hset⟩ := hi.later hf'
    rw [hst, show t0 + (s.k : Rat) * dt - (t0 + ks * dt) = ((s.k : Rat) - ks) * dt by ring, abs_mul]
    have h1 : (ks : Rat) + 1 ≤ s.k := by exact_mod_cast hks
    rw [abs_of_nonneg (by linarith : (0 : Rat) ≤ (s.k : Rat) - ks)]
    have := abs_nonneg dt
    nlinarith

/-- The start of the mover after `prepare_for_model_step` is that of the first active step. -/
theorem start_known {c : UPar} {t0 dt : Rat} {past : List (Row D)} {s : St D} (hi : Inv c t0 dt past s) :
    ∃ ks : Nat, ks ≤ s.k ∧ (markStart (t0 + s.k * dt) s.unc).start = t0 + ks * dt := by
  unfold markStart
  by_cases hf : s.unc.first = true
  · rw [if_pos hf]
    exact ⟨s.k, le_refl _, rfl⟩
  · rw [if_neg hf]
    obtain ⟨ks, hks, hst, -⟩ := hi.later (by simpa using hf)
    exact ⟨ks, le_of_lt hks, hst⟩

/-- The marks of an active step with aligned rows. -/
theorem stepDone_aligned {list : List D} {elems : List Nat} {gone : Nat → Bool} {u u2 : Unc D} (hu : u.list = list)
    (h : list = [] ∨ list.length = elems.length) (hd : stepDone true (elems.map gone) u = some u2) :
    u2.setAt = u.setAt ∧ u2.start = u.start ∧ u2.first = false ∧
      (elems.filter (fun e => !gone e)).zip u2.list = (elems.zip list).filter (fun p => !gone p.1) ∧
      u2.list.length ≤ (elems.filter (fun e => !gone e)).length ∧ (list = [] → u2.list = []) := by
  subst hu
  unfold stepDone at hd
  simp only [if_true] at hd
  by_cases hw : whereTrue (elems.map gone) = []
  · rw [if_pos hw] at hd
    have hg := whereTrue_eq_nil hw
    cases Option.some.inj hd
    have hf : elems.filter (fun e => !gone e) = elems := by
      rw [List.filter_eq_self]
      intro e he
      simp [hg e he]
    refine ⟨rfl, rfl, rfl, ?_, ?_, fun h0 => h0⟩
    · rw [hf]
      symm
      rw [List.filter_eq_self]
      intro p hp
      simp [hg p.1 (List.of_mem_zip hp).1]
    · rw [hf]
      rcases h with h | h
      · simp [h]
      · exact le_of_eq h
  · rw [if_neg hw] at hd
    rcases h with h | h
    · rw [h, npDelete_nil hw] at hd
      cases hd
    · rw [npDelete_aligned h] at hd
      cases Option.some.inj hd
      refine ⟨rfl, rfl, rfl, zip_deleted h, ?_, ?_⟩
      · rw [filter_zip_fst h, List.length_map, List.length_map]
      · intro h0
        rw [h0]
        simp

/-- What a step shows, compared with what the run showed before. -/
structure Shows (c : UPar) (past : List (Row D)) (r : Row D) : Prop where
  keeps : ∀ q ∈ past, ∀ e d d', (e, d) ∈ q.tab → (e, d') ∈ r.tab → r.elapsed < q.setAt + c.duration → d' = d
  young : r.tab ≠ [] → r.setAt ≤ r.elapsed ∧ (r.elapsed < r.setAt + c.duration ∨ r.setAt = r.elapsed)
  one : (r.tab.map Prod.fst).Nodup ∧ ∀ p ∈ r.tab, p.1 ∈ r.elems

theorem step_inv {c : UPar} {wind : Bool} {t0 dt : Rat} {past : List (Row D)} {i : In D} {s s' : St D} {r : Row D}
    (hi : Inv c t0 dt past s) (hq : i.active = false → ∀ e, i.gone e = false) (hs : step c wind t0 dt i s = some (r, s')) :
    Inv c t0 dt (past ++ [r]) s' ∧ Shows c past r := by
  have hlt1 : ∀ e ∈ s.elems ++ newIds s.nextId i.rel1, e < s.nextId + i.rel1 := by
    intro e he
    rcases List.mem_append.mp he with he | he
    · exact lt_of_lt_of_le (hi.lt e he) (Nat.le_add_right _ _)
    · exact (newIds_mem.mp he).2
  have hnd1 := append_new_nodup i.rel1 hi.nodup hi.lt
  unfold step at hs
  cases ha : i.active with
  | false =>
      have hp : prepare c wind i.ω i.ω' false (s.elems ++ newIds s.nextId i.rel1).length (t0 + s.k * dt) s.unc = s.unc := rfl
      have happ : applied false s.unc.list (s.elems ++ newIds s.nextId i.rel1) = some [] := by
        unfold applied; rw [if_pos (Or.inl rfl)]
      have hsd : stepDone false ((s.elems ++ newIds s.nextId i.rel1).map i.gone) s.unc = some s.unc := rfl
      simp only [ha, hp, happ, hsd, Option.some.injEq, Prod.mk.injEq] at hs
      obtain ⟨rfl, rfl⟩ := hs
      have hf : (s.elems ++ newIds s.nextId i.rel1).filter (fun e => !i.gone e) = s.elems ++ newIds s.nextId i.rel1 := by
        rw [List.filter_eq_self]
        intro e _
        simp [hq ha e]
      refine ⟨⟨?_, ?_, ?_, ?_, hi.delay, ?_, hi.fst, ?_, hi.age⟩, ⟨?_, fun h => absurd rfl h, by simp⟩⟩
      · change ((s.elems ++ newIds s.nextId i.rel1).filter _ ++ newIds _ _).Nodup
        rw [hf]
        exact append_new_nodup _ hnd1 hlt1
      · intro e he
        change e ∈ (s.elems ++ newIds s.nextId i.rel1).filter _ ++ newIds _ _ at he
        rw [hf] at he
        change e < s.nextId + i.rel1 + i.rel2
        rcases List.mem_append.mp he with he | he
        · exact lt_of_lt_of_le (hlt1 e he) (Nat.le_add_right _ _)
        · exact (newIds_mem.mp he).2
      · intro q hq' p hp
        change p.1 < s.nextId + i.rel1 + i.rel2
        rcases List.mem_append.mp hq' with h | h
        · have := hi.pastLt q h p hp
          omega
        · rw [List.mem_singleton] at h
          subst h
          cases hp
      · change s.unc.list.length ≤ ((s.elems ++ newIds s.nextId i.rel1).filter _ ++ newIds _ _).length
        rw [hf, List.length_append, List.length_append]
        have := hi.len
        omega
      · intro q hq' p hp hpe
        change p.1 ∈ (s.elems ++ newIds s.nextId i.rel1).filter _ ++ newIds _ _ at hpe
        change _ ∨ q.setAt + c.duration ≤ s.unc.setAt
        rw [hf, List.append_assoc] at hpe
        rcases List.mem_append.mp hq' with h | h
        · have hpl := hi.pastLt q h p hp
          have : p.1 ∈ s.elems := by
            rcases List.mem_append.mp hpe with he | he
            · exact he
            · exfalso
              rcases List.mem_append.mp he with he | he
              · have := (newIds_mem.mp he).1; omega
              · have := (newIds_mem.mp he).1; omega
          rcases hi.align q h p hp this with ⟨h1, h2⟩ | h1
          · refine Or.inl ⟨h1, ?_⟩
            change p ∈ ((s.elems ++ newIds s.nextId i.rel1).filter _ ++ newIds _ _).zip s.unc.list
            rw [hf, List.append_assoc]
            have := zip_append_prefix hi.len (newIds s.nextId i.rel1 ++ newIds (s.nextId + i.rel1) i.rel2) [] h2
            rwa [List.append_nil] at this
          · exact Or.inr h1
        · rw [List.mem_singleton] at h
          subst h
          cases hp
      · intro hff
        obtain ⟨ks, h1, h2, h3⟩ := hi.later hff
        refine ⟨ks, Nat.lt_succ_of_lt h1, h2, le_trans h3 ?_⟩
        have := abs_nonneg dt
        push_cast
        nlinarith
      · intro q _ e d d' _ h2
        cases h2
  | true =>
      simp only [ha] at hs
      have hset := setAt_le_elapsed hi
      have hP := prepare_prepared (c := c) (wind := wind) (ω := i.ω) (ω' := i.ω') (t := t0 + s.k * dt) (s := s.unc)
        (num := (s.elems ++ newIds s.nextId i.rel1).length)
        (by rw [List.length_append]; have := hi.len; omega) hset hi.delay
      obtain ⟨ks, hks, hst⟩ := start_known hi
      generalize hu : prepare c wind i.ω i.ω' true (s.elems ++ newIds s.nextId i.rel1).length (t0 + s.k * dt) s.unc = u1 at hs hP
      have hm : (markStart (t0 + s.k * dt) s.unc).list = s.unc.list := by unfold markStart; split <;> rfl
      have hm2 : (markStart (t0 + s.k * dt) s.unc).setAt = s.unc.setAt := by unfold markStart; split <;> rfl
      rw [hst] at hP
      have hu1s : u1.start = t0 + ks * dt := by rw [hP.start, hst]
      generalize hes : s.elems ++ newIds s.nextId i.rel1 = elems1 at *
      rw [applied_of_len hP.len] at hs
      simp only at hs
      cases hsd : stepDone true (elems1.map i.gone) u1 with
      | none => rw [hsd] at hs; cases hs
      | some u2 =>
          rw [hsd] at hs
          simp only [Option.some.injEq, Prod.mk.injEq] at hs
          obtain ⟨rfl, rfl⟩ := hs
          obtain ⟨hd1, hd2, hd3, hd4, hd5, hd6⟩ := stepDone_aligned rfl hP.len hsd
          have hel : |t0 + (s.k : Rat) * dt - u1.start| = |t0 + (s.k : Rat) * dt - (t0 + ks * dt)| := by rw [hu1s]
          -- what the run showed before, as of the moment of the move
          have hnow : ∀ q ∈ past, ∀ p ∈ q.tab, p.1 ∈ elems1 →
              (q.setAt = u1.setAt ∧ p ∈ elems1.zip u1.list) ∨ q.setAt + c.duration ≤ u1.setAt := by
            intro q h p hp hpe
            have hpl := hi.pastLt q h p hp
            have hmem : p.1 ∈ s.elems := by
              rw [← hes] at hpe
              rcases List.mem_append.mp hpe with he | he
              · exact he
              · have := (newIds_mem.mp he).1; omega
            rcases hP.how with ⟨hk1, ext, hk2⟩ | ⟨hk1, hk2⟩
            · rw [hm2] at hk1
              rw [hm] at hk2
              rcases hi.align q h p hp hmem with ⟨h1, h2⟩ | h1
              · refine Or.inl ⟨h1.trans hk1.symm, ?_⟩
                rw [← hes, hk2]
                exact zip_append_prefix hi.len _ _ h2
              · exact Or.inr (hk1.symm ▸ h1)
            · refine Or.inr ?_
              rcases hi.align q h p hp hmem with ⟨h1, h2⟩ | h1
              · rcases hk2 with hk2 | hk2
                · rw [hm] at hk2
                  rw [hk2] at h2
                  simp at h2
                · rw [hm2] at hk2
                  rw [hk1, h1]
                  exact hk2
              · rw [hk1]
                rw [hst] at hset
                exact le_trans h1 hset
          refine ⟨⟨?_, ?_, ?_, ?_, ?_, ?_, ?_, ?_, Or.inr hd3⟩, ⟨?_, ?_, ?_⟩⟩
          · change (elems1.filter (fun e => !i.gone e) ++ newIds _ _).Nodup
            refine append_new_nodup _ (hnd1.filter _) ?_
            intro e he
            exact hlt1 e (List.mem_of_mem_filter he)
          · intro e he
            change e < s.nextId + i.rel1 + i.rel2
            rcases List.mem_append.mp he with he | he
            · exact lt_of_lt_of_le (hlt1 e (List.mem_of_mem_filter he)) (Nat.le_add_right _ _)
            · exact (newIds_mem.mp he).2
          · intro q hq' p hp
            change p.1 < s.nextId + i.rel1 + i.rel2
            rcases List.mem_append.mp hq' with h | h
            · have := hi.pastLt q h p hp
              omega
            · rw [List.mem_singleton] at h
              subst h
              have := hlt1 p.1 (List.of_mem_zip (show (p.1, p.2) ∈ elems1.zip u1.list from hp)).1
              omega
          · change u2.list.length ≤ (elems1.filter (fun e => !i.gone e) ++ newIds _ _).length
            rw [List.length_append]
            omega
          · intro hne
            change c.delay ≤ u2.setAt
            rw [hd1]
            refine hP.delay ?_
            intro h0
            exact hne (hd6 h0)
          · intro q hq' p hp hpe
            change p.1 ∈ elems1.filter (fun e => !i.gone e) ++ newIds _ _ at hpe
            change (q.setAt = u2.setAt ∧ p ∈ (elems1.filter (fun e => !i.gone e) ++ newIds _ _).zip u2.list)
              ∨ q.setAt + c.duration ≤ u2.setAt
            rw [hd1]
            have hpl : p.1 < s.nextId + i.rel1 := by
              rcases List.mem_append.mp hq' with h | h
              · have := hi.pastLt q h p hp; omega
              · rw [List.mem_singleton] at h
                subst h
                exact hlt1 p.1 (List.of_mem_zip (show (p.1, p.2) ∈ elems1.zip u1.list from hp)).1
            have hkept : p.1 ∈ elems1.filter (fun e => !i.gone e) := by
              rcases List.mem_append.mp hpe with he | he
              · exact he
              · have := (newIds_mem.mp he).1; omega
            have hpres : p ∈ elems1.zip u1.list → p ∈ (elems1.filter (fun e => !i.gone e) ++ newIds (s.nextId + i.rel1) i.rel2).zip u2.list := by
              intro h
              have hg : p ∈ (elems1.filter (fun e => !i.gone e)).zip u2.list := by
                rw [hd4, List.mem_filter]
                exact ⟨h, by simpa using (List.mem_filter.mp hkept).2⟩
              have := zip_append_prefix hd5 (newIds (s.nextId + i.rel1) i.rel2) [] hg
              rwa [List.append_nil] at this
            rcases List.mem_append.mp hq' with h | h
            · rcases hnow q h p hp (List.mem_of_mem_filter hkept) with ⟨h1, h2⟩ | h1
              · exact Or.inl ⟨h1, hpres h2⟩
              · exact Or.inr h1
            · rw [List.mem_singleton] at h
              subst h
              exact Or.inl ⟨rfl, hpres hp⟩
          · intro hc
            change u2.first = true at hc
            rw [hd3] at hc
            cases hc
          · intro _
            refine ⟨ks, Nat.lt_succ_of_le hks, by rw [← hu1s]; exact hd2, ?_⟩
            change u2.setAt ≤ (((s.k + 1 : Nat) : Rat) - 1 - ks) * |dt|
            rw [hd1]
            refine le_trans hP.setAt ?_
            have h1 : (ks : Rat) ≤ s.k := by exact_mod_cast hks
            rw [show t0 + (s.k : Rat) * dt - (t0 + ks * dt) = ((s.k : Rat) - ks) * dt by ring, abs_mul,
              abs_of_nonneg (by linarith : (0 : Rat) ≤ (s.k : Rat) - ks)]
            push_cast
            apply le_of_eq
            ring
          · intro q h e d d' h1 h2 h3
            have he1 := (List.of_mem_zip h2).1
            rcases hnow q h (e, d) h1 he1 with ⟨_, h5⟩ | h5
            · exact (nodup_zip_unique hnd1 h5 h2).symm
            · change |t0 + (s.k : Rat) * dt - u1.start| < _ at h3
              rw [hel] at h3
              exact absurd (le_trans h5 hP.setAt) (not_le.mpr h3)
          · intro hne
            have hne' : u1.list ≠ [] := by
              intro h0
              apply hne
              change elems1.zip u1.list = []
              rw [h0]; simp
            change u1.setAt ≤ |t0 + (s.k : Rat) * dt - u1.start| ∧ (|t0 + (s.k : Rat) * dt - u1.start| < _ ∨ _ = |t0 + (s.k : Rat) * dt - u1.start|)
            rw [hel]
            exact ⟨hP.setAt, hP.age hne'⟩
          · refine ⟨?_, fun p hp => (List.of_mem_zip (show (p.1, p.2) ∈ elems1.zip u1.list from hp)).1⟩
            change ((elems1.zip u1.list).map Prod.fst).Nodup
            rcases hP.len with h0 | h0
            · rw [h0]; simp
            · rw [List.map_fst_zip (le_of_eq h0.symm)]
              exact hnd1

theorem inv_init (c : UPar) (t0 dt : Rat) (n : Nat) : Inv c t0 dt ([] : List (Row D)) (St.init n) := by
  refine ⟨newIds_nodup 0 n, ?_, by simp, by simp [St.init, Unc.begin], by simp [St.init, Unc.begin], by simp, by simp [St.init, Unc.begin],
    by simp [St.init, Unc.begin], by simp [St.init, Unc.begin]⟩
  intro e he
  have := (newIds_mem.mp he).2
  simpa [St.init] using this

theorem run_shows {c : UPar} {wind : Bool} {t0 dt : Rat} : ∀ {ins : List (In D)} {past rows : List (Row D)} {s s' : St D},
    Inv c t0 dt past s → (∀ i ∈ ins, i.active = false → ∀ e, i.gone e = false) → run c wind t0 dt ins s = some (rows, s') →
    (∀ q ∈ past, ∀ r ∈ rows, ∀ e d d', (e, d) ∈ q.tab → (e, d') ∈ r.tab → r.elapsed < q.setAt + c.duration → d' = d) ∧
      Keeps c.duration rows ∧ Young c.duration rows ∧ OneEach rows
  | [], past, rows, s, s', _, _, hr => by
      cases Option.some.inj hr
      exact ⟨fun _ _ r h => (by cases h), List.Pairwise.nil, fun r h => (by cases h), fun r h => (by cases h)⟩
  | i :: is, past, rows, s, s', hi, hq, hr => by
      unfold run at hr
      cases hs : step c wind t0 dt i s with
      | none => rw [hs] at hr; cases hr
      | some rs =>
          obtain ⟨r, s1⟩ := rs
          rw [hs] at hr
          simp only at hr
          cases hr2 : run c wind t0 dt is s1 with
          | none => rw [hr2] at hr; cases hr
          | some x =>
              obtain ⟨rs2, s2⟩ := x
              rw [hr2] at hr
              simp only [Option.some.injEq, Prod.mk.injEq] at hr
              obtain ⟨rfl, rfl⟩ := hr
              obtain ⟨hi1, hsh⟩ := step_inv hi (hq i List.mem_cons_self) hs
              obtain ⟨h1, h2, h3, h4⟩ := run_shows hi1 (fun j hj => hq j (List.mem_cons_of_mem _ hj)) hr2
              refine ⟨?_, ?_, ?_, ?_⟩
              · intro q hqp r' hr'
                rcases List.mem_cons.mp hr' with rfl | hr'
                · exact hsh.keeps q hqp
                · exact h1 q (List.mem_append_left _ hqp) r' hr'
              · exact List.Pairwise.cons (fun r' hr' => h1 r (by simp) r' hr') h2
              · intro r' hr'
                rcases List.mem_cons.mp hr' with rfl | hr'
                · exact hsh.young
                · exact h3 r' hr'
              · intro r' hr'
                rcases List.mem_cons.mp hr' with rfl | hr'
                · exact hsh.one
                · exact h4 r' hr'

/-! ## C97 -/

/-- The claim: in every run each uncertain element keeps its own draw while it is young. -/
def C97_claim : Prop :=
  ∀ (c : UPar) (wind : Bool) (t0 dt : Rat) (n : Nat) (ins : List (In Nat)) (rows : List (Row Nat)) (s' : St Nat),
    run c wind t0 dt ins (St.init n) = some (rows, s') → Keeps c.duration rows

/-- C97 as far as it holds: in a run, of any length and with any releases and removals, in which no element is removed in a step
in which the mover is not active, every uncertain element keeps the numbers drawn for it until they are `uncertain_duration` old,
no number is older than that, and each element has at most one row.  Missing: removals while the mover is not active. -/
theorem C97_keeps_partial {c : UPar} {wind : Bool} {t0 dt : Rat} {n : Nat} {ins : List (In D)} {rows : List (Row D)} {s' : St D}
    (hq : ∀ i ∈ ins, i.active = false → ∀ e, i.gone e = false) (hr : run c wind t0 dt ins (St.init n) = some (rows, s')) :
    Keeps c.duration rows ∧ Young c.duration rows ∧ OneEach rows :=
  (run_shows (inv_init c t0 dt n) hq hr).2

/-- The steps of the counterexample: a mover that is off in the second step, in which element 0 leaves and one is released. -/
def offStep : List (In Nat) :=
  [⟨0, 0, true, fun _ => false, id, id⟩, ⟨0, 1, false, fun e => e == 0, id, id⟩, ⟨0, 0, true, fun _ => false, id, id⟩]

/-- C97 fails when elements leave in a step in which the mover is off: the rows stay and slide to other elements. -/
theorem C97_counterexample : ¬ C97_claim := by
  intro h
  have hr : run ⟨0, 10800⟩ false 0 900 offStep (St.init 2) =
      some ([⟨0, 0, [0, 1], [(0, 0), (1, 1)]⟩, ⟨900, 0, [0, 1], []⟩, ⟨1800, 0, [1, 2], [(1, 0), (2, 1)]⟩],
        ⟨[1, 2], 3, 3, ⟨[0, 1], 0, 0, false⟩⟩) := by decide +kernel
  have := h _ _ _ _ _ _ _ _ hr
  rw [Keeps, List.pairwise_cons] at this
  have := this.1 _ (by simp : (⟨1800, 0, [1, 2], [(1, 0), (2, 1)]⟩ : Row Nat) ∈ _) 1 1 0 (by simp) (by simp) (by norm_num)
  exact absurd this (by decide)

/-- A run that satisfies the hypotheses of `C97_keeps_partial`: elements released and removed while the mover is active. -/
example : run (D := Nat) ⟨0, 10800⟩ false 0 900
    [⟨1, 1, true, fun e => e == 1, fun i => 10 + i, id⟩, ⟨0, 1, true, fun _ => false, fun i => 20 + i, id⟩] (St.init 2) =
    some ([⟨0, 0, [0, 1, 2], [(0, 0), (1, 1), (2, 2)]⟩, ⟨900, 0, [0, 2, 3], [(0, 0), (2, 2), (3, 22)]⟩],
      ⟨[0, 2, 3, 4], 5, 2, ⟨[0, 2, 22], 0, 0, false⟩⟩) := by decide +kernel

/-! ## C98 -/

theorem update_length {c : UPar} {ω ω' : Nat → D} {num : Nat} {el : Rat} {s : Unc D} (h : c.delay ≤ el) :
    (update c ω ω' num el s).list.length = num := by
  unfold update
  rw [if_neg (not_lt.mpr h)]
  simp only
  have hl1 : ¬ (s.list.length = 0 ∨ el < s.setAt ∨ num < s.list.length) → (if s.list.length < num ∧ s.list.length ≠ 0 then
      s.list ++ (List.range (num - s.list.length)).map (fun (i : Nat) => ω (s.list.length + i)) else s.list).length = num := by
    intro hn
    push Not at hn
    split
    · simp; omega
    · next h2 =>
      push Not at h2
      by_contra hc
      exact hn.1 (h2 (by omega))
  split
  · simp
  · next hn =>
    split
    · rw [List.length_map, List.length_range, hl1 hn]
    · exact hl1 hn

theorem stepDone_some {elems : List Nat} {gone : Nat → Bool} {u : Unc D} {active : Bool}
    (h : active = true → (∀ e ∈ elems, gone e = false) ∨ u.list.length = elems.length) :
    ∃ u2, stepDone active (elems.map gone) u = some u2 := by
  unfold stepDone
  cases active with
  | false => exact ⟨u, rfl⟩
  | true =>
      simp only [if_true]
      rcases h rfl with h | h
      · rw [if_pos (whereTrue_nil_of h)]
        exact ⟨_, rfl⟩
      · split
        · exact ⟨_, rfl⟩
        · rw [npDelete_aligned h]
          exact ⟨_, rfl⟩

theorem applied_some {list : List D} {elems : List Nat} {active : Bool}
    (h : active = true → elems = [] ∨ list = [] ∨ list.length = elems.length) : ∃ tab, applied active list elems = some tab := by
  cases active with
  | false => exact ⟨[], by simp [applied]⟩
  | true =>
      rcases h rfl with h | h
      · exact ⟨[], by simp [applied, h]⟩
      · exact ⟨_, applied_of_len h⟩

theorem step_some {c : UPar} {wind : Bool} {t0 dt : Rat} {i : In D} {s : St D} (hd : c.delay ≤ 0) :
    ∃ x, step c wind t0 dt i s = some x := by
  unfold step
  have hlen : i.active = true → (s.elems ++ newIds s.nextId i.rel1) = [] ∨
      (prepare c wind i.ω i.ω' i.active (s.elems ++ newIds s.nextId i.rel1).length (t0 + s.k * dt) s.unc).list.length
        = (s.elems ++ newIds s.nextId i.rel1).length := by
    intro ha
    unfold prepare
    simp only [ha, if_true]
    split
    · next h =>
      rw [Bool.and_eq_true, beq_iff_eq] at h
      exact Or.inl (List.length_eq_zero_iff.mp h.2)
    · exact Or.inr (update_length (le_trans hd (abs_nonneg _)))
  obtain ⟨tab, ht⟩ := applied_some (list := (prepare c wind i.ω i.ω' i.active (s.elems ++ newIds s.nextId i.rel1).length
    (t0 + s.k * dt) s.unc).list) (elems := s.elems ++ newIds s.nextId i.rel1) (active := i.active)
    (fun ha => (hlen ha).imp id Or.inr)
  obtain ⟨u2, hu⟩ := stepDone_some (gone := i.gone) (elems := s.elems ++ newIds s.nextId i.rel1) (active := i.active)
    (u := prepare c wind i.ω i.ω' i.active (s.elems ++ newIds s.nextId i.rel1).length (t0 + s.k * dt) s.unc)
    (fun ha => (hlen ha).imp (fun h0 e he => by rw [h0] at he; cases he) id)
  simp only [ht, hu]
  exact ⟨_, rfl⟩

/-- The claims: a run does not fail, and uncertainty starts `uncertain_time_delay` after the start of the model. -/
def C98_claim_runs : Prop :=
  ∀ (c : UPar) (wind : Bool) (t0 dt : Rat) (n : Nat) (ins : List (In Nat)), run c wind t0 dt ins (St.init n) ≠ none

/-- See `C98_claim_runs`. -/
def C98_claim_delay : Prop :=
  ∀ (c : UPar) (wind : Bool) (t0 dt : Rat) (n : Nat) (ins : List (In Nat)) (rows : List (Row Nat)) (s' : St Nat),
    run c wind t0 dt ins (St.init n) = some (rows, s') → Delayed c.delay dt ins rows

/-- C98: without a delay no run fails, whatever is released and removed and whenever the mover is active. -/
theorem C98_runs_partial {c : UPar} {wind : Bool} {t0 dt : Rat} (hd : c.delay ≤ 0) :
    ∀ (ins : List (In D)) (s : St D), run c wind t0 dt ins s ≠ none
  | [], s => by simp [run]
  | i :: is, s => by
      obtain ⟨⟨r, s1⟩, hs⟩ := step_some (c := c) (wind := wind) (t0 := t0) (dt := dt) (i := i) (s := s) hd
      have ih := C98_runs_partial (wind := wind) (t0 := t0) (dt := dt) hd is s1
      unfold run
      rw [hs]
      simp only
      cases hr : run c wind t0 dt is s1 with
      | none => exact absurd hr ih
      | some x => simp

/-- The mover has been active in every step so far. -/
def OnFromStart (t0 : Rat) (s : St D) : Prop := (s.unc.first = true ∧ s.k = 0) ∨ (s.unc.first = false ∧ s.unc.start = t0)

/-- A step of a mover that has always been active: it fails only if something is removed before the delay is over. -/
theorem step_on {c : UPar} {wind : Bool} {t0 dt : Rat} {past : List (Row D)} {i : In D} {s : St D}
    (hi : Inv c t0 dt past s) (ho : OnFromStart t0 s) (ha : i.active = true)
    (hg : |(s.k : Rat) * dt| < c.delay → ∀ e, i.gone e = false) :
    ∃ r s', step c wind t0 dt i s = some (r, s') ∧ OnFromStart t0 s' ∧ s'.k = s.k + 1 ∧ r.elapsed = |(s.k : Rat) * dt| ∧
      (r.elems ≠ [] → if c.delay ≤ |(s.k : Rat) * dt| then r.tab.map Prod.fst = r.elems else r.tab = []) := by
  have hset := setAt_le_elapsed hi
  have hstart : (markStart (t0 + s.k * dt) s.unc).start = t0 := by
    unfold markStart
    rcases ho with ⟨h1, h2⟩ | ⟨h1, h2⟩
    · rw [if_pos h1, h2]; simp
    · rw [if_neg (by simp [h1]), h2]
  have hP := prepare_prepared (c := c) (wind := wind) (ω := i.ω) (ω' := i.ω') (t := t0 + s.k * dt) (s := s.unc)
    (num := (s.elems ++ newIds s.nextId i.rel1).length)
    (by rw [List.length_append]; have := hi.len; omega) hset hi.delay
  unfold step
  simp only [ha]
  generalize prepare c wind i.ω i.ω' true (s.elems ++ newIds s.nextId i.rel1).length (t0 + s.k * dt) s.unc = u1 at hP
  generalize s.elems ++ newIds s.nextId i.rel1 = elems1 at *
  rw [hstart, show t0 + (s.k : Rat) * dt - t0 = (s.k : Rat) * dt by ring] at hP
  have hu1 : u1.start = t0 := by rw [hP.start, hstart]
  obtain ⟨u2, hu2⟩ := stepDone_some (gone := i.gone) (elems := elems1) (active := true) (u := u1) (fun _ => by
    rcases hP.len with h | h
    · rcases hP.empty h with h2 | h2
      · exact Or.inl (fun e _ => hg h2 e)
      · refine Or.inl (fun e he => ?_)
        rw [List.length_eq_zero_iff.mp h2] at he
        cases he
    · exact Or.inr h)
  obtain ⟨hd1, hd2, hd3, -⟩ := stepDone_aligned rfl hP.len hu2
  refine ⟨_, _, by rw [applied_of_len hP.len]; simp only [hu2]; rfl, Or.inr ⟨hd3, hd2.trans hu1⟩, rfl, ?_, ?_⟩
  · change |t0 + (s.k : Rat) * dt - u1.start| = _
    rw [hu1, show t0 + (s.k : Rat) * dt - t0 = (s.k : Rat) * dt by ring]
  · intro hne
    change elems1 ≠ [] at hne
    change if _ then (elems1.zip u1.list).map Prod.fst = elems1 else elems1.zip u1.list = []
    split
    · next hdel =>
      rcases hP.len with h | h
      · rcases hP.empty h with h2 | h2
        · exact absurd hdel (not_le.mpr h2)
        · exact absurd (List.length_eq_zero_iff.mp h2) hne
      · exact List.map_fst_zip (le_of_eq h.symm)
    · next hdel =>
      have : u1.list = [] := by
        by_contra hc
        exact hdel (le_trans (hP.delay hc) hP.setAt)
      rw [this]
      simp

theorem run_on {c : UPar} {wind : Bool} {t0 dt : Rat} : ∀ (ins : List (In D)) {past : List (Row D)} {s : St D},
    Inv c t0 dt past s → OnFromStart t0 s → (∀ i ∈ ins, i.active = true) →
    (∀ (j : Nat) i, ins[j]? = some i → |((s.k + j : Nat) : Rat) * dt| < c.delay → ∀ e, i.gone e = false) →
    ∃ rows s', run c wind t0 dt ins s = some (rows, s') ∧
      ∀ (j : Nat) i r, ins[j]? = some i → rows[j]? = some r → r.elems ≠ [] →
        if c.delay ≤ |((s.k + j : Nat) : Rat) * dt| then r.tab.map Prod.fst = r.elems else r.tab = []
  | [], past, s, _, _, _, _ => ⟨[], s, rfl, by simp⟩
  | i :: is, past, s, hi, ho, ha, hg => by
      have ha' := ha i List.mem_cons_self
      obtain ⟨r, s1, hs, ho1, hk1, -, hr⟩ := step_on (wind := wind) hi ho ha' (fun h => hg 0 i rfl (by simpa using h))
      have hi1 := (step_inv hi (fun h => by rw [ha'] at h; cases h) hs).1
      obtain ⟨rows, s2, hrun, hall⟩ := run_on (wind := wind) is hi1 ho1 (fun j hj => ha j (List.mem_cons_of_mem _ hj))
        (fun j i' hj hlt => hg (j + 1) i' (by simpa using hj) (by rw [hk1] at hlt; rwa [show s.k + (j + 1) = s.k + 1 + j by omega]))
      refine ⟨r :: rows, s2, by unfold run; rw [hs]; simp only [hrun], ?_⟩
      intro j i' r' hi' hr' hne
      cases j with
      | zero =>
          rw [List.getElem?_cons_zero, Option.some.injEq] at hr'
          subst hr'
          exact hr hne
      | succ j =>
          rw [List.getElem?_cons_succ] at hi' hr'
          have := hall j i' r' hi' hr' hne
          rw [hk1] at this
          rwa [show s.k + (j + 1) = s.k + 1 + j by omega]

/-- C98 as far as it holds: a mover that is active in every step, with no element removed before the delay is over: the run does
not fail, and uncertainty applies to every element from the delay on and to none before.  Missing: elements that leave the map
before the delay is over, and a mover that becomes active later. -/
theorem C98_delay_partial {c : UPar} {wind : Bool} {t0 dt : Rat} {n : Nat} {ins : List (In D)} (ha : ∀ i ∈ ins, i.active = true)
    (hg : ∀ (j : Nat) i, ins[j]? = some i → |(j : Rat) * dt| < c.delay → ∀ e, i.gone e = false) :
    ∃ rows s', run c wind t0 dt ins (St.init n) = some (rows, s') ∧ Delayed c.delay dt ins rows := by
  obtain ⟨rows, s', hr, hall⟩ := run_on (wind := wind) ins (inv_init c t0 dt n) (Or.inl ⟨rfl, rfl⟩) ha
    (fun j i hj hlt => hg j i hj (by simpa [St.init] using hlt))
  refine ⟨rows, s', hr, ?_⟩
  intro j i r hi' hr' _ hne
  have := hall j i r hi' hr' hne
  simpa [St.init] using this

/-- C98 fails: an element that leaves the map before the delay is over ends the run with an `IndexError`. -/
theorem C98_counterexample_runs : ¬ C98_claim_runs := by
  intro h
  exact h ⟨3600, 86400⟩ false 0 900 1 [⟨0, 0, true, fun _ => true, id, id⟩] (by decide +kernel)

/-- C98 fails: for a mover whose active range begins later the delay counts from its first active step. -/
theorem C98_counterexample_delay : ¬ C98_claim_delay := by
  intro h
  have hr : run ⟨900, 86400⟩ false 0 900 [⟨0, 0, false, fun _ => false, id, id⟩, ⟨0, 0, true, fun _ => false, id, id⟩] (St.init 1) =
      some ([⟨0, 0, [0], []⟩, ⟨0, 0, [0], []⟩], ⟨[0], 1, 2, ⟨[], 0, 900, false⟩⟩) := by decide +kernel
  have := h _ _ _ _ _ _ _ _ hr 1 _ _ rfl rfl rfl (by simp)
  rw [if_pos (by norm_num)] at this
  cases this

/-- A run that satisfies the hypotheses of `C98_delay_partial`. -/
example : run (D := Nat) ⟨900, 86400⟩ true 0 900
    [⟨1, 0, true, fun _ => false, id, id⟩, ⟨0, 0, true, fun e => e == 0, id, fun i => 5 + i⟩] (St.init 1) =
    some ([⟨0, 0, [0, 1], []⟩, ⟨900, 900, [0, 1], [(0, 5), (1, 6)]⟩], ⟨[1], 2, 2, ⟨[6], 900, 0, false⟩⟩) := by decide +kernel

end Verif.Mover
