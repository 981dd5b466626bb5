import Verif.Mover.LibUncModel
import Verif.Mover.UncLemmas
import Verif.Mover.UncProps

/-!
# C343, C344: the draws of uncertain elements of the compiled movers over a run
-/

namespace Verif.Mover.LibUnc

variable {D : Type}

/-- 1 for the movers that count to the end of a step -/
def Kind.w (kind : Kind) : Rat := if kind.wind then 1 else 0

theorem Kind.w_nonneg (kind : Kind) : 0 ≤ kind.w := by
  unfold Kind.w; split <;> norm_num

/-- The seconds since the start are whole steps: forwards in every mover, and backwards in those that take the time without sign. -/
theorem elapsed_eq {kind : Kind} {t0 dt : Rat} (hm : kind.grid = true → 0 ≤ dt) {k ks : Nat} (h : ks ≤ k) :
    kind.elapsed (t0 + k * dt) dt (t0 + ks * dt) = ((k : Rat) - ks + kind.w) * |dt| := by
  have h1 : (0 : Rat) ≤ (k : Rat) - ks := by
    have : (ks : Rat) ≤ k := by exact_mod_cast h
    linarith
  cases kind with
  | cats =>
      simp only [Kind.elapsed, Kind.w, Kind.wind]
      rw [show t0 + (k : Rat) * dt - (t0 + ks * dt) = ((k : Rat) - ks) * dt by ring, abs_mul, abs_of_nonneg h1]
      simp
  | gridCurrent =>
      simp only [Kind.elapsed, Kind.w, Kind.wind]
      rw [abs_of_nonneg (hm rfl)]
      simp only [Bool.false_eq_true, if_false]
      ring
  | pointWind =>
      simp only [Kind.elapsed, Kind.w, Kind.wind]
      rw [show t0 + (k : Rat) * dt + dt - (t0 + ks * dt) = ((k : Rat) - ks + 1) * dt by ring, abs_mul,
        abs_of_nonneg (by linarith : (0 : Rat) ≤ (k : Rat) - ks + 1)]
      simp
  | gridWind =>
      simp only [Kind.elapsed, Kind.w, Kind.wind]
      rw [abs_of_nonneg (hm rfl)]
      simp only [if_true]
      ring

/-- What holds between steps of a run that has shown `past`. -/
structure Inv (c : UPar) (kind : Kind) (t0 dt : Rat) (past : List (Row D)) (s : LSt D) : Prop where
  nodup : s.elems.Nodup
  lt : ∀ e ∈ s.elems, e < s.nextId
  pastLt : ∀ r ∈ past, ∀ p ∈ r.tab, p.1 < s.nextId
  len : ∀ l, s.unc.list = some l → l.length ≤ s.elems.length ∧ c.delay ≤ s.unc.setAt
  align : ∀ r ∈ past, ∀ p ∈ r.tab, p.1 ∈ s.elems →
    ∃ l, s.unc.list = some l ∧ ((r.setAt = s.unc.setAt ∧ p ∈ s.elems.zip l) ∨ r.setAt + c.duration ≤ s.unc.setAt)
  fst : s.unc.first = true → s.unc.list = none
  later : s.unc.first = false → ∃ ks : Nat, ks < s.k ∧ s.unc.start = t0 + ks * dt ∧
    ∀ l, s.unc.list = some l → s.unc.setAt ≤ ((s.k : Rat) - 1 - ks + kind.w) * |dt|

/-- What `update` does when the time has not gone back and there are not fewer elements. -/
structure Upd (c : UPar) (num : Nat) (el : Rat) (s u : LUnc D) : Prop where
  start : u.start = s.start
  before : el < c.delay → u.list = none
  after : c.delay ≤ el → ∃ l1, u.list = some l1 ∧ l1.length = num ∧ c.delay ≤ u.setAt ∧ u.setAt ≤ el ∧
    (el < u.setAt + c.duration ∨ u.setAt = el) ∧
    ((∃ l ext, s.list = some l ∧ l1 = l ++ ext ∧ u.setAt = s.setAt) ∨ s.list = none ∨ (u.setAt = el ∧ s.setAt + c.duration ≤ el))

theorem update_upd {c : UPar} {ω ω' : Nat → D} {num : Nat} {el : Rat} {s : LUnc D}
    (h : ∀ l, s.list = some l → l.length ≤ num ∧ c.delay ≤ s.setAt ∧ s.setAt ≤ el) : Upd c num el s (update c ω ω' num el s) := by
  refine ⟨?_, ?_, ?_⟩
  · unfold update
    split
    · split <;> rfl
    · split
      · rfl
      · simp only
        split
        · rfl
        · split <;> rfl
  · intro hd
    unfold update
    rw [if_pos hd]
    cases hl : s.list with
    | none => simpa using hl
    | some l => rfl
  · intro hd
    unfold update
    rw [if_neg (not_lt.mpr hd)]
    cases hl : s.list with
    | none => exact ⟨_, rfl, by simp, hd, le_refl _, Or.inr rfl, Or.inr (Or.inl rfl)⟩
    | some l =>
        obtain ⟨h1, h2, h3⟩ := h l hl
        simp only
        rw [if_neg (by rintro (h' | h'); exacts [absurd h3 (not_le.mpr h'), absurd h1 (not_le.mpr h')])]
        have hlen : (if l.length < num then l ++ (List.range (num - l.length)).map (fun (i : Nat) => ω (l.length + i)) else l).length
            = num := by
          split_ifs with h'
          · simp; omega
          · omega
        have hext : ∃ ext, (if l.length < num then l ++ (List.range (num - l.length)).map (fun (i : Nat) => ω (l.length + i)) else l)
            = l ++ ext := by
          split_ifs
          · exact ⟨_, rfl⟩
          · exact ⟨[], by simp⟩
        split
        · next hdur => exact ⟨_, rfl, by simpa using hlen, hd, le_refl _, Or.inr rfl, Or.inr (Or.inr ⟨rfl, hdur⟩)⟩
        · next hdur =>
            obtain ⟨ext, he⟩ := hext
            exact ⟨_, rfl, hlen, h2, h3, Or.inl (not_le.mp hdur), Or.inl ⟨l, ext, rfl, he, rfl⟩⟩

theorem markStart_list (t : Rat) (s : LUnc D) : (markStart t s).list = s.list := by unfold markStart; split <;> rfl
theorem markStart_setAt (t : Rat) (s : LUnc D) : (markStart t s).setAt = s.setAt := by unfold markStart; split <;> rfl

/-- The start of the mover, and the age of the list, as an active step begins. -/
theorem start_known {c : UPar} {kind : Kind} {t0 dt : Rat} {past : List (Row D)} {s : LSt D} (hi : Inv c kind t0 dt past s) :
    ∃ ks : Nat, ks ≤ s.k ∧ (markStart (t0 + s.k * dt) s.unc).start = t0 + ks * dt ∧
      ∀ l, s.unc.list = some l → s.unc.setAt ≤ ((s.k : Rat) - ks + kind.w) * |dt| := by
  unfold markStart
  by_cases hf : s.unc.first = true
  · rw [if_pos hf]
    refine ⟨s.k, le_refl _, rfl, ?_⟩
    intro l hl
    rw [hi.fst hf] at hl
    cases hl
  · rw [if_neg hf]
    obtain ⟨ks, hks, hst, hl⟩ := hi.later (by simpa using hf)
    refine ⟨ks, le_of_lt hks, hst, fun l h => le_trans (hl l h) ?_⟩
    have := abs_nonneg dt
    nlinarith

/-- The rows that are left belong to the elements that are left. -/
theorem stepDone_aligned {gone : Nat → Bool} {elems : List Nat} {l : List D} {u : LUnc D} (hu : u.list = some l)
    (hlen : l.length = elems.length) :
    (stepDone true gone elems u).start = u.start ∧ (stepDone true gone elems u).first = false ∧
    ((elems ≠ [] ∧ elems.filter (fun e => !gone e) = [] ∧ (stepDone true gone elems u).list = none) ∨
      ∃ l2, (stepDone true gone elems u).list = some l2 ∧ (stepDone true gone elems u).setAt = u.setAt ∧
        (elems.filter (fun e => !gone e)).zip l2 = (elems.zip l).filter (fun p => !gone p.1) ∧
        l2.length ≤ (elems.filter (fun e => !gone e)).length) := by
  unfold stepDone reallocate
  simp only [if_true, hu]
  by_cases he : elems = []
  · rw [if_pos he]
    refine ⟨rfl, trivial, Or.inr ⟨l, hu, rfl, ?_, ?_⟩⟩
    · rw [he]; simp
    · rw [hlen, he]; simp
  · rw [if_neg he, if_neg (not_not.mpr hlen)]
    by_cases hn : ((elems.zip l).filter (fun p => !gone p.1)).map Prod.snd = []
    · rw [if_pos hn]
      refine ⟨rfl, trivial, Or.inl ⟨he, ?_, rfl⟩⟩
      rw [filter_zip_fst hlen, List.map_eq_nil_iff.mp hn]
      rfl
    · rw [if_neg hn]
      refine ⟨rfl, trivial, Or.inr ⟨_, rfl, rfl, zip_deleted hlen, ?_⟩⟩
      rw [filter_zip_fst hlen, List.length_map, List.length_map]

theorem stepDone_none {gone : Nat → Bool} {elems : List Nat} {u : LUnc D} (hu : u.list = none) :
    stepDone true gone elems u = { u with first := false } := by
  unfold stepDone reallocate
  simp only [if_true, hu]

theorem mem_old {c : UPar} {kind : Kind} {t0 dt : Rat} {past : List (Row D)} {s : LSt D} (hi : Inv c kind t0 dt past s)
    {q : Row D} (h : q ∈ past) {p : Nat × D} (hp : p ∈ q.tab) {x : List Nat} (hx : ∀ e ∈ x, s.nextId ≤ e) (hpe : p.1 ∈ s.elems ++ x) :
    p.1 ∈ s.elems := by
  rcases List.mem_append.mp hpe with he | he
  · exact he
  · have := hi.pastLt q h p hp
    have := hx _ he
    omega

theorem step_inv {c : UPar} {kind : Kind} {t0 dt : Rat} {past : List (Row D)} {i : In D} {s : LSt D}
    (hm : kind.grid = true → 0 ≤ dt) (hi : Inv c kind t0 dt past s) (hq : i.active = false → ∀ e, i.gone e = false) :
    Inv c kind t0 dt (past ++ [shown c kind t0 dt i s]) (next c kind t0 dt i s) ∧ Shows c past (shown c kind t0 dt i s) := by
  have hlt1 : ∀ e ∈ moved i s, e < s.nextId + i.rel1 := by
    intro e he
    rcases List.mem_append.mp he with he | he
    · exact lt_of_lt_of_le (hi.lt e he) (Nat.le_add_right _ _)
    · exact (newIds_mem.mp he).2
  have hnd1 : (moved i s).Nodup := append_new_nodup i.rel1 hi.nodup hi.lt
  have hnew1 : ∀ e ∈ newIds s.nextId i.rel1, s.nextId ≤ e := fun e he => (newIds_mem.mp he).1
  have hnew2 : ∀ e ∈ newIds s.nextId i.rel1 ++ newIds (s.nextId + i.rel1) i.rel2, s.nextId ≤ e := by
    intro e he
    rcases List.mem_append.mp he with he | he
    · exact (newIds_mem.mp he).1
    · have := (newIds_mem.mp he).1; omega
  have hndn : (next c kind t0 dt i s).elems.Nodup := by
    refine append_new_nodup _ (hnd1.filter _) ?_
    intro e he
    exact hlt1 e (List.mem_of_mem_filter he)
  have hltn : ∀ e ∈ (next c kind t0 dt i s).elems, e < (next c kind t0 dt i s).nextId := by
    intro e he
    change e < s.nextId + i.rel1 + i.rel2
    rcases List.mem_append.mp he with he | he
    · exact lt_of_lt_of_le (hlt1 e (List.mem_of_mem_filter he)) (Nat.le_add_right _ _)
    · exact (newIds_mem.mp he).2
  have htab : ∀ p ∈ (shown c kind t0 dt i s).tab, p.1 ∈ moved i s := by
    intro p hp
    change p ∈ applied i.active _ _ at hp
    unfold applied at hp
    split at hp
    · split at hp
      · cases hp
      · exact (List.of_mem_zip (show (p.1, p.2) ∈ _ from hp)).1
    · cases hp
  have hpast : ∀ r ∈ past ++ [shown c kind t0 dt i s], ∀ p ∈ r.tab, p.1 < (next c kind t0 dt i s).nextId := by
    intro q hq' p hp
    change p.1 < s.nextId + i.rel1 + i.rel2
    rcases List.mem_append.mp hq' with h | h
    · have := hi.pastLt q h p hp; omega
    · rw [List.mem_singleton] at h
      subst h
      have := hlt1 _ (htab p hp); omega
  cases ha : i.active with
  | false =>
      have hp : prepared c kind t0 dt i s = s.unc := by unfold prepared prepare; rw [ha]; rfl
      have htab0 : (shown c kind t0 dt i s).tab = [] := by
        change applied i.active _ _ = []
        rw [ha]; rfl
      have hu : (next c kind t0 dt i s).unc = s.unc := by
        change stepDone i.active _ _ _ = _
        rw [ha, hp]; rfl
      have hf : (next c kind t0 dt i s).elems = s.elems ++ (newIds s.nextId i.rel1 ++ newIds (s.nextId + i.rel1) i.rel2) := by
        change (moved i s).filter _ ++ _ = _
        rw [List.filter_eq_self.mpr (fun e _ => by simp [hq ha e])]
        unfold moved
        rw [List.append_assoc]
      refine ⟨⟨hndn, hltn, hpast, ?_, ?_, ?_, ?_⟩, ⟨?_, ?_, ?_⟩⟩
      · intro l hl
        rw [hu] at hl ⊢
        obtain ⟨h1, h2⟩ := hi.len l hl
        refine ⟨?_, h2⟩
        rw [hf, List.length_append]
        omega
      · intro q hq' p hp hpe
        rcases List.mem_append.mp hq' with h | h
        · rw [hf] at hpe
          obtain ⟨l, hl, hor⟩ := hi.align q h p hp (mem_old hi h hp hnew2 hpe)
          rw [hu]
          refine ⟨l, hl, ?_⟩
          rcases hor with ⟨h1, h2⟩ | h1
          · refine Or.inl ⟨h1, ?_⟩
            rw [hf]
            have := zip_append_prefix (hi.len l hl).1 (newIds s.nextId i.rel1 ++ newIds (s.nextId + i.rel1) i.rel2) [] h2
            rwa [List.append_nil] at this
          · exact Or.inr h1
        · rw [List.mem_singleton] at h
          subst h
          rw [htab0] at hp
          cases hp
      · rw [hu]; exact hi.fst
      · rw [hu]
        intro hff
        obtain ⟨ks, h1, h2, h3⟩ := hi.later hff
        refine ⟨ks, Nat.lt_succ_of_lt h1, h2, fun l hl => le_trans (h3 l hl) ?_⟩
        change _ ≤ (((s.k + 1 : Nat) : Rat) - 1 - ks + kind.w) * |dt|
        have := abs_nonneg dt
        push_cast
        nlinarith
      · intro q _ e d d' _ h2
        rw [htab0] at h2
        cases h2
      · intro h
        exact absurd htab0 h
      · rw [htab0]
        simp
  | true =>
      obtain ⟨ks, hks, hst, hold⟩ := start_known hi
      have hel := elapsed_eq (t0 := t0) hm hks
      have hp : prepared c kind t0 dt i s = update c i.ω i.ω' (moved i s).length (((s.k : Rat) - ks + kind.w) * |dt|) (markStart (t0 + s.k * dt) s.unc) := by
        unfold prepared prepare
        rw [ha]
        simp only [if_true]
        rw [hst, hel]
      have hU : Upd c (moved i s).length (((s.k : Rat) - ks + kind.w) * |dt|) (markStart (t0 + s.k * dt) s.unc) (prepared c kind t0 dt i s) := by
        rw [hp]
        refine update_upd ?_
        intro l hl
        rw [markStart_list] at hl
        rw [markStart_setAt]
        obtain ⟨h1, h2⟩ := hi.len l hl
        refine ⟨?_, h2, hold l hl⟩
        unfold moved
        rw [List.length_append]
        omega
      clear hp
      generalize hu1 : prepared c kind t0 dt i s = u1 at hU
      have hu1s : u1.start = t0 + ks * dt := by rw [hU.start, hst]
      have hshow : shown c kind t0 dt i s = ⟨((s.k : Rat) - ks + kind.w) * |dt|, u1.setAt, moved i s, applied true u1.list (moved i s)⟩ := by
        simp only [shown, hu1, ha]
        rw [hu1s, hel]
      have hnext : (next c kind t0 dt i s).unc = stepDone true i.gone (moved i s) u1 := by
        simp only [next, hu1, ha]
      rw [hshow] at htab hpast ⊢
      by_cases hdel : c.delay ≤ ((s.k : Rat) - ks + kind.w) * |dt|
      · obtain ⟨l1, hl1, hlen, hd1, hd2, hyoung, hhow⟩ := hU.after hdel
        rw [hl1] at htab hpast ⊢
        simp only [applied, if_true] at htab hpast ⊢
        rw [markStart_list] at hhow
        rw [markStart_setAt] at hhow
        have hnow : ∀ q ∈ past, ∀ p ∈ q.tab, p.1 ∈ moved i s →
            (q.setAt = u1.setAt ∧ p ∈ (moved i s).zip l1) ∨ q.setAt + c.duration ≤ u1.setAt := by
          intro q h p hp hpe
          obtain ⟨l, hl, hor⟩ := hi.align q h p hp (mem_old hi h hp hnew1 hpe)
          rcases hhow with ⟨l', ext, h1, h2, h3⟩ | h1 | ⟨h1, h2⟩
          · rw [hl] at h1
            cases h1
            rcases hor with ⟨h4, h5⟩ | h4
            · refine Or.inl ⟨h4.trans h3.symm, ?_⟩
              rw [h2]
              exact zip_append_prefix (hi.len l hl).1 _ _ h5
            · exact Or.inr (h3 ▸ h4)
          · rw [hl] at h1
            cases h1
          · refine Or.inr ?_
            rcases hor with ⟨h4, _⟩ | h4
            · rw [h1, h4]; exact h2
            · rw [h1]; exact le_trans h4 (hold l hl)
        obtain ⟨hs1, hs2, hs3⟩ := stepDone_aligned (gone := i.gone) hl1 hlen
        refine ⟨⟨hndn, hltn, hpast, ?_, ?_, ?_, ?_⟩, ⟨?_, ?_, ?_⟩⟩
        · intro l hl
          rw [hnext] at hl ⊢
          rcases hs3 with ⟨_, _, h3⟩ | ⟨l2, h1, h2, _, h4⟩
          · rw [h3] at hl; cases hl
          · rw [h1] at hl
            cases hl
            refine ⟨?_, by rw [h2]; exact hd1⟩
            change _ ≤ ((moved i s).filter _ ++ _).length
            rw [List.length_append]
            omega
        · intro q hq' p hp hpe
          have hpl : p.1 < s.nextId + i.rel1 := by
            rcases List.mem_append.mp hq' with h | h
            · have := hi.pastLt q h p hp; omega
            · rw [List.mem_singleton] at h
              subst h
              exact hlt1 _ (htab p hp)
          have hkept : p.1 ∈ (moved i s).filter (fun e => !i.gone e) := by
            rcases List.mem_append.mp (show p.1 ∈ (moved i s).filter _ ++ _ from hpe) with he | he
            · exact he
            · have := (newIds_mem.mp he).1; omega
          rw [hnext]
          rcases hs3 with ⟨_, h2, _⟩ | ⟨l2, h1, h2, h3, h4⟩
          · rw [h2] at hkept; cases hkept
          · refine ⟨l2, h1, ?_⟩
            rw [h2]
            have hpres : p ∈ (moved i s).zip l1 → p ∈ (next c kind t0 dt i s).elems.zip l2 := by
              intro h
              have hg : p ∈ ((moved i s).filter (fun e => !i.gone e)).zip l2 := by
                rw [h3, List.mem_filter]
                exact ⟨h, by simpa using (List.mem_filter.mp hkept).2⟩
              have := zip_append_prefix h4 (newIds (s.nextId + i.rel1) i.rel2) [] hg
              rwa [List.append_nil] at this
            rcases List.mem_append.mp hq' with h | h
            · rcases hnow q h p hp (List.mem_of_mem_filter hkept) with ⟨h5, h6⟩ | h5
              · exact Or.inl ⟨h5, hpres h6⟩
              · exact Or.inr h5
            · rw [List.mem_singleton] at h
              subst h
              exact Or.inl ⟨rfl, hpres hp⟩
        · rw [hnext, hs2]
          intro h
          cases h
        · intro _
          rw [hnext]
          refine ⟨ks, Nat.lt_succ_of_le hks, hs1.trans hu1s, ?_⟩
          intro l hl
          rcases hs3 with ⟨_, _, h3⟩ | ⟨l2, _, h2, _, _⟩
          · rw [h3] at hl; cases hl
          · rw [h2]
            refine le_trans hd2 (le_of_eq ?_)
            change _ = (((s.k + 1 : Nat) : Rat) - 1 - ks + kind.w) * |dt|
            push_cast
            ring
        · intro q h e d d' h1 h2 h3
          rcases hnow q h (e, d) h1 (htab (e, d') h2) with ⟨_, h5⟩ | h5
          · exact (nodup_zip_unique hnd1 h5 h2).symm
          · exact absurd (le_trans h5 hd2) (not_le.mpr h3)
        · intro _
          exact ⟨hd2, hyoung⟩
        · refine ⟨?_, htab⟩
          change (((moved i s).zip l1).map Prod.fst).Nodup
          rw [List.map_fst_zip (le_of_eq hlen.symm)]
          exact hnd1
      · have hn := hU.before (not_le.mp hdel)
        rw [hn] at htab hpast ⊢
        simp only [applied, if_true] at htab hpast ⊢
        rw [stepDone_none hn] at hnext
        have hn0 : s.unc.list = none := by
          cases hl : s.unc.list with
          | none => rfl
          | some l => exact absurd (le_trans (hi.len l hl).2 (hold l hl)) hdel
        refine ⟨⟨hndn, hltn, hpast, ?_, ?_, ?_, ?_⟩, ⟨?_, ?_, ?_⟩⟩
        · intro l hl
          rw [hnext] at hl
          change u1.list = some l at hl
          rw [hn] at hl
          cases hl
        · intro q hq' p hp hpe
          rcases List.mem_append.mp hq' with h | h
          · have hpm : p.1 ∈ moved i s := by
              rcases List.mem_append.mp (show p.1 ∈ (moved i s).filter _ ++ _ from hpe) with he | he
              · exact List.mem_of_mem_filter he
              · have := (newIds_mem.mp he).1
                have := hi.pastLt q h p hp
                omega
            obtain ⟨l, hl, _⟩ := hi.align q h p hp (mem_old hi h hp hnew1 hpm)
            rw [hn0] at hl
            cases hl
          · rw [List.mem_singleton] at h
            subst h
            cases hp
        · rw [hnext]
          intro h
          cases h
        · intro _
          rw [hnext]
          refine ⟨ks, Nat.lt_succ_of_le hks, hu1s, ?_⟩
          intro l hl
          change u1.list = some l at hl
          rw [hn] at hl
          cases hl
        · intro q _ e d d' _ h2
          cases h2
        · intro h
          exact absurd rfl h
        · simp

theorem inv_init (c : UPar) (kind : Kind) (t0 dt : Rat) (n : Nat) : Inv c kind t0 dt ([] : List (Row D)) (LSt.init n) := by
  refine ⟨newIds_nodup 0 n, ?_, by simp, by simp [LSt.init, LUnc.begin], by simp, by simp [LSt.init, LUnc.begin], by simp [LSt.init, LUnc.begin]⟩
  intro e he
  have := (newIds_mem.mp he).2
  simpa [LSt.init] using this

theorem run_shows {c : UPar} {kind : Kind} {t0 dt : Rat} (hm : kind.grid = true → 0 ≤ dt) :
    ∀ {ins : List (In D)} {past : List (Row D)} {s : LSt D},
    Inv c kind t0 dt past s → (∀ i ∈ ins, i.active = false → ∀ e, i.gone e = false) →
    (∀ q ∈ past, ∀ r ∈ run c kind t0 dt ins s, ∀ e d d', (e, d) ∈ q.tab → (e, d') ∈ r.tab → r.elapsed < q.setAt + c.duration → d' = d) ∧
      Keeps c.duration (run c kind t0 dt ins s) ∧ Young c.duration (run c kind t0 dt ins s) ∧ OneEach (run c kind t0 dt ins s)
  | [], past, s, _, _ => ⟨fun _ _ r h => (by cases h), List.Pairwise.nil, fun r h => (by cases h), fun r h => (by cases h)⟩
  | i :: is, past, s, hi, hq => by
      obtain ⟨hi1, hsh⟩ := step_inv hm hi (hq i List.mem_cons_self)
      obtain ⟨h1, h2, h3, h4⟩ := run_shows hm hi1 (fun j hj => hq j (List.mem_cons_of_mem _ hj))
      unfold run
      refine ⟨?_, ?_, ?_, ?_⟩
      · intro q hqp r' hr'
        rcases List.mem_cons.mp hr' with rfl | hr'
        · exact hsh.keeps q hqp
        · exact h1 q (List.mem_append_left _ hqp) r' hr'
      · exact List.Pairwise.cons (fun r' hr' => h1 _ (by simp) r' hr') h2
      · intro r' hr'
        rcases List.mem_cons.mp hr' with rfl | hr'
        · exact hsh.young
        · exact h3 r' hr'
      · intro r' hr'
        rcases List.mem_cons.mp hr' with rfl | hr'
        · exact hsh.one
        · exact h4 r' hr'

/-! ## C343 -/

/-- The claim: in every run each uncertain element keeps its own draw while it is young. -/
def C343_claim : Prop :=
  ∀ (c : UPar) (kind : Kind) (t0 dt : Rat) (n : Nat) (ins : List (In Nat)), Keeps c.duration (run c kind t0 dt ins (LSt.init n))

/-- C343 as far as it holds: in a run, of any length and with any releases and removals, in which no element is removed in a step in which the mover is not active, every uncertain element of a compiled mover keeps the numbers drawn for it until they are `uncertain_duration` old, no number is older than that, and each element has at most one row; gridded movers in runs forwards.  Missing: removals while the mover is not active. -/
theorem C343_keeps_partial {c : UPar} {kind : Kind} {t0 dt : Rat} {n : Nat} {ins : List (In D)} (hm : kind.grid = true → 0 ≤ dt)
    (hq : ∀ i ∈ ins, i.active = false → ∀ e, i.gone e = false) :
    Keeps c.duration (run c kind t0 dt ins (LSt.init n)) ∧ Young c.duration (run c kind t0 dt ins (LSt.init n)) ∧
      OneEach (run c kind t0 dt ins (LSt.init n)) :=
  (run_shows hm (inv_init c kind t0 dt n) hq).2

/-- C343 fails for a mover that is off while element 0 leaves and another one is released: element 1 gets the row of element 0. -/
theorem C343_counterexample : ¬ C343_claim := by
  intro h
  have := h ⟨0, 10800⟩ .cats 0 900 2 offStep
  rw [show run ⟨0, 10800⟩ .cats 0 900 offStep (LSt.init 2) =
      [⟨0, 0, [0, 1], [(0, 0), (1, 1)]⟩, ⟨900, 0, [0, 1], []⟩, ⟨1800, 0, [1, 2], [(1, 0), (2, 1)]⟩] by decide +kernel,
    Keeps, List.pairwise_cons] at this
  have := this.1 _ (by simp : (⟨1800, 0, [1, 2], [(1, 0), (2, 1)]⟩ : Row Nat) ∈ _) 1 1 0 (by simp) (by simp) (by norm_num)
  cases this

/-- A case of `C343_keeps_partial`: an element that leaves takes its row along, one that comes gets a new one. -/
example : run (D := Nat) ⟨0, 10800⟩ .gridWind 0 900
    [⟨1, 1, true, fun e => e == 1, fun i => 10 + i, id⟩, ⟨0, 1, true, fun _ => false, fun i => 20 + i, id⟩] (LSt.init 2) =
    [⟨900, 900, [0, 1, 2], [(0, 0), (1, 1), (2, 2)]⟩, ⟨1800, 900, [0, 2, 3], [(0, 0), (2, 2), (3, 22)]⟩] := by decide +kernel

/-! ## C344 -/

/-- The step in which the mover is first active. -/
def firstActive (ins : List (In D)) : Nat := ins.findIdx (fun i => i.active)

theorem update_before {c : UPar} {ω ω' : Nat → D} {num : Nat} {el : Rat} {s : LUnc D} (h : el < c.delay) :
    (update c ω ω' num el s).list = none := by
  unfold update
  rw [if_pos h]
  cases hl : s.list with
  | none => simpa using hl
  | some l => rfl

/-- After the delay there are as many rows as elements, whatever has happened before. -/
theorem update_after {c : UPar} {ω ω' : Nat → D} {num : Nat} {el : Rat} {s : LUnc D} (h : c.delay ≤ el) :
    ∃ l, (update c ω ω' num el s).list = some l ∧ l.length = num := by
  unfold update
  rw [if_neg (not_lt.mpr h)]
  cases s.list with
  | none => exact ⟨_, rfl, by simp⟩
  | some l =>
      simp only
      split
      · exact ⟨_, rfl, by simp⟩
      · next h1 =>
          have h2 : ¬ num < l.length := fun h' => h1 (Or.inr h')
          split
          · refine ⟨_, rfl, ?_⟩
            rw [List.length_map, List.length_range]
            split_ifs <;> (try simp) <;> omega
          · refine ⟨_, rfl, ?_⟩
            split_ifs <;> (try simp) <;> omega

theorem update_keepsStart {c : UPar} {ω ω' : Nat → D} {num : Nat} {el : Rat} {s : LUnc D} :
    (update c ω ω' num el s).start = s.start ∧ (update c ω ω' num el s).first = s.first := by
  unfold update
  split
  · split <;> exact ⟨rfl, rfl⟩
  · split
    · exact ⟨rfl, rfl⟩
    · simp only
      split
      · exact ⟨rfl, rfl⟩
      · split <;> exact ⟨rfl, rfl⟩

theorem reallocate_keeps {gone : Nat → Bool} {elems : List Nat} {s : LUnc D} : (reallocate gone elems s).start = s.start := by
  unfold reallocate
  split
  · rfl
  · simp only
    repeat' split
    all_goals rfl

/-- The rows applied in an active step, given the start that the mover has then. -/
theorem shown_tab {c : UPar} {kind : Kind} {t0 dt : Rat} {i : In D} {s : LSt D} (ha : i.active = true) :
    if c.delay ≤ kind.elapsed (t0 + s.k * dt) dt (markStart (t0 + s.k * dt) s.unc).start
    then (shown c kind t0 dt i s).tab.map Prod.fst = (shown c kind t0 dt i s).elems
    else (shown c kind t0 dt i s).tab = [] := by
  split
  · next h =>
      obtain ⟨l, hl, hlen⟩ := update_after (ω := i.ω) (ω' := i.ω') (num := (moved i s).length) (s := markStart (t0 + s.k * dt) s.unc) h
      change (applied i.active (prepared c kind t0 dt i s).list (moved i s)).map Prod.fst = moved i s
      unfold prepared prepare
      rw [ha]
      simp only [if_true, hl, applied]
      exact List.map_fst_zip (le_of_eq hlen.symm)
  · next h =>
      have hl := update_before (ω := i.ω) (ω' := i.ω') (num := (moved i s).length) (s := markStart (t0 + s.k * dt) s.unc) (not_le.mp h)
      change applied i.active (prepared c kind t0 dt i s).list (moved i s) = []
      unfold prepared prepare
      rw [ha]
      simp only [if_true, hl, applied]

/-- Uncertainty in the active steps of a run, counted from the first active one at `f`. -/
theorem run_delay {c : UPar} {kind : Kind} {t0 dt : Rat} : ∀ (ins : List (In D)) (s : LSt D) (f : Nat),
    (s.unc.first = true → f = s.k + firstActive ins) → (s.unc.first = false → s.unc.start = t0 + f * dt) →
    ∀ (j : Nat) i r, ins[j]? = some i → (run c kind t0 dt ins s)[j]? = some r → i.active = true →
      if c.delay ≤ kind.elapsed (t0 + ((s.k + j : Nat) : Rat) * dt) dt (t0 + f * dt) then r.tab.map Prod.fst = r.elems else r.tab = []
  | [], _, _, _, _, _, _, _, hj, _, _ => by simp at hj
  | i :: is, s, f, h1, h2, 0, i', r, hj, hr, ha => by
      simp only [List.getElem?_cons_zero, Option.some.injEq] at hj
      subst hj
      simp only [run, List.getElem?_cons_zero, Option.some.injEq] at hr
      subst hr
      have := shown_tab (c := c) (kind := kind) (t0 := t0) (dt := dt) (s := s) ha
      have hst : (markStart (t0 + s.k * dt) s.unc).start = t0 + f * dt := by
        unfold markStart
        cases hf : s.unc.first with
        | true =>
            have := h1 hf
            simp only [firstActive, List.findIdx_cons, ha, cond_true, Nat.add_zero] at this
            rw [this]
            rfl
        | false => exact h2 hf
      rw [hst] at this
      simpa using this
  | i :: is, s, f, h1, h2, j + 1, i', r, hj, hr, ha => by
      simp only [List.getElem?_cons_succ] at hj
      simp only [run, List.getElem?_cons_succ] at hr
      have := run_delay is (next c kind t0 dt i s) f ?_ ?_ j i' r hj hr ha
      · rw [show s.k + (j + 1) = (next c kind t0 dt i s).k + j by change s.k + (j + 1) = s.k + 1 + j; omega]
        exact this
      · intro hf
        change (stepDone i.active i.gone (moved i s) (prepared c kind t0 dt i s)).first = true at hf
        cases hia : i.active with
        | true => rw [hia] at hf; cases hf
        | false =>
            rw [hia] at hf
            have hp : prepared c kind t0 dt i s = s.unc := by unfold prepared prepare; rw [hia]; rfl
            rw [hp] at hf
            have := h1 hf
            simp only [firstActive, List.findIdx_cons, hia, cond_false] at this
            change f = s.k + 1 + firstActive is
            unfold firstActive
            omega
      · intro hf
        change (stepDone i.active i.gone (moved i s) (prepared c kind t0 dt i s)).start = t0 + f * dt
        cases hia : i.active with
        | false =>
            have hp : prepared c kind t0 dt i s = s.unc := by unfold prepared prepare; rw [hia]; rfl
            rw [hp]
            refine h2 ?_
            change (stepDone i.active i.gone (moved i s) (prepared c kind t0 dt i s)).first = false at hf
            rw [hia, hp] at hf
            exact hf
        | true =>
            change (reallocate i.gone (moved i s) (prepared c kind t0 dt i s)).start = _
            rw [reallocate_keeps]
            unfold prepared prepare
            rw [hia]
            simp only [if_true]
            rw [update_keepsStart.1]
            unfold markStart
            cases hff : s.unc.first with
            | true =>
                have := h1 hff
                simp only [firstActive, List.findIdx_cons, hia, cond_true, Nat.add_zero] at this
                rw [this]
                rfl
            | false => exact h2 hff

/-- Spec: the elements are uncertain from `delay` seconds after the start of the model on (`w = 1`: the seconds at the end of the step). -/
def DelayedBy (delay w dt : Rat) (ins : List (In D)) (rows : List (Row D)) : Prop :=
  ∀ (j : Nat) i r, ins[j]? = some i → rows[j]? = some r → i.active = true →
    if delay ≤ |((j : Rat) + w) * dt| then r.tab.map Prod.fst = r.elems else r.tab = []

/-- The claim: uncertainty of active movers begins `uncertain_time_delay` after the start of the model (for winds: counted to the end of the step). -/
def C344_claim : Prop :=
  ∀ (c : UPar) (kind : Kind) (t0 dt : Rat) (n : Nat) (ins : List (In Nat)), DelayedBy c.delay kind.w dt ins (run c kind t0 dt ins (LSt.init n))

/-- C344 as far as it holds: for a mover that is active in the first step, in runs forwards, and in runs backwards if it is not a gridded mover, whatever is released and removed and whenever the mover is off later. -/
theorem C344_delay_partial {c : UPar} {kind : Kind} {t0 dt : Rat} {n : Nat} {ins : List (In D)} (hm : kind.grid = true → 0 ≤ dt)
    (h0 : ∀ i, ins[0]? = some i → i.active = true) : DelayedBy c.delay kind.w dt ins (run c kind t0 dt ins (LSt.init n)) := by
  intro j i r hj hr ha
  have hf : firstActive ins = 0 := by
    cases ins with
    | nil => rfl
    | cons i0 is => simp [firstActive, List.findIdx_cons, h0 i0 rfl]
  have := run_delay (c := c) (kind := kind) (t0 := t0) (dt := dt) ins (LSt.init n) 0 (fun _ => by rw [hf]; rfl)
    (fun h => by simp [LSt.init, LUnc.begin] at h) j i r hj hr ha
  rw [elapsed_eq hm (Nat.zero_le _)] at this
  rw [abs_mul, abs_of_nonneg (by have := kind.w_nonneg; positivity : (0 : Rat) ≤ (j : Rat) + kind.w)]
  simpa [LSt.init] using this

/-- The delay of a mover that is switched on later counts from the step in which it is first active. -/
theorem C344_late {c : UPar} {kind : Kind} {t0 dt : Rat} {n : Nat} {ins : List (In D)} (hm : kind.grid = true → 0 ≤ dt)
    {j : Nat} {i : In D} {r : Row D} (hj : ins[j]? = some i) (hr : (run c kind t0 dt ins (LSt.init n))[j]? = some r) (ha : i.active = true) :
    if c.delay ≤ ((j : Rat) - firstActive ins + kind.w) * |dt| then r.tab.map Prod.fst = r.elems else r.tab = [] := by
  have hle : firstActive ins ≤ j := by
    by_contra hc
    have := List.not_of_lt_findIdx (not_le.mp hc)
    rw [List.getElem?_eq_some_iff] at hj
    obtain ⟨_, hj⟩ := hj
    rw [hj, ha] at this
    cases this
  have := run_delay (c := c) (kind := kind) (t0 := t0) (dt := dt) ins (LSt.init n) (firstActive ins)
    (fun _ => by simp [LSt.init]) (fun h => by simp [LSt.init, LUnc.begin] at h) j i r hj hr ha
  rw [show (LSt.init (D := D) n).k + j = j by simp [LSt.init], elapsed_eq hm hle] at this
  exact this

/-- In a run backwards a gridded current is uncertain in its first active step only, if its delay is not negative; a gridded wind never is. -/
theorem C344_backwards {c : UPar} {kind : Kind} {t0 dt : Rat} {n : Nat} {ins : List (In D)} (hg : kind.grid = true) (hdt : dt < 0) (hd : 0 ≤ c.delay)
    {j : Nat} {i : In D} {r : Row D} (hj : ins[j]? = some i) (hr : (run c kind t0 dt ins (LSt.init n))[j]? = some r) (ha : i.active = true)
    (hlate : firstActive ins < j ∨ kind = .gridWind) : r.tab = [] := by
  have hle : firstActive ins ≤ j := by
    by_contra hc
    have := List.not_of_lt_findIdx (not_le.mp hc)
    rw [List.getElem?_eq_some_iff] at hj
    obtain ⟨_, hj⟩ := hj
    rw [hj, ha] at this
    cases this
  have hleq : ((firstActive ins : Nat) : Rat) ≤ j := by exact_mod_cast hle
  have := run_delay (c := c) (kind := kind) (t0 := t0) (dt := dt) ins (LSt.init n) (firstActive ins)
    (fun _ => by simp [LSt.init]) (fun h => by simp [LSt.init, LUnc.begin] at h) j i r hj hr ha
  rw [show (LSt.init (D := D) n).k + j = j by simp [LSt.init]] at this
  have hneg : kind.elapsed (t0 + (j : Rat) * dt) dt (t0 + firstActive ins * dt) < 0 := by
    cases kind with
    | cats => cases hg
    | pointWind => cases hg
    | gridCurrent =>
        simp only [Kind.elapsed]
        rcases hlate with h | h
        · have : ((firstActive ins : Nat) : Rat) + 1 ≤ j := by exact_mod_cast h
          nlinarith
        · cases h
    | gridWind =>
        simp only [Kind.elapsed]
        nlinarith
  rw [if_neg (not_le.mpr (lt_of_lt_of_le hneg hd))] at this
  exact this

/-- C344 fails backwards: an hour before the start a gridded current has no uncertainty, though there is no delay. -/
theorem C344_counterexample : ¬ C344_claim := by
  intro h
  have := h ⟨0, 86400⟩ .gridCurrent 0 (-3600) 1 [⟨0, 0, true, fun _ => false, id, id⟩, ⟨0, 0, true, fun _ => false, id, id⟩] 1 _ _ rfl rfl rfl
  rw [if_pos (by positivity)] at this
  exact absurd this (by decide +kernel)

/-- C344 fails also forwards for a mover that is switched on later. -/
theorem C344_counterexample_late : ¬ C344_claim := by
  intro h
  have := h ⟨900, 86400⟩ .cats 0 900 1 [⟨0, 0, false, fun _ => false, id, id⟩, ⟨0, 0, true, fun _ => false, id, id⟩] 1 _ _ rfl rfl rfl
  rw [if_pos (by norm_num [Kind.w, Kind.wind])] at this
  exact absurd this (by decide +kernel)

/-- Cases: two steps backwards in a gridded and in a CATS current. -/
example : (run (D := Nat) ⟨0, 86400⟩ .gridCurrent 0 (-3600) [⟨0, 0, true, fun _ => false, id, id⟩, ⟨0, 0, true, fun _ => false, id, id⟩] (LSt.init 1)).map Row.tab
    = [[(0, 0)], []] ∧
    (run (D := Nat) ⟨0, 86400⟩ .cats 0 (-3600) [⟨0, 0, true, fun _ => false, id, id⟩, ⟨0, 0, true, fun _ => false, id, id⟩] (LSt.init 1)).map Row.tab
    = [[(0, 0)], [(0, 0)]] := by decide +kernel

/-! ## C345: units -/

/-- The documentation: `uncertain_duration` and `uncertain_time_delay` are seconds. -/
def documented (duration delay : Rat) : UPar := ⟨delay, duration⟩

/-- The claim: draws are renewed and uncertainty begins after the documented numbers of seconds. -/
def C345_claim : Prop :=
  ∀ (duration delay : Rat) (kind : Kind) (t0 dt : Rat) (n : Nat) (ins : List (In Nat)), 0 < dt → (∀ i ∈ ins, i.active = true) →
    Young (documented duration delay).duration (run (hours duration delay) kind t0 dt ins (LSt.init n)) ∧
    DelayedBy (documented duration delay).delay kind.w dt ins (run (hours duration delay) kind t0 dt ins (LSt.init n))

/-- What is given is taken as hours, in every kind of compiled mover. -/
theorem C345_hours_partial {duration delay : Rat} {kind : Kind} {t0 dt : Rat} {n : Nat} {ins : List (In D)} (hdt : 0 < dt)
    (ha : ∀ i ∈ ins, i.active = true) :
    Young (duration * 3600) (run (hours duration delay) kind t0 dt ins (LSt.init n)) ∧
    Keeps (duration * 3600) (run (hours duration delay) kind t0 dt ins (LSt.init n)) ∧
    DelayedBy (delay * 3600) kind.w dt ins (run (hours duration delay) kind t0 dt ins (LSt.init n)) := by
  have h := C343_keeps_partial (c := hours duration delay) (kind := kind) (t0 := t0) (dt := dt) (n := n) (ins := ins) (fun _ => le_of_lt hdt)
    (fun i hi hf => by rw [ha i hi] at hf; cases hf)
  refine ⟨h.2.1, h.1, C344_delay_partial (c := hours duration delay) (fun _ => le_of_lt hdt) ?_⟩
  intro i hi
  exact ha i (List.mem_of_getElem? hi)

/-- C345 fails: with `uncertain_duration = 3 * 3600`, as in the documentation of PointWindMover, the draws of the first step are still used after four hours. -/
theorem C345_counterexample : ¬ C345_claim := by
  intro h
  have := (h (3 * 3600) 0 .pointWind 0 14400 1 [⟨0, 0, true, fun _ => false, id, id⟩, ⟨0, 0, true, fun _ => false, id, id⟩] (by norm_num) (by simp)).1
  have := this ⟨28800, 14400, [0], [(0, 0)]⟩ (by decide +kernel) (by simp)
  norm_num [documented] at this

/-- A case of `C345_hours_partial`: a duration of 3 renews the draws after three hours. -/
example : (run (D := Nat) (hours 3 0) .pointWind 0 10800 [⟨0, 0, true, fun _ => false, id, id⟩, ⟨0, 0, true, fun _ => false, id, fun _ => 7⟩] (LSt.init 1)).map Row.tab
    = [[(0, 0)], [(0, 7)]] := by decide +kernel

end Verif.Mover.LibUnc
