import Verif.Release.Lemmas
/-!
# Properties C16–C19: releases
-/
namespace Verif.Release

/-- A valid setting: the duration is not negative and preparation with time step `ts` succeeds. -/
def Ready (c : Cfg) (ts : ℚ) (p : Prepared) : Prop := 0 ≤ c.dur ∧ prepare c ts = some p

theorem Ready.elim {c : Cfg} {ts : ℚ} {p : Prepared} (h : Ready c ts p) :
    p.rt = c.rt ∧ p.times = times c ts ∧ p.vals = vals c ts ∧ p.massPer = c.mass / maxRelease c ts ∧
    (0 < ts ∨ c.dur = 0) ∧ 0 < maxRelease c ts ∧ p.dur = c.dur := by
  obtain ⟨h0, h1⟩ := h
  unfold prepare at h1
  split at h1
  · exact absurd h1 (by simp)
  · rename_i hc
    split at h1
    · exact absurd h1 (by simp)
    · rename_i hr
      cases h1
      refine ⟨rfl, rfl, rfl, rfl, ?_, ?_, rfl⟩
      · by_cases hd : c.dur = 0
        · exact Or.inr hd
        · left
          by_contra hneg
          exact hc ⟨by linarith, hd⟩
      · unfold ratio at hr
        unfold maxRelease
        have hn := numTs_pos c ts
        cases ha : c.amount with
        | total n =>
          simp only [ha] at hr ⊢
          rcases Nat.eq_zero_or_pos n with rfl | hp
          · simp at hr
          · exact hp
        | perStep n =>
          simp only [ha] at hr ⊢
          rcases Nat.eq_zero_or_pos n with rfl | hp
          · simp at hr
          · positivity

/-- **C16.** The number of elements due: zero before the release time, non-decreasing, between 0 and the total at all
times, and equal to the total from the end of the release on. -/
theorem C16_release_count (c : Cfg) (ts : ℚ) (p : Prepared) (h : Ready c ts p) :
    (∀ t, t < c.rt → numAfter p t = 0) ∧
    (∀ t t', t ≤ t' → numAfter p t ≤ numAfter p t') ∧
    (∀ t, 0 ≤ numAfter p t ∧ numAfter p t ≤ maxRelease c ts) ∧
    (∀ t, c.rt + c.dur ≤ t → numAfter p t = maxRelease c ts) := by
  obtain ⟨e1, e2, e3, e4, hts, hmax, e5⟩ := h.elim
  have hax := axis_series c ts h.1 hts
  have hb : ∀ t, (0 : ℚ) ≤ seriesAt p.times p.vals t ∧ seriesAt p.times p.vals t ≤ (maxRelease c ts : ℚ) := by
    intro t
    have := seriesAt_bounds hax t
    rw [times_length, Nat.add_sub_cancel, vals_last] at this
    rw [e2, e3]
    exact ⟨le_trans (vals_first c ts) this.1, this.2⟩
  have hb' : ∀ t, 0 ≤ numAfter p t ∧ numAfter p t ≤ maxRelease c ts := by
    intro t
    unfold numAfter
    split
    · exact ⟨le_refl _, by positivity⟩
    · refine ⟨Int.ceil_nonneg (hb t).1, ?_⟩
      rw [Int.ceil_le]
      exact_mod_cast (hb t).2
  refine ⟨?_, ?_, hb', ?_⟩
  · intro t ht
    unfold numAfter
    rw [if_pos (by rw [e1]; exact ht)]
  · intro t t' hle
    by_cases ht : t < p.rt
    · have : numAfter p t = 0 := by unfold numAfter; rw [if_pos ht]
      rw [this]; exact (hb' t').1
    · unfold numAfter
      rw [if_neg ht, if_neg (by linarith)]
      apply Int.ceil_le_ceil
      rw [e2, e3]
      exact seriesAt_mono hax hle
  · intro t ht
    unfold numAfter
    have hd := h.1
    rw [if_neg (by rw [e1]; linarith), e2, e3]
    rcases eq_or_lt_of_le hd with h0 | h0
    · -- instantaneous: both values are the total
      have hb := seriesAt_bounds hax t
      rw [times_length, Nat.add_sub_cancel, vals_last, vals_inst c ts h0.symm 0 (by omega)] at hb
      rw [le_antisymm hb.2 hb.1]
      simp
    · have hl := seriesAt_last hax (t := t) (by
        rw [times_length, Nat.add_sub_cancel, times_getD c ts h0 _ (by omega), if_pos rfl]; exact ht)
      rw [hl, times_length, Nat.add_sub_cancel, vals_last]
      simp

/-- **C16**, settings: a release given by a total has that total; given per time step it is that number times the
number of steps needed for the release. -/
theorem C16_total (c : Cfg) (ts : ℚ) (n : Nat) : (c.amount = .total n → maxRelease c ts = n) ∧
    (c.amount = .perStep n → maxRelease c ts = n * numTs c ts) := by
  constructor <;> intro h <;> simp [maxRelease, h]

/-- a continuous release: 10 elements over 2.5 steps -/
def exCfg : Cfg := { rt := 100, dur := 9000, amount := .total 10, mass := 50 }

theorem exNum : numTs exCfg 3600 = 3 := by
  have h : ⌈exCfg.dur / (3600 : ℚ)⌉ = 3 := by
    have : exCfg.dur / (3600 : ℚ) = 5 / 2 := by norm_num [exCfg]
    rw [this]
    rw [Int.ceil_eq_iff]
    norm_num
  unfold numTs
  simp [h]

example : ∃ p, Ready exCfg 3600 p := by
  unfold Ready prepare ratio
  rw [exNum]
  norm_num [exCfg]

/-! ## C17 -/

/-- latest end among the intervals in which the spill was on; spills that were never on have released nothing -/
theorem release_step (p : Prepared) (spec scale : ℚ) (s : Spill) (c : Call) :
    (releaseElements p spec scale s c).1.numReleased =
      (if c.on then max s.numReleased (numAfter p c.stop) else s.numReleased) ∧
    ((releaseElements p spec scale s c).2.toList.map (·.n)).sum =
      (releaseElements p spec scale s c).1.numReleased - s.numReleased := by
  unfold releaseElements
  cases c.on with
  | false => simp
  | true =>
    simp only [Bool.not_true, Bool.false_eq_true, if_false, if_true]
    split
    · rename_i h; simp; omega
    · rename_i h; simp; omega

/-- the elements released over a schedule are the increase of the counter -/
theorem runCalls_sum (p : Prepared) (spec scale : ℚ) (s : Spill) (cs : List Call) :
    ((runCalls p spec scale s cs).2.map (·.n)).sum = (runCalls p spec scale s cs).1.numReleased - s.numReleased := by
  induction cs generalizing s with
  | nil => simp [runCalls]
  | cons c cs ih =>
    simp only [runCalls, List.map_append, List.sum_append, ih]
    rw [(release_step p spec scale s c).2]
    omega

/-- consecutive intervals: each starts where the previous one stopped and does not run backwards -/
def Consecutive (a : ℚ) : List Call → Prop
  | [] => True
  | c :: cs => c.start = a ∧ a ≤ c.stop ∧ c.on = true ∧ Consecutive c.stop cs

/-- where consecutive intervals end -/
def endOf (a : ℚ) : List Call → ℚ
  | [] => a
  | c :: cs => endOf c.stop cs

/-- **C17.** Whatever the cut points, releasing over consecutive intervals from `a` to `b` (with what is due by `a`
already released) releases exactly what is due by `b` minus what is due by `a`. -/
theorem C17_cut_independent (c : Cfg) (ts : ℚ) (p : Prepared) (h : Ready c ts p) (spec scale a : ℚ) (s : Spill)
    (cs : List Call) (hcs : Consecutive a cs) (hs : s.numReleased = numAfter p a) :
    (runCalls p spec scale s cs).1.numReleased = numAfter p (endOf a cs) ∧
    ((runCalls p spec scale s cs).2.map (·.n)).sum = numAfter p (endOf a cs) - numAfter p a := by
  have hmono := (C16_release_count c ts p h).2.1
  have key : (runCalls p spec scale s cs).1.numReleased = numAfter p (endOf a cs) := by
    induction cs generalizing s a with
    | nil => simpa [runCalls, endOf] using hs
    | cons x cs ih =>
      obtain ⟨h1, h2, h3, h4⟩ := hcs
      simp only [runCalls, endOf]
      apply ih x.stop _ h4
      rw [(release_step p spec scale s x).1, if_pos h3, hs]
      exact max_eq_right (hmono a x.stop h2)
  refine ⟨key, ?_⟩
  rw [runCalls_sum, key, hs]

/-- **C17**, two runs: the same release cut in two ways up to the same end time gives the same number of elements. -/
theorem C17_two_runs (c : Cfg) (ts : ℚ) (p : Prepared) (h : Ready c ts p) (spec scale a : ℚ) (cs ds : List Call)
    (hcs : Consecutive a cs) (hds : Consecutive a ds) (he : endOf a cs = endOf a ds) (ha : a < c.rt) :
    ((runCalls p spec scale fresh cs).2.map (·.n)).sum = ((runCalls p spec scale fresh ds).2.map (·.n)).sum := by
  have h0 : fresh.numReleased = numAfter p a := by
    rw [(C16_release_count c ts p h).1 a ha]; rfl
  rw [(C17_cut_independent c ts p h spec scale a fresh cs hcs h0).2,
    (C17_cut_independent c ts p h spec scale a fresh ds hds h0).2, he]

/-- **C17**, switching the spill off and on: elements missed while it was off are released in the first interval in
which it is on again; the total is what is due at the end of the latest interval in which it was on. -/
theorem C17_catches_up (c : Cfg) (ts : ℚ) (p : Prepared) (h : Ready c ts p) (spec scale : ℚ) (s : Spill) (x : Call)
    (cs : List Call) (hon : x.on = true) (hlast : ∀ y ∈ cs, y.on = true → y.stop ≤ x.stop)
    (hs : s.numReleased ≤ numAfter p x.stop) :
    (runCalls p spec scale s (cs ++ [x])).1.numReleased = numAfter p x.stop := by
  have hmono := (C16_release_count c ts p h).2.1
  induction cs generalizing s with
  | nil =>
    simp only [List.nil_append, runCalls]
    rw [(release_step p spec scale s x).1, if_pos hon]
    exact max_eq_right hs
  | cons y cs ih =>
    simp only [List.cons_append, runCalls]
    apply ih _ (fun z hz => hlast z (List.mem_cons_of_mem _ hz))
    rw [(release_step p spec scale s y).1]
    split
    · rename_i hy
      exact max_le hs (hmono _ _ (hlast y List.mem_cons_self hy))
    · exact hs

example : Consecutive 0 [⟨0, 50, true⟩, ⟨50, 3700, true⟩] ∧ endOf 0 [⟨0, 50, true⟩, ⟨50, 3700, true⟩] = 3700 ∧
    Consecutive 0 [⟨0, 3700, true⟩] ∧ (0 : ℚ) < exCfg.rt := by
  refine ⟨⟨rfl, by norm_num, rfl, rfl, by norm_num, rfl, trivial⟩, rfl, ⟨rfl, by norm_num, rfl, trivial⟩, ?_⟩
  norm_num [exCfg]

/-! ## C18 -/

/-- total initial mass of the elements released over a schedule -/
def massOf (bs : List Batch) : ℚ := (bs.map (fun b => (b.n : ℚ) * b.mass)).sum

theorem massOf_eq (p : Prepared) (spec scale : ℚ) (s : Spill) (cs : List Call) :
    massOf (runCalls p spec scale s cs).2 = ((runCalls p spec scale s cs).1.numReleased - s.numReleased : Int) * p.massPer := by
  have hall : ∀ b ∈ (runCalls p spec scale s cs).2, b.mass = p.massPer := by
    induction cs generalizing s with
    | nil => simp [runCalls]
    | cons c cs ih =>
      intro b hb
      simp only [runCalls, List.mem_append] at hb
      rcases hb with hb | hb
      · unfold releaseElements at hb
        revert hb
        cases c.on with
        | false => simp
        | true =>
          simp only [Bool.not_true, Bool.false_eq_true, if_false]
          split
          · simp
          · simp only [Option.toList_some, List.mem_singleton]
            rintro rfl; rfl
      · exact ih _ b hb
  rw [← runCalls_sum]
  generalize (runCalls p spec scale s cs).2 = bs at *
  unfold massOf
  induction bs with
  | nil => simp
  | cons b bs ih =>
    simp only [List.map_cons, List.sum_cons]
    rw [ih (fun x hx => hall x (List.mem_cons_of_mem _ hx)), hall b List.mem_cons_self]
    push_cast; ring

/-- **C18.** Over any schedule of calls (also with the spill switched off and on) of a new spill the total initial
mass is (elements released)·(mass/total number), never more than the release mass; once an interval with the spill on
reaches the end of the release it equals the release mass. -/
theorem C18_released_mass (c : Cfg) (ts : ℚ) (p : Prepared) (h : Ready c ts p) (hm : 0 ≤ c.mass) (spec scale : ℚ)
    (cs : List Call) :
    massOf (runCalls p spec scale fresh cs).2 =
      ((runCalls p spec scale fresh cs).2.map (·.n)).sum * (c.mass / maxRelease c ts) ∧
    massOf (runCalls p spec scale fresh cs).2 ≤ c.mass ∧
    ((∃ x ∈ cs, x.on = true ∧ c.rt + c.dur ≤ x.stop) → massOf (runCalls p spec scale fresh cs).2 = c.mass) := by
  obtain ⟨e1, e2, e3, e4, hts, hmax, e5⟩ := h.elim
  obtain ⟨_, hmono, hb, hend⟩ := C16_release_count c ts p h
  have hN : (0 : ℚ) < maxRelease c ts := by exact_mod_cast hmax
  have hm0 := massOf_eq p spec scale fresh cs
  have hs0 := runCalls_sum p spec scale fresh cs
  have hfr : fresh.numReleased = 0 := rfl
  -- the counter stays between its value and the total
  have hle : ∀ (s : Spill) (cs : List Call), s.numReleased ≤ maxRelease c ts →
      (runCalls p spec scale s cs).1.numReleased ≤ maxRelease c ts ∧
      s.numReleased ≤ (runCalls p spec scale s cs).1.numReleased := by
    intro s cs
    induction cs generalizing s with
    | nil => intro hs; exact ⟨hs, le_refl _⟩
    | cons x cs ih =>
      intro hs
      simp only [runCalls]
      have hst := (release_step p spec scale s x).1
      have h1 : (releaseElements p spec scale s x).1.numReleased ≤ maxRelease c ts := by
        rw [hst]; split
        · exact max_le hs (hb _).2
        · exact hs
      have h2 : s.numReleased ≤ (releaseElements p spec scale s x).1.numReleased := by
        rw [hst]; split
        · exact le_max_left _ _
        · exact le_refl _
      exact ⟨(ih _ h1).1, le_trans h2 (ih _ h1).2⟩
  have hreach : ∀ (s : Spill) (cs : List Call), s.numReleased ≤ maxRelease c ts →
      (∃ x ∈ cs, x.on = true ∧ c.rt + c.dur ≤ x.stop) →
      (runCalls p spec scale s cs).1.numReleased = maxRelease c ts := by
    intro s cs
    induction cs generalizing s with
    | nil => rintro _ ⟨x, hx, _⟩; cases hx
    | cons y cs ih =>
      rintro hs ⟨x, hx, hon, hxe⟩
      simp only [runCalls]
      have hst := (release_step p spec scale s y).1
      have h1 : (releaseElements p spec scale s y).1.numReleased ≤ maxRelease c ts := by
        rw [hst]; split
        · exact max_le hs (hb _).2
        · exact hs
      rcases List.mem_cons.1 hx with rfl | hx
      · have h3 : (releaseElements p spec scale s x).1.numReleased = maxRelease c ts := by
          rw [hst, if_pos hon, hend _ hxe]; exact max_eq_right hs
        exact le_antisymm (hle _ cs h1).1 (by rw [← h3]; exact (hle _ cs h1).2)
      · exact ih _ h1 ⟨x, hx, hon, hxe⟩
  refine ⟨?_, ?_, ?_⟩
  · rw [hm0, hs0, e4]
  · rw [hm0, e4, hfr]
    have h1 := (hle fresh cs (by rw [hfr]; positivity)).1
    have h2 : (((runCalls p spec scale fresh cs).1.numReleased - 0 : Int) : ℚ) ≤ maxRelease c ts := by
      have : (runCalls p spec scale fresh cs).1.numReleased - 0 ≤ (maxRelease c ts : Int) := by omega
      exact_mod_cast this
    rw [mul_div_assoc', div_le_iff₀ hN]
    nlinarith
  · intro hx
    rw [hm0, hreach fresh cs (by rw [hfr]; positivity) hx, e4, hfr]
    push_cast
    field_simp
    ring

/-! ## C19 -/

/-- the claim of C19: after a rewind the same schedule gives the same batches (numbers and initial values) -/
def C19_claim : Prop := ∀ (k : Kind) (p : Prepared) (spec scale : ℚ) (cs ds : List Call),
  (runCalls p spec scale (rewind k (runCalls p spec scale fresh ds).1) cs).2 = (runCalls p spec scale fresh cs).2

/-- forgetting the cumulative volume -/
def stripBulk (b : Batch) : Batch := { b with bulk := 0 }

theorem run_strip (p : Prepared) (spec scale : ℚ) (s s' : Spill) (h : s.numReleased = s'.numReleased) (cs : List Call) :
    (runCalls p spec scale s cs).1.numReleased = (runCalls p spec scale s' cs).1.numReleased ∧
    (runCalls p spec scale s cs).2.map stripBulk = (runCalls p spec scale s' cs).2.map stripBulk := by
  induction cs generalizing s s' with
  | nil => exact ⟨h, rfl⟩
  | cons c cs ih =>
    simp only [runCalls, List.map_append]
    have h1 : (releaseElements p spec scale s c).1.numReleased = (releaseElements p spec scale s' c).1.numReleased := by
      rw [(release_step p spec scale s c).1, (release_step p spec scale s' c).1, h]
    have h2 : (releaseElements p spec scale s c).2.toList.map stripBulk =
        (releaseElements p spec scale s' c).2.toList.map stripBulk := by
      unfold releaseElements
      rw [h]
      split
      · rfl
      · simp only
        split
        · rfl
        · rfl
    obtain ⟨i1, i2⟩ := ih _ _ h1
    exact ⟨i1, by rw [h2, i2]⟩

/-- **C19, part that holds**: for releases whose rewind is the base-class one everything is reproduced; for point and
line releases the numbers, masses and positions are. Missing: the cumulative volume (`bulk_init_volume`, hence the
initial spreading area) of point and line releases. -/
theorem C19_rewind_partial (p : Prepared) (spec scale : ℚ) (cs ds : List Call) :
    (runCalls p spec scale (rewind .base (runCalls p spec scale fresh ds).1) cs).2 =
      (runCalls p spec scale fresh cs).2 ∧
    (runCalls p spec scale (rewind .pointLine (runCalls p spec scale fresh ds).1) cs).2.map stripBulk =
      (runCalls p spec scale fresh cs).2.map stripBulk :=
  ⟨rfl, (run_strip p spec scale (rewind .pointLine (runCalls p spec scale fresh ds).1) fresh rfl cs).2⟩

/-- **C19**, also for continuous base releases nothing depends on the history before the rewind -/
theorem C19_rewind_state (s : Spill) : rewind .base s = fresh := rfl

/-- a prepared continuous point release of 4 elements over 2 steps of 10 s -/
def exP : Prepared := { rt := 0, dur := 20, times := [0, 10, 20], vals := [0, 2, 4], massPer := 3, pos := [0, 0, 0] }

theorem exP_prepared : prepare { rt := 0, dur := 20, amount := .total 4, mass := 12 } 10 = some exP := by
  have hn : numTs { rt := 0, dur := 20, amount := .total 4, mass := 12 } 10 = 2 := by
    have : ⌈(20 : ℚ) / 10⌉ = 2 := by norm_num
    simp [numTs, this]
  unfold prepare ratio
  simp only [hn]
  norm_num [exP, times, vals, maxRelease, hn, linspace, List.range_succ]

theorem exP_at10 : numAfter exP 10 = 2 := by
  norm_num [numAfter, exP, seriesAt, searchsorted, List.takeWhile]

/-- **C19 is false of the code**: after rewinding a continuous point release the cumulative volume is carried over
from the first run, so the initial bulk volume of the elements is different. -/
theorem C19_counterexample : ¬ C19_claim := by
  intro h
  have := h .pointLine exP 1 100 [⟨0, 10, true⟩] [⟨0, 10, true⟩]
  revert this
  have e := exP_at10
  simp [runCalls, releaseElements, e, fresh, rewind, bulkVolume]
  norm_num [exP]

end Verif.Release
