import Verif.Release.Props
/-!
# Properties C16 (batches) and C58: where a point/line release puts its elements
-/
namespace Verif.Release

/-- **C16**, batches: a call either releases nothing and changes nothing or releases at least one element, each with the
prepared mass; a spill that is off releases nothing. -/
theorem C16_batches (p : Prepared) (spec scale : ℚ) (s : Spill) (c : Call) :
    ((releaseElements p spec scale s c).2 = none → (releaseElements p spec scale s c).1 = s) ∧
    (∀ b, (releaseElements p spec scale s c).2 = some b → c.on = true ∧ 1 ≤ b.n ∧ b.mass = p.massPer ∧
      (releaseElements p spec scale s c).1.numReleased = s.numReleased + b.n) := by
  unfold releaseElements
  cases hon : c.on with
  | false => simp
  | true =>
    simp only [Bool.not_true, Bool.false_eq_true, if_false]
    by_cases h : numAfter p c.stop - s.numReleased ≤ 0
    · rw [if_pos h]; simp
    · rw [if_neg h]
      refine ⟨by simp, ?_⟩
      intro b hb
      cases hb
      exact ⟨trivial, by simp only; omega, rfl, rfl⟩

/-! ## C58 -/

/-- the fraction of the line covered at time `t` -/
def frac (c : Cfg) (ts t : ℚ) : ℚ := seriesAt (times c ts) (linspace 0 1 (numTs c ts)) t

theorem axis_pos (c : Cfg) (ts : ℚ) (hd : 0 ≤ c.dur) (hts : 0 < ts ∨ c.dur = 0) :
    Axis (times c ts) (linspace 0 1 (numTs c ts)) := by
  have h := axis_series c ts hd hts
  refine ⟨h.two, by simp [linspace, times_length], h.inc, ?_⟩
  intro i j hij hj
  rw [times_length] at hj
  rw [linspace_getD _ _ _ _ (by omega), linspace_getD _ _ _ _ (by omega)]
  have : (i : ℚ) ≤ j := by exact_mod_cast hij
  have hn : (0 : ℚ) < numTs c ts := by exact_mod_cast numTs_pos c ts
  have := div_le_div_of_nonneg_right this hn.le
  simpa using this

/-- the position series is the affine image of the fraction -/
theorem series_affine (c : Cfg) (ts a b t : ℚ) (hd : 0 ≤ c.dur) (hts : 0 < ts ∨ c.dur = 0) :
    seriesAt (times c ts) (linspace a b (numTs c ts)) t = a + (b - a) * frac c ts t := by
  have hx := axis_pos c ts hd hts
  have hl := times_length c ts
  have hn := numTs_pos c ts
  have hn0 : (numTs c ts : ℚ) ≠ 0 := by exact_mod_cast hn.ne'
  have hlen : ∀ u v : ℚ, (linspace u v (numTs c ts)).length = numTs c ts + 1 := by simp [linspace]
  unfold frac
  by_cases h0 : t ≤ (times c ts).getD 0 0
  · unfold seriesAt
    rw [if_neg (by omega), if_pos h0, if_neg (by omega), if_pos h0, linspace_getD _ _ _ _ (by omega),
      linspace_getD _ _ _ _ (by omega)]
    simp
  · by_cases h1 : (times c ts).getD ((times c ts).length - 1) 0 < t
    · unfold seriesAt
      rw [if_neg (by omega), if_neg h0, if_pos h1, if_neg (by omega), if_neg h0, if_pos h1, hlen, hlen,
        linspace_getD _ _ _ _ (by omega), linspace_getD _ _ _ _ (by omega)]
      simp [hn0]
    · obtain ⟨i, hi, hsi, ha, hb, e⟩ := seriesAt_mid hx (not_le.mp h0) (not_lt.mp h1)
      rw [e]
      unfold seriesAt
      rw [if_neg (by omega), if_neg h0, if_neg h1]
      simp only [hsi, Nat.add_sub_cancel]
      rw [hl] at hi
      rw [linspace_getD _ _ _ _ (by omega), linspace_getD _ _ _ _ (by omega), linspace_getD _ _ _ _ (by omega),
        linspace_getD _ _ _ _ (by omega)]
      push_cast
      ring

theorem times_first (c : Cfg) (ts : ℚ) : (times c ts).getD 0 0 = c.rt := by
  have hn := numTs_pos c ts
  unfold times
  split
  · split <;> rfl
  · rw [List.getD_eq_getElem?_getD, List.getElem?_append_left (by simp; omega)]
    simp [hn]

theorem frac_before (c : Cfg) (ts t : ℚ) (ht : t ≤ c.rt) : frac c ts t = 0 := by
  have hn := numTs_pos c ts
  unfold frac seriesAt
  rw [times_length, if_neg (by omega), times_first, if_pos ht, linspace_getD _ _ _ _ (by omega)]
  simp

theorem frac_after (c : Cfg) (ts t : ℚ) (hd : 0 ≤ c.dur) (hts : 0 < ts ∨ c.dur = 0)
    (ht : c.rt + (if c.dur = 0 then 1 else c.dur) ≤ t) : frac c ts t = 1 := by
  have hn := numTs_pos c ts
  have hn0 : (numTs c ts : ℚ) ≠ 0 := by exact_mod_cast hn.ne'
  unfold frac
  have hl : (times c ts).getD ((times c ts).length - 1) 0 ≤ t := by
    rw [times_length]
    by_cases h0 : c.dur = 0
    · unfold times
      rw [numTs_inst c ts h0]
      rw [if_pos h0] at ht
      simpa [h0] using ht
    · rw [if_neg h0] at ht
      rw [times_getD c ts (lt_of_le_of_ne hd (Ne.symm h0)) _ (by omega), if_pos (by omega)]
      exact ht
  rw [seriesAt_last (axis_pos c ts hd hts) hl, times_length, linspace_getD _ _ _ _ (by omega)]
  simp [hn0]

theorem Ready.pos {c : Cfg} {ts : ℚ} {p : Prepared} (h : Ready c ts p) : p.pos = linspace c.start c.stop (numTs c ts) := by
  obtain ⟨_, h1⟩ := h
  unfold prepare at h1
  split at h1
  · exact absurd h1 (by simp)
  · split at h1
    · exact absurd h1 (by simp)
    · cases h1; rfl

/-- what `posRange` gives, in terms of the fraction -/
theorem posRange_eq (c : Cfg) (ts : ℚ) (p : Prepared) (h : Ready c ts p) (x : Call) (hlt : x.start < x.stop)
    (hd : 0 < c.dur) : posRange p x =
      (c.start + (c.stop - c.start) * frac c ts x.start, c.start + (c.stop - c.start) * frac c ts x.stop) := by
  obtain ⟨_, e2, _, _, e5, _, e7⟩ := h.elim
  unfold posRange
  have hn : ¬ (p.dur = 0 ∧ x.start ≠ x.stop ∧ p.rt ≤ x.stop ∧ x.start ≤ p.rt) := by
    rintro ⟨h1, _⟩; rw [e7] at h1; linarith
  simp only [if_neg hn]
  rw [if_neg (show ¬ x.start = x.stop from by linarith), e2, h.pos, series_affine c ts _ _ _ hd.le e5,
    series_affine c ts _ _ _ hd.le e5]

/-- **C58** (a continuous release).  There is a fraction of the line `φ`, the same for all coordinates, that never
decreases, is 0 until the release time and 1 from the end of the release on, such that the elements released in a call
are spread, in order, between the points of the line at `φ start` and `φ stop`: successive calls join, and all elements
are on the segment. -/
theorem C58_line_partial (rt dur ts : ℚ) (am : Amount) (hd : 0 < dur) : ∃ φ : ℚ → ℚ, (∀ t t', t ≤ t' → φ t ≤ φ t') ∧
    ((0 < ts) → (∀ t ≤ rt, φ t = 0) ∧ (∀ t, rt + dur ≤ t → φ t = 1)) ∧
    ∀ (A B mass : ℚ) (p : Prepared), Ready { rt, dur, amount := am, mass, start := A, stop := B } ts p →
    ∀ (spec scale : ℚ) (s : Spill) (x : Call) (b : Batch), x.start < x.stop →
      (releaseElements p spec scale s x).2 = some b →
      b.positions.length = b.n.toNat ∧ ∃ w : Nat → ℚ, (∀ i j, i ≤ j → j < b.n.toNat → w i ≤ w j) ∧
        (∀ i < b.n.toNat, b.positions[i]? = some (A + (B - A) * w i) ∧ φ x.start ≤ w i ∧ w i ≤ φ x.stop) ∧
        w 0 = φ x.start ∧ (2 ≤ b.n → w (b.n.toNat - 1) = φ x.stop) := by
  by_cases hts : 0 < ts
  case neg =>
    refine ⟨fun _ => 0, fun _ _ _ => le_refl _, fun h => absurd h hts, ?_⟩
    intro A B mass p h
    obtain ⟨_, _, _, _, e5, _, _⟩ := h.elim
    rcases e5 with e | e
    · exact absurd e hts
    · exact absurd e (ne_of_gt hd)
  have hts' : ∀ m A B, (0 : ℚ) < ts ∨ ({ rt, dur, amount := am, mass := m, start := A, stop := B } : Cfg).dur = 0 :=
    fun _ _ _ => Or.inl hts
  let c0 : Cfg := { rt, dur, amount := am, mass := 0 }
  have hmono : ∀ t t', t ≤ t' → frac c0 ts t ≤ frac c0 ts t' := fun t t' h =>
    seriesAt_mono (axis_pos c0 ts hd.le (Or.inl hts)) h
  refine ⟨frac c0 ts, hmono, fun _ => ⟨fun t ht => frac_before c0 ts t ht, fun t ht =>
    frac_after c0 ts t hd.le (Or.inl hts) (by rw [if_neg (ne_of_gt hd)]; exact ht)⟩, ?_⟩
  intro A B mass p h spec scale s x b hlt hb
  have hpr := posRange_eq _ ts p h x hlt hd
  have hf : ∀ t, frac { rt, dur, amount := am, mass, start := A, stop := B } ts t = frac c0 ts t := fun _ => rfl
  simp only [hf] at hpr
  have hb' : b.posA = A + (B - A) * frac c0 ts x.start ∧ b.posB = A + (B - A) * frac c0 ts x.stop ∧ 1 ≤ b.n := by
    have h1 := ((C16_batches p spec scale s x).2 b hb).2.1
    unfold releaseElements at hb
    split at hb
    · exact absurd hb (by simp)
    · simp only at hb
      split at hb
      · exact absurd hb (by simp)
      · simp only [hpr, Option.some.injEq] at hb
        subst hb
        exact ⟨rfl, rfl, h1⟩
  obtain ⟨hA, hB, hn⟩ := hb'
  have hle := hmono _ _ hlt.le
  obtain ⟨n, hnn⟩ : ∃ n : Nat, b.n.toNat = n + 1 := ⟨b.n.toNat - 1, by omega⟩
  refine ⟨by simp [Batch.positions, npLinspace], ?_⟩
  generalize frac c0 ts x.start = u at *
  generalize frac c0 ts x.stop = v at *
  refine ⟨fun i => u + (v - u) * i / n, ?_, ?_, by simp, ?_⟩
  · intro i j hij _
    have h1 : (i : ℚ) ≤ j := by exact_mod_cast hij
    have h2 : (v - u) * i ≤ (v - u) * j := mul_le_mul_of_nonneg_left h1 (by linarith)
    have := div_le_div_of_nonneg_right h2 (show (0 : ℚ) ≤ n by positivity)
    linarith
  · intro i hi
    have h1 : (0 : ℚ) ≤ (v - u) * i / n := by
      apply div_nonneg (mul_nonneg (by linarith) (by positivity)) (by positivity)
    have hi' : (i : ℚ) ≤ n := by exact_mod_cast (show i ≤ n by omega)
    have h2 : (v - u) * i / n ≤ v - u := by
      rcases Nat.eq_zero_or_pos n with h0 | h0
      · subst h0; simp; linarith
      · have : (0 : ℚ) < n := by exact_mod_cast h0
        rw [div_le_iff₀ this]
        exact mul_le_mul_of_nonneg_left hi' (by linarith)
    refine ⟨?_, by linarith, by linarith⟩
    unfold Batch.positions npLinspace
    rw [hnn, hA, hB]
    rw [List.getElem?_map, List.getElem?_range (by omega)]
    simp only [Option.map_some, Option.some.injEq]
    split
    · rename_i h0
      have h0' : n = 0 := by omega
      have : i = 0 := by omega
      subst h0'; subst this
      simp
    · push_cast
      rw [add_sub_cancel_right]
      ring
  · intro h2
    have : (n : ℚ) ≠ 0 := by
      have : n ≠ 0 := by omega
      exact_mod_cast this
    rw [hnn, Nat.add_sub_cancel]
    show u + (v - u) * (n : ℚ) / n = v
    rw [mul_div_assoc, div_self this]
    ring

/-- **C58** (an instantaneous release).  If the release time lies in the interval of the call, the elements are spread from
the start to the end of the line. -/
theorem C58_instant_partial (c : Cfg) (ts : ℚ) (p : Prepared) (h : Ready c ts p) (hd : c.dur = 0) (x : Call)
    (h1 : x.start ≤ c.rt) (h2 : c.rt ≤ x.stop) : posRange p x = (c.start, c.stop) := by
  obtain ⟨e1, e2, _, _, e5, _, e7⟩ := h.elim
  have hb := frac_before c ts c.rt (le_refl _)
  have ha := frac_after c ts (c.rt + 1) (le_of_eq hd.symm) (Or.inr hd) (by rw [if_pos hd])
  unfold posRange
  simp only [e1, e2, e7, h.pos]
  have key : ∀ a b : ℚ, a = c.rt → b = c.rt → (if a = b then b + 1 else b) = c.rt + 1 ∧ a = c.rt := by
    rintro a b rfl rfl; simp
  have hcase : (if c.dur = 0 ∧ x.start ≠ x.stop ∧ c.rt ≤ x.stop ∧ x.start ≤ c.rt then c.rt else x.start) = c.rt ∧
      (if c.dur = 0 ∧ x.start ≠ x.stop ∧ c.rt ≤ x.stop ∧ x.start ≤ c.rt then c.rt else x.stop) = c.rt := by
    by_cases he : x.start = x.stop
    · rw [if_neg (show ¬ _ from fun hh => hh.2.1 he), if_neg (show ¬ _ from fun hh => hh.2.1 he)]
      exact ⟨by linarith, by linarith⟩
    · rw [if_pos ⟨hd, he, h2, h1⟩, if_pos ⟨hd, he, h2, h1⟩]
      exact ⟨rfl, rfl⟩
  rw [hcase.1, hcase.2, if_pos rfl, series_affine c ts _ _ _ (le_of_eq hd.symm) e5,
    series_affine c ts _ _ _ (le_of_eq hd.symm) e5, hb, ha]
  simp

/-- **C58 is false of the code (1)**: an instantaneous line release whose release time lies a second or more before the
interval (the run starts after it, or the spill was off) puts *all* its elements at the end of the line. -/
theorem C58_counterexample_late (c : Cfg) (ts : ℚ) (p : Prepared) (h : Ready c ts p) (hd : c.dur = 0) (x : Call)
    (hx : x.start < x.stop) (h1 : c.rt + 1 ≤ x.start) : posRange p x = (c.stop, c.stop) ∧
    (numAfter p x.stop = maxRelease c ts) := by
  obtain ⟨e1, e2, _, _, e5, _, e7⟩ := h.elim
  constructor
  · have ha := frac_after c ts x.start (le_of_eq hd.symm) (Or.inr hd) (by rw [if_pos hd]; exact h1)
    have hb := frac_after c ts x.stop (le_of_eq hd.symm) (Or.inr hd) (by rw [if_pos hd]; linarith)
    unfold posRange
    have hn : ¬ (p.dur = 0 ∧ x.start ≠ x.stop ∧ p.rt ≤ x.stop ∧ x.start ≤ p.rt) := by
      rintro ⟨_, _, _, h3⟩; rw [e1] at h3; linarith
    simp only [if_neg hn]
    rw [if_neg (show ¬ x.start = x.stop from by linarith), e2, h.pos, series_affine c ts _ _ _ (le_of_eq hd.symm) e5,
      series_affine c ts _ _ _ (le_of_eq hd.symm) e5, ha, hb]
    simp
  · exact (C16_release_count c ts p h).2.2.2 _ (by rw [hd]; linarith)

/-- such a release: 2 elements along a line from 0 to 10, released an hour before the run -/
example : Ready { rt := -3600, dur := 0, amount := .total 2, mass := 0, start := 0, stop := 10 } 900
    { rt := -3600, dur := 0, times := [-3600, -3599], vals := [2, 2], massPer := 0, pos := [0, 10] } := by
  refine ⟨le_refl _, ?_⟩
  have hn : numTs { rt := -3600, dur := 0, amount := .total 2, mass := 0, start := 0, stop := 10 } 900 = 1 :=
    numTs_inst _ _ rfl
  unfold prepare ratio times vals maxRelease
  rw [hn]
  norm_num [linspace, List.range, List.range.loop, times, hn]

/-- **C58**, speed: if the time step divides the duration, the source moves at constant speed. -/
theorem C58_speed_partial (c : Cfg) (ts : ℚ) (hts : 0 < ts) (hd : 0 < c.dur) (hdiv : c.dur = ts * numTs c ts) (t : ℚ)
    (h0 : c.rt ≤ t) (h1 : t ≤ c.rt + c.dur) : frac c ts t = (t - c.rt) / c.dur := by
  have hx := axis_pos c ts hd.le (Or.inl hts)
  have hn := numTs_pos c ts
  have hn0 : (0 : ℚ) < numTs c ts := by exact_mod_cast hn
  rcases eq_or_lt_of_le h0 with he | hlt
  · rw [frac_before c ts t he.symm.le, ← he]; simp
  · have hg : ∀ i : Nat, i < numTs c ts + 1 → (times c ts).getD i 0 = c.rt + ts * i := by
      intro i hi
      rw [times_getD c ts hd i hi]
      split
      · rename_i hh; rw [hdiv, hh]
      · rfl
    have hl : (times c ts).length - 1 = numTs c ts := by rw [times_length]; omega
    obtain ⟨i, hi, _, _, _, e⟩ := seriesAt_mid hx (t := t) (by rw [times_first]; exact hlt)
      (by rw [hl, hg _ (by omega), ← hdiv]; exact h1)
    rw [times_length] at hi
    unfold frac
    rw [e, linspace_getD _ _ _ _ (by omega), linspace_getD _ _ _ _ (by omega), hg _ (by omega), hg _ (by omega), hdiv]
    push_cast
    have : c.rt + ts * (i + 1) - (c.rt + ts * i) = ts := by ring
    rw [this]
    field_simp
    ring

/-- **C58 is false of the code (2)**: if the time step does not divide the duration, the last, shorter step covers as much
of the line as a whole step: the speed is not constant (2.5 steps of an hour: after 2 hours, two thirds). -/
theorem C58_counterexample_speed : frac exCfg 3600 (exCfg.rt + 7200) = 2 / 3 ∧ (7200 : ℚ) / exCfg.dur = 4 / 5 := by
  have hn := exNum
  constructor
  · have ht : times exCfg 3600 = [100, 3700, 7300, 9100] := by
      unfold times
      rw [hn]
      norm_num [exCfg, List.range, List.range.loop]
    unfold frac
    rw [ht, hn]
    norm_num [exCfg, seriesAt, searchsorted, linspace, List.range, List.range.loop, List.takeWhile]
  · norm_num [exCfg]

end Verif.Release
