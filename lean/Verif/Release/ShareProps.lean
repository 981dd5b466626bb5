import Verif.Release.Props
/-!
# The share of each time step in a continuous release (`C281`)
-/
namespace Verif.Release

/-- the time at which step `i` of the release begins, and for the last number the end of the release -/
def stepTime (c : Cfg) (ts : ℚ) (i : Nat) : ℚ := if i = numTs c ts then c.rt + c.dur else c.rt + ts * i

theorem seriesAt_knot {ts vs : List ℚ} (h : Axis ts vs) (i : Nat) (hi : i < ts.length) : seriesAt ts vs (ts.getD i 0) = vs.getD i 0 := by
  cases i with
  | zero =>
    have := h.two
    unfold seriesAt
    rw [if_neg (by omega), if_pos (le_refl _)]
  | succ i =>
    have hlast : ts.getD (i + 1) 0 ≤ ts.getD (ts.length - 1) 0 := by
      rcases Nat.lt_or_ge (i + 1) (ts.length - 1) with h' | h'
      · exact le_of_lt (h.inc _ _ h' (by omega))
      · rw [show i + 1 = ts.length - 1 by omega]
    obtain ⟨j, hj, -, h1, h2, h3⟩ := seriesAt_mid h (h.inc 0 (i + 1) (by omega) hi) hlast
    have hji : j = i := by
      rcases Nat.lt_trichotomy j i with h' | h' | h'
      · exact absurd (h.inc (j + 1) (i + 1) (by omega) hi) (not_lt.2 h2)
      · exact h'
      · rcases Nat.lt_or_ge (i + 1) j with h'' | h''
        · exact absurd (h.inc (i + 1) j h'' (by omega)) (not_lt.2 (le_of_lt h1))
        · rw [show j = i + 1 by omega] at h1
          exact absurd h1 (lt_irrefl _)
    subst hji
    rw [h3, div_self (by have := h.inc j (j + 1) (by omega) hj; linarith)]
    ring

/-- how many elements are due at the beginning of each step -/
theorem C281_count (c : Cfg) (ts : ℚ) (p : Prepared) (h : Ready c ts p) (hd : 0 < c.dur) (i : Nat) (hi : i ≤ numTs c ts) :
    numAfter p (stepTime c ts i) = ⌊(maxRelease c ts : ℚ) * i / numTs c ts⌋ := by
  obtain ⟨e1, e2, e3, e4, hts, hmax, e5⟩ := h.elim
  have hts' : 0 < ts := hts.resolve_right hd.ne'
  have hax := axis_series c ts h.1 hts
  have hk := seriesAt_knot hax i (by rw [times_length]; omega)
  rw [vals_getD c ts hd.ne' i (by omega), times_getD c ts hd i (by omega)] at hk
  have hrt : ¬ stepTime c ts i < p.rt := by
    rw [e1]
    unfold stepTime
    have : 0 ≤ ts * (i : ℚ) := by positivity
    split <;> linarith
  unfold numAfter
  rw [if_neg hrt, e2, e3]
  unfold stepTime
  rw [hk, Int.ceil_intCast]

/-- **C281.** Every step of a continuous release gets a share: at least one element, and shares differ by at most one. -/
theorem C281_share (c : Cfg) (ts : ℚ) (p : Prepared) (h : Ready c ts p) (hd : 0 < c.dur) (i : Nat) (hi : i < numTs c ts) :
    1 ≤ numAfter p (stepTime c ts (i + 1)) - numAfter p (stepTime c ts i) ∧
    ⌊(maxRelease c ts : ℚ) / numTs c ts⌋ ≤ numAfter p (stepTime c ts (i + 1)) - numAfter p (stepTime c ts i) ∧
    numAfter p (stepTime c ts (i + 1)) - numAfter p (stepTime c ts i) ≤ ⌈(maxRelease c ts : ℚ) / numTs c ts⌉ := by
  rw [C281_count c ts p h hd i hi.le, C281_count c ts p h hd (i + 1) hi]
  have hn : (0 : ℚ) < numTs c ts := by exact_mod_cast numTs_pos c ts
  have hone : (1 : ℚ) ≤ (maxRelease c ts : ℚ) / numTs c ts := by
    have h1 := h.2
    unfold prepare at h1
    split at h1
    · cases h1
    · split at h1
      · cases h1
      · rename_i hr
        unfold ratio at hr
        unfold maxRelease
        cases ha : c.amount with
        | total n => simpa [ha] using hr
        | perStep n =>
          simp only [ha, not_lt] at hr ⊢
          push_cast
          rwa [mul_div_assoc, div_self hn.ne', mul_one]
  have e : (maxRelease c ts : ℚ) * ((i + 1 : ℕ) : ℚ) / numTs c ts = (maxRelease c ts : ℚ) * i / numTs c ts + (maxRelease c ts : ℚ) / numTs c ts := by
    push_cast
    ring
  rw [e]
  generalize (maxRelease c ts : ℚ) * i / numTs c ts = x
  generalize (maxRelease c ts : ℚ) / numTs c ts = y at *
  have h1 := Int.le_floor_add x y
  have h3 : 1 ≤ ⌊y⌋ := Int.le_floor.2 (by exact_mod_cast hone)
  refine ⟨by linarith, by linarith, ?_⟩
  have h4 : ⌊x + y⌋ ≤ ⌊x⌋ + ⌈y⌉ := by
    have h5 : ⌊x + y⌋ ≤ ⌊x + (⌈y⌉ : ℚ)⌋ := Int.floor_le_floor (by have := Int.le_ceil y; linarith)
    rwa [Int.floor_add_intCast] at h5
  linarith

/-- a number of elements per step is what each step gets -/
theorem C281_per_step (c : Cfg) (ts : ℚ) (p : Prepared) (h : Ready c ts p) (hd : 0 < c.dur) (k : Nat) (hk : c.amount = .perStep k) (i : Nat)
    (hi : i < numTs c ts) : numAfter p (stepTime c ts (i + 1)) - numAfter p (stepTime c ts i) = k := by
  have hn : (0 : ℚ) < numTs c ts := by exact_mod_cast numTs_pos c ts
  obtain ⟨-, h2, h3⟩ := C281_share c ts p h hd i hi
  have e : (maxRelease c ts : ℚ) / numTs c ts = (k : ℚ) := by
    unfold maxRelease
    simp only [hk]
    push_cast
    rw [mul_div_assoc, div_self hn.ne', mul_one]
  rw [e] at h2 h3
  rw [Int.floor_natCast] at h2
  rw [Int.ceil_natCast] at h3
  omega

/-- A continuous release is refused exactly if the model runs backwards or with steps under a second, or if one element per step would not last to the end of the
release. -/
theorem C281_refused (c : Cfg) (ts : ℚ) (hd : 0 < c.dur) :
    prepare c ts = none ↔ ts < 1 ∨ match c.amount with
      | .total n => n * ts < c.dur
      | .perStep n => n = 0 := by
  have hn : (0 : ℚ) < numTs c ts := by exact_mod_cast numTs_pos c ts
  unfold prepare
  by_cases h1 : ts < 1
  · rw [if_pos ⟨h1, hd.ne'⟩]
    exact ⟨fun _ => .inl h1, fun _ => rfl⟩
  · rw [if_neg (fun h => h1 h.1)]
    simp only [h1, false_or]
    have key : ratio c ts < 1 ↔ match c.amount with
        | .total n => n * ts < c.dur
        | .perStep n => n = 0 := by
      unfold ratio
      cases ha : c.amount with
      | total n =>
        simp only
        obtain ⟨h2, h3⟩ := numTs_bounds c ts (by linarith) hd
        rw [div_lt_one hn, Nat.cast_lt]
        constructor
        · intro h
          have h' : (n : ℚ) ≤ (numTs c ts : ℚ) - 1 := by
            have : ((n + 1 : ℕ) : ℚ) ≤ numTs c ts := by exact_mod_cast h
            push_cast at this
            linarith
          nlinarith
        · intro h
          by_contra h4
          have h' : (numTs c ts : ℚ) ≤ n := by exact_mod_cast Nat.le_of_not_lt h4
          nlinarith
      | perStep n =>
        simp only
        rw [← Nat.cast_one, Nat.cast_lt]
        omega
    rw [← key]
    by_cases h : ratio c ts < 1
    · simp [h]
    · simp [h]

/-- ten elements over two steps and a half: shares 3, 3 and 4 -/
example : ∃ p, Ready exCfg 3600 p ∧ numAfter p (stepTime exCfg 3600 1) = 3 ∧ numAfter p (stepTime exCfg 3600 2) = 6 := by
  have hp : ∃ p, Ready exCfg 3600 p := by
    unfold Ready prepare ratio
    rw [exNum]
    norm_num [exCfg]
  obtain ⟨p, hp⟩ := hp
  have hd : 0 < exCfg.dur := by norm_num [exCfg]
  refine ⟨p, hp, ?_, ?_⟩
  · rw [C281_count _ _ _ hp hd 1 (by rw [exNum]; omega), exNum]
    norm_num [maxRelease, exCfg, Int.floor_eq_iff]
  · rw [C281_count _ _ _ hp hd 2 (by rw [exNum]; omega), exNum]
    norm_num [maxRelease, exCfg, Int.floor_eq_iff]

/-- two elements do not suffice -/
example : prepare { exCfg with amount := .total 2 } 3600 = none :=
  (C281_refused _ _ (by norm_num [exCfg])).2 (.inr (by norm_num [exCfg]))

end Verif.Release
