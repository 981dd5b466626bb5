import Verif.Canvas.TagsModel
import Mathlib.Tactic.Linarith
import Mathlib.Tactic.NormNum
import Mathlib.Tactic.Ring
import Mathlib.Tactic.FieldSimp
/-!
# C293, C294: labels of grid lines
-/
namespace Verif.Canvas.Tags

/-- the angle that a label says, in degrees, and whether it says east or north -/
def Label.angle : Label → ℚ
  | .dec neg n => if neg then -((n : ℚ) / 100) else n / 100
  | .dms d m s h => if h = .E ∨ h = .N then d + (m : ℚ) / 60 + (s : ℚ) / 3600 else -(d + (m : ℚ) / 60 + (s : ℚ) / 3600)

/-- a label that a chart could have: less than 60 minutes and seconds -/
def Label.proper : Label → Prop
  | .dec _ _ => True
  | .dms d m s _ => 0 ≤ d ∧ 0 ≤ m ∧ m < 60 ∧ 0 ≤ s ∧ s < 60

theorem pyRound_near (x : ℚ) : |(pyRound x : ℚ) - x| ≤ 1 / 2 := by
  unfold pyRound
  simp only
  have h1 := Int.floor_le x
  have h2 := Int.lt_floor_add_one x
  rw [abs_le]
  split
  · constructor <;> linarith
  · split
    · push_cast; constructor <;> linarith
    · have : x - ⌊x⌋ = 1 / 2 := le_antisymm (not_lt.1 ‹_›) (not_lt.1 ‹_›)
      split
      · constructor <;> linarith
      · push_cast; constructor <;> linarith

theorem pyRound_int (n : Int) : pyRound (n : ℚ) = n := by
  unfold pyRound
  simp only [Int.floor_intCast, sub_self]
  rw [if_pos (by norm_num)]

theorem pyRound_nonneg {x : ℚ} (h : 0 ≤ x) : 0 ≤ pyRound x := by
  have := abs_le.1 (pyRound_near x)
  have h1 : (-1 : ℚ) < pyRound x := by linarith
  have h2 : (-1 : Int) < pyRound x := by exact_mod_cast h1
  omega

theorem pyRound_nonpos {x : ℚ} (h : x ≤ 0) : pyRound x ≤ 0 := by
  have := abs_le.1 (pyRound_near x)
  have h1 : (pyRound x : ℚ) < 1 := by linarith
  have h2 : pyRound x < 1 := by exact_mod_cast h1
  omega

/-! ## C293: degrees, minutes and seconds -/

theorem parts (v : ℚ) : 0 ≤ degOf v ∧ 0 ≤ minOf v ∧ minOf v < 60 ∧ 0 ≤ secOf v ∧ secOf v < 60 ∧
    |v| = degOf v + (minOf v : ℚ) / 60 + secOf v / 3600 := by
  have d1 := Int.floor_le |v|
  have d2 := Int.lt_floor_add_one |v|
  have m1 := Int.floor_le ((|v| - degOf v) * 60)
  have m2 := Int.lt_floor_add_one ((|v| - degOf v) * 60)
  change (degOf v : ℚ) ≤ _ at d1
  change _ < (degOf v : ℚ) + 1 at d2
  change (minOf v : ℚ) ≤ _ at m1
  change _ < (minOf v : ℚ) + 1 at m2
  refine ⟨Int.floor_nonneg.2 (abs_nonneg v), Int.floor_nonneg.2 (by linarith), ?_, ?_, ?_, ?_⟩
  · have : (minOf v : ℚ) < 60 := by linarith
    exact_mod_cast this
  · unfold secOf; linarith
  · unfold secOf; linarith
  · unfold secOf; ring

theorem dms_parts (v : ℚ) (h : Hemi) : ∃ d m s : Int, dms v h = .dms d m s h ∧ 0 ≤ d ∧ 0 ≤ m ∧ m ≤ 60 ∧ 0 ≤ s ∧ s < 60 ∧
    |(d : ℚ) + m / 60 + s / 3600 - (|v|)| ≤ 1 / 7200 ∧ (m < 60 ∨ (minOf v = 59 ∧ pyRound (secOf v) = 60)) := by
  obtain ⟨p1, p2, p3, p4, p5, p6⟩ := parts v
  have hr := pyRound_near (secOf v)
  have hr0 := pyRound_nonneg p4
  have hr' := abs_le.1 hr
  have hr1 : pyRound (secOf v) ≤ 60 := by
    have h1 : (pyRound (secOf v) : ℚ) < 61 := by linarith
    have h2 : pyRound (secOf v) < 61 := by exact_mod_cast h1
    omega
  unfold dms
  by_cases hc : pyRound (secOf v) = 60
  · rw [if_pos hc]
    refine ⟨degOf v, minOf v + 1, 0, rfl, p1, by omega, by omega, le_refl _, by norm_num, ?_, ?_⟩
    · rw [p6, abs_le]
      rw [hc] at hr'
      push_cast at hr' ⊢
      constructor <;> linarith [hr'.1, hr'.2]
    · by_cases h59 : minOf v = 59
      · exact Or.inr ⟨h59, hc⟩
      · exact Or.inl (by omega)
  · rw [if_neg hc]
    refine ⟨degOf v, minOf v, pyRound (secOf v), rfl, p1, p2, by omega, hr0, by omega, ?_, Or.inl p3⟩
    rw [p6, abs_le]
    constructor <;> linarith [hr'.1, hr'.2]

/-- C293. A label in degrees, minutes and seconds is within half a second of its line, on the right side of the equator and the meridian of Greenwich. -/
theorem C293_angle (v : ℚ) (vert : Bool) : |(dms v (hemi vert v)).angle - v| ≤ 1 / 7200 := by
  obtain ⟨d, m, s, e, _, _, _, _, _, hn, _⟩ := dms_parts v (hemi vert v)
  rw [e]
  unfold Label.angle
  simp only
  by_cases hv : 0 < v
  · have : hemi vert v = .E ∨ hemi vert v = .N := by
      unfold hemi
      cases vert <;> simp [hv]
    rw [if_pos this]
    rw [abs_of_pos hv] at hn
    exact hn
  · have : ¬ (hemi vert v = .E ∨ hemi vert v = .N) := by
      unfold hemi
      cases vert <;> simp [hv]
    rw [if_neg this]
    rw [abs_of_nonpos (not_lt.1 hv)] at hn
    rw [abs_le] at hn ⊢
    constructor <;> linarith [hn.1, hn.2]

/-- C293, claim: the label has less than 60 minutes and less than 60 seconds. -/
def C293_claim : Prop := ∀ (v : ℚ) (vert : Bool), (dms v (hemi vert v)).proper

/-- A line a hair below one degree is labelled `0d60'`. -/
theorem C293_counterexample : ¬ C293_claim ∧ dms (1 - 1 / 100000) .E = .dms 0 60 0 .E := by
  have k : dms (1 - 1 / 100000) .E = .dms 0 60 0 .E := by decide +kernel
  refine ⟨fun h => ?_, k⟩
  have := h (1 - 1 / 100000) true
  have e : hemi true (1 - 1 / 100000) = .E := by decide +kernel
  rw [e, k] at this
  exact absurd this.2.2.1 (by norm_num)

/-- C293. The label is proper, except where the seconds of the last minute of a degree are rounded up. Missing for the full claim: that case. -/
theorem C293_partial (v : ℚ) (vert : Bool) (h : minOf v ≠ 59 ∨ pyRound (secOf v) ≠ 60) : (dms v (hemi vert v)).proper := by
  obtain ⟨d, m, s, e, h1, h2, h3, h4, h5, _, h6⟩ := dms_parts v (hemi vert v)
  rw [e]
  refine ⟨h1, h2, ?_, h4, h5⟩
  rcases h6 with h6 | ⟨h6, h7⟩
  · exact h6
  · rcases h with h | h
    · exact absurd h6 h
    · exact absurd h7 h

/-- All steps for degrees, minutes and seconds are whole multiples of 15 seconds. -/
theorem dmsSteps_quarter : ∀ x ∈ dmsSteps, ∃ n : Nat, x = (n : ℚ) * (15 / 3600) := by
  intro x hx
  have key : ∀ x ∈ dmsSteps, x = (((x / (15 / 3600)).num.toNat : ℚ)) * (15 / 3600) := by decide +kernel
  exact ⟨_, key x hx⟩

/-- C293. For a line at a whole number of seconds, as all lines are, the label is exactly that of the line, and proper. -/
theorem C293_exact (v : ℚ) (vert : Bool) (n : Int) (hn : v = n / 3600) :
    (dms v (hemi vert v)).angle = v ∧ (dms v (hemi vert v)).proper := by
  have hs : ∃ k : Int, secOf v = k := by
    unfold secOf
    refine ⟨(|n| - degOf v * 3600) - minOf v * 60, ?_⟩
    have : |v| = ((|n| : Int) : ℚ) / 3600 := by
      rw [hn, abs_div]; push_cast; norm_num
    rw [this]
    push_cast
    ring
  obtain ⟨k, hk⟩ := hs
  obtain ⟨p1, p2, p3, p4, p5, p6⟩ := parts v
  have hr : pyRound (secOf v) = k := by rw [hk, pyRound_int]
  have hk60 : k < 60 := by rw [hk] at p5; exact_mod_cast p5
  refine ⟨?_, C293_partial v vert (Or.inr (by rw [hr]; omega))⟩
  have e : dms v (hemi vert v) = .dms (degOf v) (minOf v) k (hemi vert v) := by
    unfold dms
    rw [hr, if_neg (by omega)]
  rw [e]
  unfold Label.angle
  simp only
  by_cases hv : 0 < v
  · have : hemi vert v = .E ∨ hemi vert v = .N := by
      unfold hemi
      cases vert <;> simp [hv]
    rw [if_pos this, ← hk, ← p6, abs_of_pos hv]
  · have : ¬ (hemi vert v = .E ∨ hemi vert v = .N) := by
      unfold hemi
      cases vert <;> simp [hv]
    rw [if_neg this, ← hk, ← p6, abs_of_nonpos (not_lt.1 hv)]
    ring

theorem stepSize_mem {steps : List ℚ} (h : steps ≠ []) (x : ℚ) : stepSize steps x ∈ steps := by
  unfold stepSize
  have hl : 0 < steps.length := List.length_pos_of_ne_nil h
  have : min (bisect steps |x|) (steps.length - 1) < steps.length := by omega
  rw [List.getD_eq_getElem?_getD, List.getElem?_eq_getElem this, Option.getD_some]
  exact List.getElem_mem this

theorem refresh_interval (steps : List ℚ) (h : steps ≠ []) (n : Nat) (im : Image) : (refresh steps n im).interval ∈ steps := by
  unfold refresh
  simp only
  split <;> exact stepSize_mem h _

/-- lines are at whole multiples of the interval -/
theorem line_multiple (s : Scale) (im : Image) (vert : Bool) (v : ℚ) (h : v ∈ ((if vert then vertical s im else horizontal s im).map Prod.fst)) :
    ∃ k : Int, v = k * s.interval := by
  cases vert
  · simp only [Bool.false_eq_true, if_false, horizontal, List.map_map, List.mem_map, Function.comp] at h
    obtain ⟨y, _, rfl⟩ := h
    exact ⟨y + (⌊im.lo.2 / s.interval⌋ - 1), by push_cast; ring⟩
  · simp only [if_true, vertical, List.map_map, List.mem_map, Function.comp] at h
    obtain ⟨y, _, rfl⟩ := h
    exact ⟨y + (⌊im.lo.1 / s.interval⌋ - 1), by push_cast; ring⟩

/-- C293. So every line drawn in degrees, minutes and seconds has exactly its own label, and a proper one. -/
theorem C293_lines (n : Nat) (im : Image) (vert : Bool) (v : ℚ)
    (h : v ∈ ((if vert then vertical (refresh dmsSteps n im) im else horizontal (refresh dmsSteps n im) im).map Prod.fst)) :
    (tag true im vert v).1.angle = v ∧ (tag true im vert v).1.proper := by
  obtain ⟨k, hk⟩ := line_multiple _ im vert v h
  obtain ⟨m, hm⟩ := dmsSteps_quarter _ (refresh_interval dmsSteps (by simp [dmsSteps]) n im)
  have := C293_exact v vert (k * m * 15) (by rw [hk, hm]; push_cast; ring)
  exact this

/-! ## where labels are put -/

/-- C293. There is one label for each line, in the order of the lines, put where the line meets the top (vertical lines) or the left side (horizontal ones). -/
theorem C293_anchor (isDms : Bool) (n : Nat) (hn : n ≠ 0) (im : Image) :
    (tags isDms n im).map Prod.snd =
      (vertical (refresh (if isDms then dmsSteps else degSteps) n im) im).map (fun l => (l.1, im.hi.2)) ++
      (horizontal (refresh (if isDms then dmsSteps else degSteps) n im) im).map (fun l => (im.lo.1, l.1)) := by
  unfold tags
  rw [if_neg hn]
  simp only [List.map_append, List.map_map]
  congr 1
  · apply List.map_congr_left
    intro l _
    simp only [Function.comp, tag, hemi, if_true]
    by_cases h : 0 < l.1 <;> simp [h]
  · apply List.map_congr_left
    intro l _
    simp only [Function.comp, tag, hemi, Bool.false_eq_true, if_false]
    by_cases h : 0 < l.1 <;> simp [h]

/-! ## C294: decimals -/

/-- C294. A label in decimals is within half a hundredth of a degree of its line. -/
theorem C294_angle (v : ℚ) : |(dec v).angle - v| ≤ 1 / 200 := by
  have hr := abs_le.1 (pyRound_near (100 * v))
  unfold dec Label.angle
  simp only [decide_eq_true_eq]
  by_cases hv : v < 0
  · rw [if_pos hv]
    have h0 := pyRound_nonpos (x := 100 * v) (by linarith)
    have e : (((pyRound (100 * v)).natAbs : Nat) : ℚ) = -(pyRound (100 * v) : ℚ) := by
      rw [Nat.cast_natAbs, abs_of_nonpos h0]; push_cast; rfl
    rw [e, abs_le]
    constructor <;> linarith [hr.1, hr.2]
  · rw [if_neg hv]
    have h0 := pyRound_nonneg (x := 100 * v) (by linarith)
    have e : (((pyRound (100 * v)).natAbs : Nat) : ℚ) = (pyRound (100 * v) : ℚ) := by
      rw [Nat.cast_natAbs, abs_of_nonneg h0]
    rw [e, abs_le]
    constructor <;> linarith [hr.1, hr.2]

/-- C294, claim: lines in different places have different labels. -/
def C294_claim : Prop :=
  ∀ (n : Nat) (im : Image) (vert : Bool) (v w : ℚ), 0 < n → 0 < im.w → 0 < im.h → im.lo.1 < im.hi.1 → im.lo.2 < im.hi.2 →
    v ∈ ((if vert then vertical (refresh degSteps n im) im else horizontal (refresh degSteps n im) im).map Prod.fst) →
    w ∈ ((if vert then vertical (refresh degSteps n im) im else horizontal (refresh degSteps n im) im).map Prod.fst) →
    (tag false im vert v).1 = (tag false im vert w).1 → v = w

/-- an image of a harbour, 500 by 500 pixels and a hundredth of a degree wide -/
def harbour : Image := ⟨500, 500, (10, 50), (10 + 1 / 100, 50 + 1 / 100)⟩

/-- A harbour: the lines are 0.0025 degrees apart, those at 10.005 and 10.0025 have the same label, 10.00. -/
theorem C294_counterexample : ¬ C294_claim := by
  intro h
  have := h 10 harbour true (10 + 1 / 400) (10 + 1 / 200) (by norm_num) (by decide) (by decide) (by unfold harbour; norm_num) (by unfold harbour; norm_num)
    (by decide +kernel) (by decide +kernel) (by decide +kernel)
  norm_num at this

/-- C294. Labels differ when the lines are at least a hundredth of a degree apart. Missing for the full claim: finer lines. -/
theorem C294_partial (n : Nat) (im : Image) (vert : Bool) (v w : ℚ) (hi : 1 / 100 ≤ (refresh degSteps n im).interval)
    (hv : v ∈ ((if vert then vertical (refresh degSteps n im) im else horizontal (refresh degSteps n im) im).map Prod.fst))
    (hw : w ∈ ((if vert then vertical (refresh degSteps n im) im else horizontal (refresh degSteps n im) im).map Prod.fst))
    (h : (tag false im vert v).1 = (tag false im vert w).1) : v = w := by
  obtain ⟨a, ha⟩ := line_multiple _ im vert v hv
  obtain ⟨b, hb⟩ := line_multiple _ im vert w hw
  have hl : dec v = dec w := h
  set i := (refresh degSteps n im).interval with hidef
  have hang : (dec v).angle = (dec w).angle := by rw [hl]
  have e1 := abs_le.1 (C294_angle v)
  have e2 := abs_le.1 (C294_angle w)
  rw [hang] at e1
  by_contra hne
  have hab : a ≠ b := by
    intro hc
    apply hne
    rw [ha, hb, hc]
  rcases eq_or_lt_of_le hi with heq | hlt
  · -- lines at whole hundredths have exactly their own label
    have ex : ∀ (x : ℚ) (k : Int), x = k * i → (dec x).angle = x := by
      intro x k hx
      have hx100 : 100 * x = (k : ℚ) := by rw [hx, ← heq]; ring
      unfold dec Label.angle
      simp only [decide_eq_true_eq]
      rw [hx100, pyRound_int]
      by_cases hneg : x < 0
      · rw [if_pos hneg]
        have hk : k < 0 := by
          have : (k : ℚ) < 0 := by rw [← hx100]; linarith
          exact_mod_cast this
        have : ((k.natAbs : Nat) : ℚ) = -(k : ℚ) := by
          rw [Nat.cast_natAbs, abs_of_neg hk]; push_cast; rfl
        rw [this, ← hx100]; ring
      · rw [if_neg hneg]
        have hk : 0 ≤ k := by
          have : (0 : ℚ) ≤ k := by rw [← hx100]; linarith
          exact_mod_cast this
        have : ((k.natAbs : Nat) : ℚ) = (k : ℚ) := by
          rw [Nat.cast_natAbs, abs_of_nonneg hk]
        rw [this, ← hx100]; ring
    rw [ex v a ha, ex w b hb] at hang
    exact hne hang
  · have hi0 : 0 < i := by linarith
    have hdist : i ≤ |v - w| := by
      rw [ha, hb, ← sub_mul, abs_mul, abs_of_pos hi0]
      have : (1 : ℚ) ≤ |((a : ℚ) - b)| := by
        have : (1 : Int) ≤ |a - b| := Int.one_le_abs (sub_ne_zero.2 hab)
        exact_mod_cast this
      nlinarith
    have : |v - w| ≤ 1 / 100 := by
      rw [abs_le]
      constructor <;> linarith [e1.1, e1.2, e2.1, e2.2]
    linarith

/-- an image of a bay, two tenths of a degree wide: lines 0.025 apart -/
example : (refresh degSteps 10 ⟨500, 500, (10, 50), (10 + 2 / 10, 50 + 2 / 10)⟩).interval = 1 / 40 ∧
    dec (-(1 / 40)) = .dec true 2 ∧ dec (3 / 40) = .dec false 8 := by decide +kernel

/-- 1 degree 30 minutes 15 seconds west -/
example : dms (-(1 + 1 / 2 + 15 / 3600)) (hemi true (-(1 + 1 / 2 + 15 / 3600))) = .dms 1 30 15 .W := by decide +kernel

end Verif.Canvas.Tags
