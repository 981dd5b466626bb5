import Mathlib.Tactic.Linarith
import Mathlib.Tactic.FieldSimp
import Mathlib.Tactic.Ring
import Verif.Canvas.Model

/-!
# C192: views of a map
# C193: grid lines
-/
namespace Verif.Canvas

/-! ## C192 -/

/-- The box, the centre and the size say the same. -/
def Consistent (v : View) : Prop :=
  v.width = v.hi.1 - v.lo.1 ∧ v.height = v.hi.2 - v.lo.2 ∧ 2 * v.center.1 = v.lo.1 + v.hi.1 ∧ 2 * v.center.2 = v.lo.2 + v.hi.2

theorem consistent_dim (v : View) : Consistent (recomputeDim v) := by
  refine ⟨rfl, rfl, ?_, ?_⟩ <;> simp only [recomputeDim] <;> ring

theorem consistent_BB (v : View) : Consistent (recomputeBB v) := by
  refine ⟨?_, ?_, ?_, ?_⟩ <;> simp only [recomputeBB] <;> ring

/-- **C192**: after any number of changes the box, the centre and the size of a view agree. -/
theorem C192 (v : View) (ops : List Op) (h : Consistent v) : Consistent (run v ops) := by
  induction ops generalizing v with
  | nil => exact h
  | cons o ops ih =>
    apply ih
    cases o with
    | setBox lo hi => exact consistent_dim _
    | _ => exact consistent_BB _

/-- Views start consistent, as given. -/
theorem C192_new (lo hi c : Pt) (w h : ℚ) : Consistent (ofBox lo hi) ∧ (ofBox lo hi).lo = lo ∧ (ofBox lo hi).hi = hi ∧
    Consistent (ofCenter c w h) ∧ (ofCenter c w h).center = c ∧ (ofCenter c w h).width = w ∧ (ofCenter c w h).height = h :=
  ⟨consistent_dim _, rfl, rfl, consistent_BB _, rfl, rfl, rfl⟩

/-- What each change does, and what it leaves. -/
theorem C192_effects (v : View) (lo hi c d : Pt) (m w : ℚ) (hv : Consistent v) :
    ((apply v (.setBox lo hi)).lo = lo ∧ (apply v (.setBox lo hi)).hi = hi) ∧
    ((apply v (.setCenter c)).center = c ∧ (apply v (.setCenter c)).width = v.width ∧ (apply v (.setCenter c)).height = v.height) ∧
    (w ≠ 0 → (apply v (.setWidth w)).width = w ∧ (apply v (.setWidth w)).center = v.center ∧
      (apply v (.setWidth w)).height = v.height) ∧
    (w ≠ 0 → (apply v (.setHeight w)).height = w ∧ (apply v (.setHeight w)).center = v.center ∧
      (apply v (.setHeight w)).width = v.width) ∧
    ((apply v (.scale m)).center = v.center ∧ (apply v (.scale m)).width = m * v.width ∧
      (apply v (.scale m)).height = m * v.height) ∧
    ((apply v (.shift d)).lo = (v.lo.1 + d.1, v.lo.2 + d.2) ∧ (apply v (.shift d)).hi = (v.hi.1 + d.1, v.hi.2 + d.2)) := by
  obtain ⟨h1, h2, h3, h4⟩ := hv
  refine ⟨⟨rfl, rfl⟩, ⟨rfl, rfl, rfl⟩, fun hw => ⟨?_, rfl, rfl⟩, fun hw => ⟨?_, rfl, rfl⟩, ⟨rfl, mul_comm _ _, mul_comm _ _⟩, ?_, ?_⟩
  · simp [apply, recomputeBB, hw]
  · simp [apply, recomputeBB, hw]
  · simp only [apply, recomputeBB, Prod.mk.injEq]
    constructor <;> linarith
  · simp only [apply, recomputeBB, Prod.mk.injEq]
    constructor <;> linarith

/-- Zooming in and out again by the same factor gives the view back. -/
theorem C192_zoom (v : View) (m : ℚ) (hm : m ≠ 0) (hv : Consistent v) : run v [.scale m, .scale m⁻¹] = v := by
  obtain ⟨h1, h2, h3, h4⟩ := hv
  obtain ⟨⟨a, b⟩, ⟨c, d⟩, ⟨e, f⟩, w, h⟩ := v
  simp only at h1 h2 h3 h4
  have hw : w * m * m⁻¹ = w := by field_simp
  have hh : h * m * m⁻¹ = h := by field_simp
  simp only [run, List.foldl_cons, List.foldl_nil, apply, recomputeBB, hw, hh, View.mk.injEq, Prod.mk.injEq, and_true]
  refine ⟨⟨?_, ?_⟩, ?_, ?_⟩ <;> linarith

example : run (ofBox (0, 0) (4, 2)) [.scale 2, .shift (1, 1)] = ⟨(-1, 0), (7, 4), (3, 2), 8, 4⟩ := by decide +kernel

/-! ## C193 -/

/-- All multiples of the interval in the box are drawn as lines that cross all of the box. -/
def Covers (s : Scale) (im : Image) : Prop :=
  (∀ k : Int, im.lo.1 ≤ k * s.interval → k * s.interval ≤ im.hi.1 →
    ∃ l ∈ vertical s im, l.1 = k * s.interval ∧ l.2.1 ≤ im.lo.2 ∧ im.hi.2 ≤ l.2.2) ∧
  (∀ k : Int, im.lo.2 ≤ k * s.interval → k * s.interval ≤ im.hi.2 →
    ∃ l ∈ horizontal s im, l.1 = k * s.interval ∧ l.2.1 ≤ im.lo.1 ∧ im.hi.1 ≤ l.2.2)

/-- **C193**, as one would expect. -/
def C193_claim : Prop := ∀ (n : Nat) (im : Image), 0 < n → 0 < im.w → 0 < im.h → im.lo.1 < im.hi.1 → im.lo.2 < im.hi.2 →
  Covers (refresh degSteps n im) im

/-- The whole world. -/
def world : Image := ⟨800, 400, (-180, -90), (180, 90)⟩

theorem refresh_world : refresh degSteps 2 world = ⟨40, 2, 1⟩ := by decide +kernel

/-- Of the whole world with two lines the line at 160 degrees east is missing. -/
theorem C193_counterexample : ¬ C193_claim := by
  intro h
  have := (h 2 world (by decide) (by decide) (by decide) (by decide +kernel) (by decide +kernel)).1
  rw [refresh_world] at this
  obtain ⟨l, hl, h1, _⟩ := this 4 (by norm_num [world]) (by norm_num [world])
  have hm : l.1 ∈ (vertical ⟨40, 2, 1⟩ world).map Prod.fst := List.mem_map_of_mem hl
  rw [h1] at hm
  revert hm; decide +kernel

/-- A tall and narrow image of a region far north lacks lines in the east: the interval is 2 degrees, the line at 24 degrees is
not drawn in an image that ends at 30 degrees. -/
def farNorth : Image := ⟨900, 1000, (0, 60), (30, 75)⟩

theorem C193_counterexample_north : refresh degSteps 10 farNorth = ⟨2, 9, 10⟩ ∧ ¬ Covers ⟨2, 9, 10⟩ farNorth := by
  refine ⟨by decide +kernel, ?_⟩
  rintro ⟨h, _⟩
  obtain ⟨l, hl, h1, _⟩ := h 12 (by norm_num [farNorth]) (by norm_num [farNorth])
  have hm : l.1 ∈ (vertical ⟨2, 9, 10⟩ farNorth).map Prod.fst := List.mem_map_of_mem hl
  rw [h1] at hm
  revert hm; decide +kernel

theorem mem_range (n k : Int) : k ∈ range n ↔ 0 ≤ k ∧ k < n := by
  unfold range
  rw [List.mem_map]
  constructor
  · rintro ⟨a, ha, rfl⟩
    rw [List.mem_range] at ha
    simp only [Int.ofNat_eq_natCast]
    omega
  · rintro ⟨h1, h2⟩
    exact ⟨k.toNat, List.mem_range.mpr (by omega), by simp only [Int.ofNat_eq_natCast]; omega⟩

/-- One direction: multiples of the interval from `lo` to `hi` are among the lines, if these are enough. -/
theorem line_index (i lo hi : ℚ) (n k : Int) (hi0 : 0 < i) (hn : hi - lo ≤ (n + 2) * i) (h1 : lo ≤ k * i) (h2 : k * i ≤ hi) :
    ∃ x ∈ range (n + 4), (x : ℚ) * i + ((⌊lo / i⌋ : ℚ) - 1) * i = k * i := by
  refine ⟨k - ⌊lo / i⌋ + 1, ?_, by push_cast; ring⟩
  rw [mem_range]
  have hf := Int.floor_le (lo / i)
  have hf2 := Int.lt_floor_add_one (lo / i)
  have hk1 : lo / i ≤ k := by rw [div_le_iff₀ hi0]; exact h1
  have hk2 : (k : ℚ) < (⌊lo / i⌋ : ℚ) + 1 + (n + 2) := by
    have : (k : ℚ) * i ≤ lo + (n + 2) * i := by linarith
    have h3 : (k : ℚ) ≤ lo / i + (n + 2) := by
      rw [← mul_le_mul_iff_left₀ hi0, add_mul, div_mul_cancel₀ _ hi0.ne']
      exact this
    linarith
  constructor
  · have : (⌊lo / i⌋ : ℚ) ≤ k := le_trans hf hk1
    have : ⌊lo / i⌋ ≤ k := by exact_mod_cast this
    omega
  · have : k < ⌊lo / i⌋ + 1 + (n + 2) := by exact_mod_cast hk2
    omega

theorem line_span (i lo hi : ℚ) (n : Int) (hi0 : 0 < i) (hn : hi - lo ≤ (n + 2) * i) :
    0 + ((⌊lo / i⌋ : ℚ) - 1) * i ≤ lo ∧ hi ≤ (n + 4) * i + ((⌊lo / i⌋ : ℚ) - 1) * i := by
  have hf := Int.floor_le (lo / i)
  have hf2 := Int.lt_floor_add_one (lo / i)
  rw [le_div_iff₀ hi0] at hf
  rw [div_lt_iff₀ hi0] at hf2
  constructor
  · nlinarith
  · nlinarith

/-- If the box is at most two intervals larger than the numbers of lines, all is covered. -/
theorem covers_of (s : Scale) (im : Image) (h0 : 0 < s.interval) (hx : im.hi.1 - im.lo.1 ≤ (s.lon + 2) * s.interval)
    (hy : im.hi.2 - im.lo.2 ≤ (s.lat + 2) * s.interval) : Covers s im := by
  constructor
  · intro k h1 h2
    obtain ⟨x, hxr, he⟩ := line_index s.interval im.lo.1 im.hi.1 s.lon k h0 hx h1 h2
    obtain ⟨s1, s2⟩ := line_span s.interval im.lo.2 im.hi.2 s.lat h0 hy
    exact ⟨_, List.mem_map.mpr ⟨x, hxr, rfl⟩, he, s1, s2⟩
  · intro k h1 h2
    obtain ⟨x, hxr, he⟩ := line_index s.interval im.lo.2 im.hi.2 s.lat k h0 hy h1 h2
    obtain ⟨s1, s2⟩ := line_span s.interval im.lo.1 im.hi.1 s.lon h0 hx
    exact ⟨_, List.mem_map.mpr ⟨x, hxr, rfl⟩, he, s1, s2⟩

theorem bisect_gt (l : List ℚ) (x : ℚ) (hs : l.Pairwise (· < ·)) (h : bisect l x < l.length) : x < l.getD (bisect l x) 0 := by
  induction l with
  | nil => simp at h
  | cons a l ih =>
    rw [List.pairwise_cons] at hs
    by_cases ha : a ≤ x
    · have hb : bisect (a :: l) x = bisect l x + 1 := by unfold bisect; rw [List.countP_cons_of_pos (by simpa using ha)]
      rw [hb] at h ⊢
      rw [List.getD_cons_succ]
      exact ih hs.2 (by simpa using h)
    · have hb : bisect (a :: l) x = 0 := by
        unfold bisect
        rw [List.countP_eq_zero]
        intro b hb
        rcases List.mem_cons.mp hb with rfl | hb
        · simpa using ha
        · have := hs.1 b hb
          simp only [decide_eq_true_eq]
          intro hbx
          exact ha (le_trans this.le hbx)
      rw [hb, List.getD_cons_zero]
      exact not_le.mp ha

/-- The interval is larger than the wanted size, if the last step is. -/
theorem stepSize_gt (l : List ℚ) (x : ℚ) (hs : l.Pairwise (· < ·)) (b : ℚ) (hb : b ∈ l) (hx : |x| < b) :
    |x| < stepSize l x := by
  have hlt : bisect l |x| < l.length := by
    refine lt_of_le_of_ne List.countP_le_length fun he => ?_
    unfold bisect at he
    rw [List.countP_eq_length] at he
    have := he b hb
    simp only [decide_eq_true_eq] at this
    exact absurd hx (not_lt.mpr this)
  unfold stepSize
  rw [Nat.min_eq_left (by omega)]
  exact bisect_gt l |x| hs hlt

theorem pyRound_ge (x : ℚ) : x - 1 / 2 ≤ pyRound x := by
  have hf := Int.lt_floor_add_one x
  have hf2 := Int.floor_le x
  unfold pyRound
  simp only
  split
  · linarith
  · split
    · push_cast; linarith
    · split
      · linarith
      · push_cast; linarith

theorem deg_sorted : degSteps.Pairwise (· < ·) := by decide +kernel
theorem dms_sorted : dmsSteps.Pairwise (· < ·) := by decide +kernel

/-- **C193** for images that are not too large for the number of lines (40 degrees each), and are not stretched: a wide image
must not be higher in degrees, a tall one not wider in degrees (by more than one and a half intervals), than its pixels say. -/
theorem C193_partial (steps : List ℚ) (hst : steps = degSteps ∨ steps = dmsSteps) (n : Nat) (im : Image) (hn : 0 < n)
    (hw : 0 < im.w) (hh : 0 < im.h) (hx : im.lo.1 < im.hi.1) (hy : im.lo.2 < im.hi.2) :
    (im.w ≥ im.h → im.hi.1 - im.lo.1 < 40 * n → im.hi.2 - im.lo.2 ≤ (im.hi.1 - im.lo.1) / (im.w / im.h) →
      Covers (refresh steps n im) im) ∧
    (im.w < im.h → im.hi.2 - im.lo.2 < 40 * n →
      im.hi.1 - im.lo.1 ≤ (im.hi.2 - im.lo.2) * (im.w / im.h) + 3 / 2 * (refresh steps n im).interval →
      Covers (refresh steps n im) im) := by
  have hn0 : (0 : ℚ) < n := by exact_mod_cast hn
  have hw0 : (0 : ℚ) < im.w := by exact_mod_cast hw
  have hh0 : (0 : ℚ) < im.h := by exact_mod_cast hh
  have hr0 : (0 : ℚ) < im.w / im.h := div_pos hw0 hh0
  have hs : ∀ d : ℚ, 0 < d → d < 40 * n → d < n * stepSize steps (d / n) ∧ 0 < stepSize steps (d / n) := by
    intro d hd hlt
    have hdn : 0 < d / n := div_pos hd hn0
    have h1 : |d / n| < stepSize steps (d / n) := by
      have hb : |d / (n : ℚ)| < 40 := by rw [abs_of_pos hdn, div_lt_iff₀ hn0]; exact hlt
      rcases hst with rfl | rfl
      · exact stepSize_gt _ _ deg_sorted 40 (by decide +kernel) hb
      · exact stepSize_gt _ _ dms_sorted 40 (by decide +kernel) hb
    rw [abs_of_pos hdn] at h1
    refine ⟨?_, lt_trans hdn h1⟩
    rw [div_lt_iff₀ hn0] at h1
    linarith
  constructor
  · intro hge hsz hasp
    obtain ⟨h1, h2⟩ := hs (im.hi.1 - im.lo.1) (by linarith) hsz
    have hre : refresh steps n im = ⟨stepSize steps ((im.hi.1 - im.lo.1) / n), n, pyRound (n / (im.w / im.h))⟩ := by
      unfold refresh; rw [if_pos hge]
    rw [hre]
    refine covers_of _ _ h2 ?_ ?_
    · simp only [Int.cast_natCast]
      nlinarith
    · simp only
      have hp := pyRound_ge ((n : ℚ) / (im.w / im.h))
      set i := stepSize steps ((im.hi.1 - im.lo.1) / n)
      have h3 : (im.hi.1 - im.lo.1) / (im.w / im.h : ℚ) ≤ (n / (im.w / im.h : ℚ)) * i := by
        rw [div_mul_eq_mul_div]
        exact div_le_div_of_nonneg_right h1.le hr0.le
      nlinarith
  · intro hlt hsz hasp
    obtain ⟨h1, h2⟩ := hs (im.hi.2 - im.lo.2) (by linarith) hsz
    have hre : refresh steps n im = ⟨stepSize steps ((im.hi.2 - im.lo.2) / n), pyRound (n * (im.w / im.h)), n⟩ := by
      unfold refresh; rw [if_neg (by omega)]
    rw [hre] at hasp ⊢
    refine covers_of _ _ h2 ?_ ?_
    · simp only at hasp ⊢
      have hp := pyRound_ge ((n : ℚ) * (im.w / im.h))
      set i := stepSize steps ((im.hi.2 - im.lo.2) / n)
      have h3 : (im.hi.2 - im.lo.2) * (im.w / im.h : ℚ) ≤ (n * (im.w / im.h : ℚ)) * i := by
        have := mul_le_mul_of_nonneg_right h1.le hr0.le
        linarith
      nlinarith
    · simp only [Int.cast_natCast]
      nlinarith

example : Covers (refresh degSteps 10 ⟨800, 400, (-90, 30), (-88, 30 + 7/8)⟩) ⟨800, 400, (-90, 30), (-88, 30 + 7/8)⟩ :=
  (C193_partial degSteps (Or.inl rfl) 10 _ (by decide) (by decide) (by decide) (by norm_num) (by norm_num)).1
    (by decide) (by norm_num) (by norm_num)

end Verif.Canvas
