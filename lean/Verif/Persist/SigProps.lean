import Verif.Persist.SigModel
import Mathlib.Algebra.Order.BigOperators.Group.List
import Mathlib.Tactic.Ring
import Mathlib.Tactic.Linarith
import Mathlib.Tactic.FieldSimp
import Mathlib.Tactic.NormNum
/-!
# C207: arrays through a save file
-/
namespace Verif.Persist.Sig

/-! ## Specification -/

/-- a number with at most `p` significant figures (or a power of ten) -/
def Figures (p : ℕ) (y : ℚ) : Prop := ∃ k j : ℤ, |k| ≤ 10 ^ p ∧ y = k * (10 : ℚ) ^ j

/-- **C207 in full**: arrays come back as they were. -/
def C207_claim : Prop := ∀ xs : List ℚ, deserialize (serialize xs) = xs

/-! ## Lemmas -/

theorem p10 (j : ℤ) : (0 : ℚ) < (10 : ℚ) ^ j := zpow_pos (by norm_num) j

theorem roundEven_near (q : ℚ) (n : ℤ) : |(roundEven q : ℚ) - q| ≤ |(n : ℚ) - q| := by
  have h1 := Int.floor_le q
  have h2 := Int.lt_floor_add_one q
  have key : ∀ m : ℤ, m ≤ ⌊q⌋ ∨ ⌊q⌋ + 1 ≤ m := by intro m; omega
  have hn : |(n : ℚ) - q| ≥ q - ⌊q⌋ ∨ |(n : ℚ) - q| ≥ ⌊q⌋ + 1 - q := by
    rcases key n with h | h
    · left
      have : (n : ℚ) ≤ ⌊q⌋ := by exact_mod_cast h
      rw [abs_of_nonpos (by linarith)]; linarith
    · right
      have : (⌊q⌋ : ℚ) + 1 ≤ n := by exact_mod_cast h
      rw [abs_of_nonneg (by linarith)]; linarith
  unfold roundEven
  simp only
  split_ifs with a b c
  · rw [abs_of_nonpos (by linarith)]
    rcases hn with h | h <;> linarith
  · push_cast
    rw [abs_of_nonneg (by linarith)]
    rcases hn with h | h <;> linarith
  · rw [abs_of_nonpos (by linarith)]
    rcases hn with h | h <;> linarith
  · push_cast
    rw [abs_of_nonneg (by linarith)]
    rcases hn with h | h <;> linarith

theorem roundEven_half (q : ℚ) : |(roundEven q : ℚ) - q| ≤ 1 / 2 := by
  have h1 := roundEven_near q ⌊q⌋
  have h2 := roundEven_near q (⌊q⌋ + 1)
  have h3 := Int.floor_le q
  have h4 := Int.lt_floor_add_one q
  rw [abs_of_nonpos (by linarith : ((⌊q⌋ : ℤ) : ℚ) - q ≤ 0)] at h1
  push_cast at h2
  rw [abs_of_nonneg (by linarith : (0 : ℚ) ≤ ⌊q⌋ + 1 - q)] at h2
  linarith

theorem roundEven_mono {a b : ℚ} (h : a ≤ b) : roundEven a ≤ roundEven b := by
  by_contra hc
  push Not at hc
  have hc' : roundEven b + 1 ≤ roundEven a := by omega
  have ha := abs_le.mp (roundEven_half a)
  have hb := abs_le.mp (roundEven_half b)
  have hq : (roundEven b : ℚ) + 1 ≤ roundEven a := by exact_mod_cast hc'
  have hab : a = b := by linarith
  rw [hab] at hc
  exact absurd hc (lt_irrefl _)

theorem floor_unique {q : ℚ} {n : ℤ} (h1 : (n : ℚ) ≤ q) (h2 : q < n + 1) : ⌊q⌋ = n := Int.floor_eq_iff.mpr ⟨h1, h2⟩

theorem roundEven_neg (q : ℚ) : roundEven (-q) = -roundEven q := by
  have h1 := Int.floor_le q
  have h2 := Int.lt_floor_add_one q
  by_cases hz : q - ⌊q⌋ = 0
  · have hf : ⌊-q⌋ = -⌊q⌋ := floor_unique (by push_cast; linarith) (by push_cast; linarith)
    unfold roundEven
    simp only [hf]
    push_cast
    rw [if_pos (by linarith), if_pos (by linarith)]
  · have h0 : 0 < q - ⌊q⌋ := lt_of_le_of_ne (by linarith) (Ne.symm hz)
    have hf : ⌊-q⌋ = -⌊q⌋ - 1 := floor_unique (by push_cast; linarith) (by push_cast; linarith)
    unfold roundEven
    simp only [hf]
    push_cast
    by_cases a : q - ⌊q⌋ < 1 / 2
    · rw [if_pos a, if_neg (by linarith), if_pos (by linarith)]; ring
    · by_cases b : 1 / 2 < q - ⌊q⌋
      · rw [if_neg a, if_pos b, if_pos (by linarith)]; ring
      · rw [if_neg a, if_neg b, if_neg (by linarith), if_neg (by linarith)]
        split_ifs <;> omega

theorem unit_pos (p : ℕ) (x : ℚ) : 0 < unit p x := by unfold unit; exact p10 _

theorem unit_neg (p : ℕ) (x : ℚ) : unit p (-x) = unit p x := by unfold unit; rw [abs_neg]

theorem roundSf_neg (p : ℕ) (x : ℚ) : roundSf p (-x) = -roundSf p x := by
  unfold roundSf
  by_cases h : x = 0
  · simp [h]
  · rw [if_neg (by simpa using h), if_neg h, unit_neg, neg_div, roundEven_neg]
    push_cast; ring

/-- the decade of a number -/
theorem decade {x : ℚ} (hx : 0 < x) : (10 : ℚ) ^ Int.log 10 x ≤ x ∧ x < (10 : ℚ) ^ (Int.log 10 x + 1) := by
  have h1 := Int.zpow_log_le_self (R := ℚ) (b := 10) (by norm_num) hx
  have h2 := Int.lt_zpow_succ_log_self (R := ℚ) (b := 10) (by norm_num) x
  exact ⟨by exact_mod_cast h1, by exact_mod_cast h2⟩

theorem pow_le_iff {a b : ℤ} : (10 : ℚ) ^ a ≤ (10 : ℚ) ^ b ↔ a ≤ b := zpow_le_zpow_iff_right₀ (by norm_num)
theorem pow_lt_iff {a b : ℤ} : (10 : ℚ) ^ a < (10 : ℚ) ^ b ↔ a < b := zpow_lt_zpow_iff_right₀ (by norm_num)

/-- numbers with `p` figures that reach the decade of `x` are multiples of its unit -/
theorem multiple {p : ℕ} {x y : ℚ} (hx : 0 < x) (hy : Figures p y) (h : (10 : ℚ) ^ Int.log 10 x ≤ |y|) (hp : 1 ≤ p) :
    ∃ n : ℤ, y = n * unit p x := by
  obtain ⟨k, j, hk, rfl⟩ := hy
  set e := Int.log 10 x with he
  have hu : unit p x = (10 : ℚ) ^ (e + 1 - p) := by unfold unit; rw [abs_of_pos hx]
  have hkq : |(k : ℚ)| ≤ (10 : ℚ) ^ (p : ℤ) := by
    rw [zpow_natCast]
    exact_mod_cast hk
  rw [abs_mul, abs_of_pos (p10 j)] at h
  have hle : (10 : ℚ) ^ e ≤ (10 : ℚ) ^ ((p : ℤ) + j) := by
    rw [zpow_add₀ (by norm_num)]
    exact h.trans (mul_le_mul_of_nonneg_right hkq (le_of_lt (p10 j)))
  rw [pow_le_iff] at hle
  rw [hu]
  by_cases hj : e + 1 - p ≤ j
  · obtain ⟨d, hd⟩ : ∃ d : ℕ, j = d + (e + 1 - p) := ⟨(j - (e + 1 - p)).toNat, by omega⟩
    refine ⟨k * 10 ^ d, ?_⟩
    rw [hd, zpow_add₀ (by norm_num), zpow_natCast]
    push_cast; ring
  · have hj' : j = e - p := by omega
    -- then `k` is a power of ten
    have hkeq : |(k : ℚ)| = (10 : ℚ) ^ (p : ℤ) := by
      apply le_antisymm hkq
      rw [hj', show e - (p : ℤ) = e + -(p : ℤ) by ring, zpow_add₀ (by norm_num), zpow_neg] at h
      have hp0 : (0 : ℚ) < (10 : ℚ) ^ (p : ℤ) := p10 _
      have he0 : (0 : ℚ) < (10 : ℚ) ^ e := p10 _
      have h' : (10 : ℚ) ^ e * 1 ≤ (10 : ℚ) ^ e * (|(k : ℚ)| / (10 : ℚ) ^ (p : ℤ)) := by
        rw [mul_one]
        calc (10 : ℚ) ^ e ≤ _ := h
          _ = _ := by field_simp
      have h'' := le_of_mul_le_mul_left h' he0
      rwa [le_div_iff₀ hp0, one_mul] at h''
    have hkz : k = 10 ^ p ∨ k = -10 ^ p := by
      have : |k| = 10 ^ p := by
        rw [zpow_natCast] at hkeq
        exact_mod_cast hkeq
      rcases abs_choice k with hc | hc
      · left; rw [← this, hc]
      · right; rw [← this, hc]; ring
    obtain ⟨d, hd⟩ : ∃ d : ℕ, p = d + 1 := ⟨p - 1, by omega⟩
    have hpow : ((10 : ℚ) ^ p) * (10 : ℚ) ^ j = 10 ^ d * (10 : ℚ) ^ (e + 1 - p) := by
      have h1 : ((10 : ℚ) ^ p) * (10 : ℚ) ^ j = (10 : ℚ) ^ e := by
        rw [hj', ← zpow_natCast, ← zpow_add₀ (by norm_num)]; congr 1; ring
      have h2 : (10 : ℚ) ^ d * (10 : ℚ) ^ (e + 1 - p) = (10 : ℚ) ^ e := by
        rw [← zpow_natCast, ← zpow_add₀ (by norm_num)]; congr 1; subst hd; push_cast; ring
      rw [h1, h2]
    rcases hkz with rfl | rfl
    · exact ⟨10 ^ d, by push_cast; exact hpow⟩
    · refine ⟨-10 ^ d, ?_⟩
      push_cast
      rw [neg_mul, neg_mul, hpow]

/-- for a positive number: between the ends of its decade -/
theorem roundSf_bounds {p : ℕ} (hp : 1 ≤ p) {x : ℚ} (hx : 0 < x) :
    (10 : ℚ) ^ Int.log 10 x ≤ roundSf p x ∧ roundSf p x ≤ (10 : ℚ) ^ (Int.log 10 x + 1) := by
  obtain ⟨h1, h2⟩ := decade hx
  have hu : unit p x = (10 : ℚ) ^ (Int.log 10 x + 1 - p) := by unfold unit; rw [abs_of_pos hx]
  have hup := unit_pos p x
  obtain ⟨d, hd⟩ : ∃ d : ℕ, p = d + 1 := ⟨p - 1, by omega⟩
  have e1 : (10 : ℚ) ^ Int.log 10 x = ((10 ^ d : ℤ) : ℚ) * unit p x := by
    rw [hu]; push_cast
    rw [← zpow_natCast, ← zpow_add₀ (by norm_num)]; congr 1; subst hd; push_cast; ring
  have e2 : (10 : ℚ) ^ (Int.log 10 x + 1) = ((10 ^ p : ℤ) : ℚ) * unit p x := by
    rw [hu]; push_cast
    rw [← zpow_natCast, ← zpow_add₀ (by norm_num)]; congr 1; ring
  have hint : ∀ n : ℤ, roundEven (n : ℚ) = n := by
    intro n; unfold roundEven; simp
  unfold roundSf
  rw [if_neg (ne_of_gt hx)]
  constructor
  · rw [e1]
    apply mul_le_mul_of_nonneg_right _ (le_of_lt hup)
    have : ((10 ^ d : ℤ) : ℚ) ≤ x / unit p x := by rw [le_div_iff₀ hup, ← e1]; exact h1
    have h := roundEven_mono this
    rw [hint] at h
    exact_mod_cast h
  · rw [e2]
    apply mul_le_mul_of_nonneg_right _ (le_of_lt hup)
    have : x / unit p x ≤ ((10 ^ p : ℤ) : ℚ) := by rw [div_le_iff₀ hup, ← e2]; exact le_of_lt h2
    have h := roundEven_mono this
    rw [hint] at h
    exact_mod_cast h

theorem figures_neg {p : ℕ} {y : ℚ} (h : Figures p y) : Figures p (-y) := by
  obtain ⟨k, j, hk, rfl⟩ := h
  exact ⟨-k, j, by rwa [abs_neg], by push_cast; ring⟩

theorem roundSf_figures {p : ℕ} (hp : 1 ≤ p) (x : ℚ) : Figures p (roundSf p x) := by
  have pos : ∀ x : ℚ, 0 < x → Figures p (roundSf p x) := by
    intro x hx
    obtain ⟨h1, h2⟩ := roundSf_bounds hp hx
    have hu : unit p x = (10 : ℚ) ^ (Int.log 10 x + 1 - p) := by unfold unit; rw [abs_of_pos hx]
    refine ⟨roundEven (x / unit p x), Int.log 10 x + 1 - p, ?_, ?_⟩
    · have hup := unit_pos p x
      have e2 : (10 : ℚ) ^ (Int.log 10 x + 1) = ((10 ^ p : ℤ) : ℚ) * unit p x := by
        rw [hu]; push_cast
        rw [← zpow_natCast, ← zpow_add₀ (by norm_num)]; congr 1; ring
      unfold roundSf at h1 h2
      rw [if_neg (ne_of_gt hx)] at h1 h2
      rw [e2] at h2
      have h3 := le_of_mul_le_mul_right h2 hup
      have h4 : (0 : ℚ) < roundEven (x / unit p x) := by
        by_contra hc
        push Not at hc
        have : (roundEven (x / unit p x) : ℚ) * unit p x ≤ 0 := mul_nonpos_of_nonpos_of_nonneg hc (le_of_lt hup)
        have h10 : (0 : ℚ) < (10 : ℚ) ^ Int.log 10 x := p10 _
        linarith
      have h5 : (0 : ℤ) < roundEven (x / unit p x) := by exact_mod_cast h4
      rw [abs_of_pos h5]
      exact_mod_cast h3
    · unfold roundSf
      rw [if_neg (ne_of_gt hx), hu]
  rcases lt_trichotomy x 0 with h | h | h
  · have := figures_neg (pos (-x) (by linarith))
    rwa [roundSf_neg, neg_neg] at this
  · subst h
    exact ⟨0, 0, by simp, by simp [roundSf]⟩
  · exact pos x h

/-! ## C207 -/

/-- **C207, nearest**: what is written has at most `p` significant figures, and no number with that many figures is nearer. -/
theorem C207_nearest {p : ℕ} (hp : 1 ≤ p) (x : ℚ) :
    Figures p (roundSf p x) ∧ ∀ y, Figures p y → |roundSf p x - x| ≤ |y - x| := by
  refine ⟨roundSf_figures hp x, ?_⟩
  have pos : ∀ x : ℚ, 0 < x → ∀ y, Figures p y → |roundSf p x - x| ≤ |y - x| := by
    intro x hx y hy
    obtain ⟨h1, h2⟩ := decade hx
    have hup := unit_pos p x
    have mult : ∀ n : ℤ, |roundSf p x - x| ≤ |n * unit p x - x| := by
      intro n
      have h := roundEven_near (x / unit p x) n
      unfold roundSf
      rw [if_neg (ne_of_gt hx)]
      have e : ∀ m : ℤ, |(m : ℚ) * unit p x - x| = |(m : ℚ) - x / unit p x| * unit p x := by
        intro m
        rw [← abs_of_pos hup, ← abs_mul, abs_of_pos hup]
        congr 1; field_simp
      rw [e, e]
      exact mul_le_mul_of_nonneg_right h (le_of_lt hup)
    by_cases hyb : (10 : ℚ) ^ Int.log 10 x ≤ |y|
    · obtain ⟨n, rfl⟩ := multiple hx hy hyb hp
      exact mult n
    · -- the beginning of the decade is nearer
      push Not at hyb
      have hf : Figures p ((10 : ℚ) ^ Int.log 10 x) := ⟨1, Int.log 10 x, by
        simp only [abs_one]; exact one_le_pow₀ (by norm_num), by simp⟩
      obtain ⟨n, hn⟩ := multiple hx hf (by rw [abs_of_pos (p10 _)]) hp
      refine (mult n).trans ?_
      rw [← hn, abs_of_nonpos (by linarith)]
      have hy1 : y ≤ |y| := le_abs_self y
      rw [abs_of_nonpos (by linarith)]
      linarith
  rcases lt_trichotomy x 0 with h | h | h
  · intro y hy
    have := pos (-x) (by linarith) (-y) (figures_neg hy)
    rw [roundSf_neg] at this
    rw [show -roundSf p x - -x = -(roundSf p x - x) by ring, abs_neg, show -y - -x = -(y - x) by ring, abs_neg] at this
    exact this
  · subst h
    intro y _
    simp [roundSf]
  · exact pos x h

/-- **C207, error**: at most half a unit of the last figure, which is at most `5·10⁻ᵖ` of the number; the sign and zero stay, and so does the
order of two numbers. -/
theorem C207_error {p : ℕ} (hp : 1 ≤ p) (x : ℚ) :
    |roundSf p x - x| ≤ unit p x / 2 ∧ |roundSf p x - x| ≤ 5 / 10 ^ p * |x| ∧
    (0 < x ↔ 0 < roundSf p x) ∧ (roundSf p x = 0 ↔ x = 0) := by
  have hup := unit_pos p x
  have h1 : |roundSf p x - x| ≤ unit p x / 2 := by
    unfold roundSf
    split_ifs with h
    · subst h; simp; linarith
    · have h := roundEven_half (x / unit p x)
      have e : |(roundEven (x / unit p x) : ℚ) * unit p x - x| = |(roundEven (x / unit p x) : ℚ) - x / unit p x| * unit p x := by
        rw [← abs_of_pos hup, ← abs_mul, abs_of_pos hup]
        congr 1; field_simp
      rw [e]
      have := mul_le_mul_of_nonneg_right h (le_of_lt hup)
      linarith
  have sgn : ∀ x : ℚ, 0 < x → 0 < roundSf p x := by
    intro x hx
    have := (roundSf_bounds hp hx).1
    have h10 : (0 : ℚ) < (10 : ℚ) ^ Int.log 10 x := p10 _
    linarith
  have sgn' : ∀ x : ℚ, x < 0 → roundSf p x < 0 := by
    intro x hx
    have := sgn (-x) (by linarith)
    rw [roundSf_neg] at this
    linarith
  have z : roundSf p 0 = 0 := by simp [roundSf]
  refine ⟨h1, ?_, ⟨sgn x, fun h => ?_⟩, ⟨fun h => ?_, fun h => by rw [h, z]⟩⟩
  · by_cases hx : x = 0
    · subst hx; simp [z]
    · have hax : 0 < |x| := abs_pos.mpr hx
      have hd := (decade hax).1
      have hu : unit p x = (10 : ℚ) ^ Int.log 10 |x| * 10 / 10 ^ p := by
        unfold unit
        rw [show Int.log 10 |x| + 1 - (p : ℤ) = Int.log 10 |x| + 1 + -(p : ℤ) by ring, zpow_add₀ (by norm_num),
          zpow_add₀ (by norm_num), zpow_neg, zpow_natCast, zpow_one]
        field_simp
      have hp0 : (0 : ℚ) < 10 ^ p := by positivity
      calc |roundSf p x - x| ≤ unit p x / 2 := h1
        _ = 5 / 10 ^ p * (10 : ℚ) ^ Int.log 10 |x| := by rw [hu]; field_simp; norm_num
        _ ≤ 5 / 10 ^ p * |x| := mul_le_mul_of_nonneg_left hd (by positivity)
  · rcases lt_trichotomy x 0 with hx | hx | hx
    · have := sgn' x hx; linarith
    · rw [hx, z] at h; exact absurd h (lt_irrefl _)
    · exact hx
  · rcases lt_trichotomy x 0 with hx | hx | hx
    · have := sgn' x hx; rw [h] at this; exact absurd this (lt_irrefl _)
    · exact hx
    · have := sgn x hx; rw [h] at this; exact absurd this (lt_irrefl _)

/-- **C207, order**: a larger number is not written smaller. -/
theorem C207_mono {p : ℕ} (hp : 1 ≤ p) {x y : ℚ} (h : x ≤ y) : roundSf p x ≤ roundSf p y := by
  have pos : ∀ x y : ℚ, 0 < x → x ≤ y → roundSf p x ≤ roundSf p y := by
    intro x y hx hxy
    have hy : 0 < y := lt_of_lt_of_le hx hxy
    have hlog : Int.log 10 x ≤ Int.log 10 y := Int.log_mono_right hx hxy
    rcases lt_or_eq_of_le hlog with hl | hl
    · have h1 := (roundSf_bounds hp hx).2
      have h2 := (roundSf_bounds hp hy).1
      have h3 : (10 : ℚ) ^ (Int.log 10 x + 1) ≤ (10 : ℚ) ^ Int.log 10 y := pow_le_iff.mpr (by omega)
      linarith
    · have hu : unit p x = unit p y := by unfold unit; rw [abs_of_pos hx, abs_of_pos hy, hl]
      unfold roundSf
      rw [if_neg (ne_of_gt hx), if_neg (ne_of_gt hy), hu]
      have hup := unit_pos p y
      apply mul_le_mul_of_nonneg_right _ (le_of_lt hup)
      have := roundEven_mono (div_le_div_of_nonneg_right hxy (le_of_lt hup))
      exact_mod_cast this
  have z : roundSf p 0 = 0 := by simp [roundSf]
  rcases lt_trichotomy x 0 with hx | hx | hx
  · rcases lt_trichotomy y 0 with hy | hy | hy
    · have := pos (-y) (-x) (by linarith) (by linarith)
      rw [roundSf_neg, roundSf_neg] at this
      linarith
    · subst hy
      rw [z]
      by_contra hc
      push Not at hc
      have := ((C207_error hp x).2.2.1).mpr hc
      linarith
    · have h1 : 0 < roundSf p y := ((C207_error hp y).2.2.1).mp hy
      have h2 : ¬ 0 < roundSf p x := fun hc => by
        have := ((C207_error hp x).2.2.1).mpr hc
        linarith
      linarith
  · subst hx
    rw [z]
    rcases lt_or_eq_of_le h with hy | hy
    · exact le_of_lt (((C207_error hp y).2.2.1).mp hy)
    · rw [← hy, z]
  · exact pos x y hx h

/-- **C207 (partial)**: numbers with at most 8 significant figures come back as they were; any other array comes back with as many
numbers, each off by at most `5·10⁻⁸` of itself, and comes back as it then is after any further saving.
Missing for the full claim: numbers with more figures (`C207_counterexample`). -/
theorem C207_partial (xs : List ℚ) :
    ((∀ x ∈ xs, Figures 8 x) → deserialize (serialize xs) = xs) ∧
    (deserialize (serialize xs)).length = xs.length ∧
    (∀ i : ℕ, ∀ x ∈ xs[i]?, ∃ y : ℚ, y ∈ (deserialize (serialize xs))[i]? ∧ |y - x| ≤ 5 / 10 ^ 8 * |x|) ∧
    deserialize (serialize (deserialize (serialize xs))) = deserialize (serialize xs) := by
  have exact1 : ∀ x, Figures 8 x → roundSf 8 x = x := by
    intro x hx
    have h := (C207_nearest (p := 8) (by norm_num) x).2 x hx
    rw [sub_self, abs_zero] at h
    have := abs_nonpos_iff.mp h
    linarith
  refine ⟨fun h => ?_, by simp [deserialize, serialize], ?_, ?_⟩
  · unfold deserialize serialize
    conv_rhs => rw [← List.map_id xs]
    exact List.map_congr_left fun x hx => exact1 x (h x hx)
  · intro i x hx
    refine ⟨roundSf 8 x, ?_, (C207_error (p := 8) (by norm_num) x).2.1⟩
    unfold deserialize serialize
    rw [List.getElem?_map]
    simp only [Option.mem_def] at hx ⊢
    rw [hx]; rfl
  · unfold deserialize serialize
    rw [List.map_map]
    exact List.map_congr_left fun x _ => exact1 _ (roundSf_figures (by norm_num) x)

/-- **C207, sums**: mass fractions that are not negative and sum to one come back with a sum off by at most `5·10⁻⁸`. -/
theorem C207_sum (xs : List ℚ) (h0 : ∀ x ∈ xs, 0 ≤ x) :
    |(deserialize (serialize xs)).sum - xs.sum| ≤ 5 / 10 ^ 8 * xs.sum := by
  unfold deserialize serialize
  induction xs with
  | nil => simp
  | cons x xs ih =>
    rw [List.map_cons, List.sum_cons, List.sum_cons]
    have h1 := (C207_error (p := 8) (by norm_num) x).2.1
    rw [abs_of_nonneg (h0 x (by simp))] at h1
    have h2 := ih fun y hy => h0 y (by simp [hy])
    calc |roundSf 8 x + (xs.map (roundSf 8)).sum - (x + xs.sum)|
        = |(roundSf 8 x - x) + ((xs.map (roundSf 8)).sum - xs.sum)| := by congr 1; ring
      _ ≤ |roundSf 8 x - x| + |(xs.map (roundSf 8)).sum - xs.sum| := abs_add_le _ _
      _ ≤ 5 / 10 ^ 8 * (x + xs.sum) := by linarith

/-- numbers with 8 figures -/
example : ∀ x ∈ ([0.25, 1013.25, -3.1415927e-5] : List ℚ), Figures 8 x := by
  intro x hx
  simp only [List.mem_cons, List.not_mem_nil, or_false] at hx
  rcases hx with rfl | rfl | rfl
  · exact ⟨25, -2, by norm_num, by norm_num⟩
  · exact ⟨101325, -2, by norm_num, by norm_num⟩
  · exact ⟨-31415927, -12, by norm_num, by norm_num⟩

theorem log_third (x : ℚ) (h1 : 1 / 10 ≤ x) (h2 : x < 1) : Int.log 10 |x| = -1 := by
  have hx : 0 < x := by linarith
  rw [abs_of_pos hx]
  have a := (decade hx).1
  have b := (decade hx).2
  have c : (10 : ℚ) ^ Int.log 10 x < (10 : ℚ) ^ (0 : ℤ) := by rw [zpow_zero]; linarith
  have d : (10 : ℚ) ^ (-1 : ℤ) < (10 : ℚ) ^ (Int.log 10 x + 1) := by rw [zpow_neg_one]; norm_num at h1 ⊢; linarith
  rw [pow_lt_iff] at c d
  omega

/-- **C207 is false of the code**: three mass fractions that sum to one come back as 0.33333333, 0.33333333 and 0.33333333, that is 0.99999999 in all. -/
theorem C207_counterexample :
    deserialize (serialize [0.333333333, 0.333333333, 0.333333334]) = [0.33333333, 0.33333333, 0.33333333] ∧
    ([0.333333333, 0.333333333, 0.333333334] : List ℚ).sum = 1 ∧ ¬ C207_claim := by
  have r : ∀ x : ℚ, 33333332.6 / 100000000 ≤ x → x ≤ 33333333.4 / 100000000 → roundSf 8 x = 0.33333333 := by
    intro x h1 h2
    have hl := log_third x (by norm_num at h1 ⊢; linarith) (by norm_num at h2 ⊢; linarith)
    have hu : unit 8 x = 1 / 100000000 := by
      unfold unit; rw [hl]; norm_num [zpow_neg]
    have hx : x ≠ 0 := by
      intro h; rw [h] at h1; norm_num at h1
    unfold roundSf
    rw [if_neg hx, hu]
    have hr : roundEven (x / (1 / 100000000)) = 33333333 := by
      have hh := abs_le.mp (roundEven_half (x / (1 / 100000000)))
      have e : x / (1 / 100000000) = x * 100000000 := by field_simp
      rw [e] at hh ⊢
      norm_num at h1 h2
      have l1 : (33333332 : ℚ) < roundEven (x * 100000000) := by linarith
      have l2 : (roundEven (x * 100000000) : ℚ) < 33333334 := by linarith
      have l1' : (33333332 : ℤ) < roundEven (x * 100000000) := by exact_mod_cast l1
      have l2' : roundEven (x * 100000000) < (33333334 : ℤ) := by exact_mod_cast l2
      omega
    rw [hr]; norm_num
  have hs : deserialize (serialize [0.333333333, 0.333333333, 0.333333334]) = [0.33333333, 0.33333333, 0.33333333] := by
    simp only [deserialize, serialize, List.map_cons, List.map_nil]
    rw [r 0.333333333 (by norm_num) (by norm_num), r 0.333333334 (by norm_num) (by norm_num)]
  refine ⟨hs, by norm_num, fun h => ?_⟩
  have := h [0.333333333, 0.333333333, 0.333333334]
  rw [hs] at this
  norm_num at this

end Verif.Persist.Sig
