import Verif.TSeries.Spec
import Mathlib.Tactic.Ring
import Mathlib.Tactic.Linarith
import Mathlib.Tactic.FieldSimp
import Mathlib.Tactic.NormNum
import Mathlib.Tactic.LinearCombination

/-! # Lemmas about searching and interpolating -/

namespace Verif.TSeries

theorem at'_eq {ts : List TV} {i : Nat} {p : TV} (h : ts[i]? = some p) : at' ts i = p := by
  unfold at'; rw [List.getD_eq_getElem?_getD, h]; rfl

theorem at'_get {ts : List TV} {i : Nat} (h : i < ts.length) : ts[i]? = some (at' ts i) := by
  unfold at'; rw [List.getD_eq_getElem?_getD, List.getElem?_eq_getElem h]; rfl

theorem asc_lt {ts : List TV} (h : Ascending ts) {i j : Nat} (hij : i < j)
    (hj : j < ts.length) : (at' ts i).time < (at' ts j).time :=
  h i j _ _ (at'_get (by omega)) (at'_get hj) hij

theorem bsearch_spec (ts : List TV) (t : Int) (s e : Nat) (hse : s ≤ e) :
    bsearch ts t s e ≤ e ∧
      (bsearch ts t s e = s ∨ (at' ts (bsearch ts t s e)).time < t) := by
  induction s, e using bsearch.induct (ts := ts) (t := t) with
  | case1 s e h hm ih =>
    rw [bsearch, dif_pos h, if_pos hm]
    have := ih (by omega)
    exact ⟨by omega, this.2⟩
  | case2 s e h hm ih =>
    rw [bsearch, dif_pos h, if_neg hm]
    have := ih (by omega)
    refine ⟨this.1, Or.inr ?_⟩
    rcases this.2 with h' | h'
    · rw [h']; omega
    · exact h'
  | case3 s e h =>
    rw [bsearch, dif_neg h]
    exact ⟨hse, Or.inl rfl⟩

theorem scan_some (ts : List TV) (t : Int) (i : Nat) :
    ∀ k, scan ts t i = some k →
      i ≤ k ∧ k < ts.length ∧ t ≤ (at' ts k).time ∧
        ∀ j, i ≤ j → j < k → (at' ts j).time < t := by
  induction i using scan.induct (ts := ts) (t := t) with
  | case1 i h hm =>
    intro k hk
    rw [scan, dif_pos h, if_pos hm] at hk
    obtain rfl : i = k := by injection hk
    exact ⟨le_refl _, h, hm, fun j h1 h2 => by omega⟩
  | case2 i h hm ih =>
    intro k hk
    rw [scan, dif_pos h, if_neg hm] at hk
    obtain ⟨h1, h2, h3, h4⟩ := ih k hk
    refine ⟨by omega, h2, h3, fun j hj1 hj2 => ?_⟩
    rcases Nat.eq_or_lt_of_le hj1 with rfl | h'
    · omega
    · exact h4 j h' hj2
  | case3 i h =>
    intro k hk
    rw [scan, dif_neg h] at hk
    cases hk

theorem scan_ne_none (ts : List TV) (t : Int) (i : Nat) :
    ∀ k, i ≤ k → k < ts.length → t ≤ (at' ts k).time → scan ts t i ≠ none := by
  induction i using scan.induct (ts := ts) (t := t) with
  | case1 i h hm =>
    intro k _ _ _
    rw [scan, dif_pos h, if_pos hm]; simp
  | case2 i h hm ih =>
    intro k h1 h2 h3
    rw [scan, dif_pos h, if_neg hm]
    refine ih k ?_ h2 h3
    rcases Nat.eq_or_lt_of_le h1 with rfl | h'
    · exact absurd h3 hm
    · exact h'
  | case3 i h =>
    intro k h1 h2 _
    omega

/-- The bracketing step, for any series whatever its order. -/
theorem bracket (ts : List TV) (t : Int) (hn : 0 < ts.length)
    (h0 : (at' ts 0).time ≤ t) (h1 : t ≤ (at' ts (ts.length - 1)).time) :
    ∃ k, scan ts t (bsearch ts t 0 (ts.length - 1)) = some k ∧ k < ts.length ∧
      t ≤ (at' ts k).time ∧ (k = 0 → t = (at' ts 0).time) ∧
      (0 < k → (at' ts (k - 1)).time < t) := by
  obtain ⟨hb1, hb2⟩ := bsearch_spec ts t 0 (ts.length - 1) (Nat.zero_le _)
  generalize bsearch ts t 0 (ts.length - 1) = r at hb1 hb2
  have hne := scan_ne_none ts t r (ts.length - 1) hb1 (by omega) h1
  obtain ⟨k, hk⟩ := Option.ne_none_iff_exists'.mp hne
  obtain ⟨k1, k2, k3, k4⟩ := scan_some ts t r k hk
  refine ⟨k, hk, k2, k3, ?_, ?_⟩
  · rintro rfl; omega
  · intro hk0
    by_cases hr : r ≤ k - 1
    · exact k4 (k - 1) hr (by omega)
    · have : r = k := by omega
      subst this
      rcases hb2 with h | h <;> omega

theorem tol_int (d : Int) (h : 0 ≤ d) : ((d : ℚ) ≤ tol) ↔ d = 0 := by
  constructor
  · intro hd
    have : (d : ℚ) < 1 := lt_of_le_of_lt hd (by norm_num [tol])
    have h2 : d < 1 := by exact_mod_cast this
    omega
  · rintro rfl; norm_num [tol]

theorem line_ok (p q : TV) (c : TV → ℚ) (t : Int) (h : p.time < q.time) :
    ∃ x, line p q c (q.time - p.time) t = .ok x ∧ OnLine p q (c p) (c q) t x := by
  unfold line
  rw [if_neg (by omega)]
  refine ⟨_, rfl, ?_⟩
  have hd : (q.time : ℚ) - p.time ≠ 0 := by
    have : (p.time : ℚ) < q.time := by exact_mod_cast h
    linarith
  unfold OnLine
  push_cast
  field_simp
  ring

/-- What a component is between the ends of the series. -/
theorem component_in (ts : List TV) (c : TV → ℚ) (t : Int) (hn : 2 < ts.length)
    (h0 : (at' ts 0).time ≤ t) (h1 : t ≤ (at' ts (ts.length - 1)).time) :
    ∃ k, k < ts.length ∧
      ((t = (at' ts k).time ∧ component ts c t = .ok (c (at' ts k))) ∨
       (0 < k ∧ (at' ts (k - 1)).time < t ∧ t < (at' ts k).time ∧
         ((|c (at' ts k) - c (at' ts (k - 1))| < tol ∧ component ts c t = .ok (c (at' ts k))) ∨
          (¬ |c (at' ts k) - c (at' ts (k - 1))| < tol ∧
            ∃ x, component ts c t = .ok x ∧
              OnLine (at' ts (k - 1)) (at' ts k) (c (at' ts (k - 1))) (c (at' ts k)) t x)))) := by
  obtain ⟨k, hk, k1, k2, k3, k4⟩ := bracket ts t (by omega) h0 h1
  have hc : component ts c t =
      (if (((at' ts k).time - t : Int) : ℚ) ≤ tol then .ok (c (at' ts k))
      else if k = 0 then .garbage
      else if |c (at' ts k) - c (at' ts (k - 1))| < tol then .ok (c (at' ts k))
      else
        line (at' ts (k - 1)) (at' ts k) c ((at' ts k).time - (at' ts (k - 1)).time) t) := by
    unfold component
    rw [if_neg (by omega), if_neg (by omega), if_neg (by omega), if_neg (by omega), hk]
  have htol := tol_int ((at' ts k).time - t) (by omega)
  refine ⟨k, k1, ?_⟩
  by_cases he : (at' ts k).time - t = 0
  · left
    refine ⟨by omega, ?_⟩
    rw [hc, if_pos (htol.2 he)]
  · right
    have hk0 : k ≠ 0 := fun h => by
      have := k3 h; rw [h] at he; omega
    have hlt := k4 (by omega)
    refine ⟨by omega, hlt, by omega, ?_⟩
    rw [if_neg (fun h => he (htol.1 h)), if_neg hk0] at hc
    by_cases hs : |c (at' ts k) - c (at' ts (k - 1))| < tol
    · left; rw [if_pos hs] at hc; exact ⟨hs, hc⟩
    · right
      rw [if_neg hs] at hc
      obtain ⟨x, hx1, hx2⟩ := line_ok (at' ts (k - 1)) (at' ts k) c t (by omega)
      exact ⟨hs, x, by rw [hc, hx1], hx2⟩

theorem onLine_left {p q : TV} {a b x : ℚ} (h : p.time < q.time)
    (hx : OnLine p q a b p.time x) : x = a := by
  unfold OnLine at hx
  have hd : (q.time : ℚ) - p.time ≠ 0 := by
    have : (p.time : ℚ) < q.time := by exact_mod_cast h
    linarith
  have : x * ((q.time : ℚ) - p.time) = a * (q.time - p.time) := by rw [hx]; ring
  exact mul_right_cancel₀ hd this

theorem onLine_right {p q : TV} {a b x : ℚ} (h : p.time < q.time)
    (hx : OnLine p q a b q.time x) : x = b := by
  unfold OnLine at hx
  have hd : (q.time : ℚ) - p.time ≠ 0 := by
    have : (p.time : ℚ) < q.time := by exact_mod_cast h
    linarith
  have : x * ((q.time : ℚ) - p.time) = b * (q.time - p.time) := by rw [hx]; ring
  exact mul_right_cancel₀ hd this

theorem onLine_of_left (p q : TV) (a b : ℚ) : OnLine p q a b p.time a := by
  unfold OnLine; ring

theorem onLine_of_right (p q : TV) (a b : ℚ) : OnLine p q a b q.time b := by
  unfold OnLine; ring

/-- A point of the line between the two ends lies between their values. -/
theorem onLine_between {p q : TV} {a b x : ℚ} {t : Int} (h : p.time < q.time)
    (h1 : p.time ≤ t) (h2 : t ≤ q.time) (hx : OnLine p q a b t x) :
    min a b ≤ x ∧ x ≤ max a b := by
  unfold OnLine at hx
  have hd : (0 : ℚ) < (q.time : ℚ) - p.time := by
    have : (p.time : ℚ) < q.time := by exact_mod_cast h
    linarith
  have e1 : (0 : ℚ) ≤ (q.time : ℚ) - t := by
    have : (t : ℚ) ≤ q.time := by exact_mod_cast h2
    linarith
  have e2 : (0 : ℚ) ≤ (t : ℚ) - p.time := by
    have : (p.time : ℚ) ≤ t := by exact_mod_cast h1
    linarith
  have l1 := min_le_left a b
  have l2 := min_le_right a b
  have l3 := le_max_left a b
  have l4 := le_max_right a b
  constructor
  · have : min a b * ((q.time : ℚ) - p.time) ≤ x * ((q.time : ℚ) - p.time) := by
      rw [hx]
      nlinarith [mul_le_mul_of_nonneg_right l1 e1, mul_le_mul_of_nonneg_right l2 e2]
    exact le_of_mul_le_mul_right this hd
  · have : x * ((q.time : ℚ) - p.time) ≤ max a b * ((q.time : ℚ) - p.time) := by
      rw [hx]
      nlinarith [mul_le_mul_of_nonneg_right l3 e1, mul_le_mul_of_nonneg_right l4 e2]
    exact le_of_mul_le_mul_right this hd

/-- What a component is between two neighbouring times of an ascending series: exactly the
line when the two values differ enough (or there are only two), the later value otherwise. -/
theorem component_seg (ts : List TV) (c : TV → ℚ) (t : Int) (hasc : Ascending ts) (i : Nat)
    (hi : i + 1 < ts.length) (h0 : (at' ts i).time ≤ t) (h1 : t ≤ (at' ts (i + 1)).time) :
    ∃ x, component ts c t = .ok x ∧
      (OnLine (at' ts i) (at' ts (i + 1)) (c (at' ts i)) (c (at' ts (i + 1))) t x ∨
        (2 < ts.length ∧ (at' ts i).time < t ∧ |c (at' ts (i + 1)) - c (at' ts i)| < tol ∧
          x = c (at' ts (i + 1)))) := by
  have hi' : (at' ts i).time < (at' ts (i + 1)).time := asc_lt hasc (by omega) hi
  have hlo : (at' ts 0).time ≤ t := by
    rcases Nat.eq_zero_or_pos i with h | h
    · rw [h] at h0; exact h0
    · have := asc_lt hasc h (by omega : i < ts.length); omega
  have hhi : t ≤ (at' ts (ts.length - 1)).time := by
    rcases Nat.eq_or_lt_of_le (by omega : i + 1 ≤ ts.length - 1) with h | h
    · rw [← h]; exact h1
    · have := asc_lt hasc h (by omega); omega
  by_cases h2 : ts.length = 2
  · have : i = 0 := by omega
    subst this
    obtain ⟨x, hx1, hx2⟩ := line_ok (at' ts 0) (at' ts 1) c t hi'
    refine ⟨x, ?_, Or.inl hx2⟩
    unfold component
    rw [if_neg (by omega), if_neg (by omega), if_neg (by omega), if_pos h2, hx1]
  · obtain ⟨k, hk, hcase⟩ := component_in ts c t (by omega) hlo hhi
    rcases hcase with ⟨ht, hc⟩ | ⟨hk0, hlt, hgt, hcase⟩
    · have hki : k = i ∨ k = i + 1 := by
        rcases Nat.lt_trichotomy k i with h | h | h
        · have := asc_lt hasc h (by omega : i < ts.length); omega
        · exact Or.inl h
        · rcases Nat.eq_or_lt_of_le (show i + 1 ≤ k from h) with h' | h'
          · exact Or.inr h'.symm
          · have := asc_lt hasc h' hk; omega
      refine ⟨_, hc, Or.inl ?_⟩
      rcases hki with rfl | rfl
      · rw [ht]; exact onLine_of_left _ _ _ _
      · rw [ht]; exact onLine_of_right _ _ _ _
    · have hki : k = i + 1 := by
        rcases Nat.lt_trichotomy k (i + 1) with h | h | h
        · rcases Nat.eq_or_lt_of_le (show k ≤ i by omega) with h' | h'
          · rw [h'] at hgt; omega
          · have := asc_lt hasc h' (by omega : i < ts.length); omega
        · exact h
        · rcases Nat.eq_or_lt_of_le (show i + 1 ≤ k - 1 by omega) with h' | h'
          · rw [← h'] at hlt; omega
          · have := asc_lt hasc h' (by omega : k - 1 < ts.length); omega
      subst hki
      simp only [Nat.add_sub_cancel] at hcase hlt
      rcases hcase with ⟨hs, hc⟩ | ⟨_, x, hc, hx⟩
      · exact ⟨_, hc, Or.inr ⟨by omega, hlt, hs, rfl⟩⟩
      · exact ⟨x, hc, Or.inl hx⟩

theorem getTimeValue_in (ts : List TV) (e : Bool) (t : Int) (hn : 0 < ts.length)
    (h0 : (at' ts 0).time ≤ t) (h1 : t ≤ (at' ts (ts.length - 1)).time) :
    getTimeValue ts e t = both (component ts TV.u t) (component ts TV.v t) := by
  have hc : clamp ts t = t := by
    unfold clamp; rw [if_neg (by omega), if_neg (by omega)]
  unfold getTimeValue
  rw [if_neg (by omega)]
  cases e <;> simp [hc]

end Verif.TSeries
