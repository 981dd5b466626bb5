import Verif.TGrid.DepthModel
import Mathlib.Algebra.Order.Field.Basic
import Mathlib.Data.List.GetD
import Mathlib.Tactic.FieldSimp
import Mathlib.Tactic.Linarith
import Mathlib.Tactic.NormNum
import Mathlib.Tactic.Ring
/-!
# Currents below the surface: C285, C286, C287, C288
-/
namespace Verif.TGrid.Depth

/-! ## What is expected -/

/-- depths `z` of `n` levels listed from the top -/
def Down (z : Nat → ℚ) (n : Nat) : Prop := ∀ j : Nat, j + 1 < n → z j < z (j + 1)

/-- `w` is the value at depth `d` of the profile with the values `v` at the depths `z`: constant above the first level and below the last, linear between
neighbours -/
structure Profile (z v : Nat → ℚ) (n : Nat) (d w : ℚ) : Prop where
  top : d ≤ z 0 → w = v 0
  bottom : z (n - 1) ≤ d → w = v (n - 1)
  middle : ∀ j : Nat, j + 1 < n → z j ≤ d → d ≤ z (j + 1) → w * (z (j + 1) - z j) = v j * (z (j + 1) - d) + v (j + 1) * (d - z j)

/-- the value weighted in time of one place of the table -/
def Values.held (s : Values) (i : Nat) : ℚ := timed s.time (s.start.getD i 0) (s.finish.getD i 0)

/-- the table has a value for every cell at every level -/
def Values.full (s : Values) (m : Nat) : Prop := s.start.length = m ∧ s.finish.length = m

/-! ## Lemmas -/

theorem down_lt {z : Nat → ℚ} {n : Nat} (h : Down z n) : ∀ k : Nat, ∀ j : Nat, j < k → k < n → z j < z k := by
  intro k
  induction k with
  | zero => intro j hj _; omega
  | succ k ih =>
    intro j hj hk
    rcases Nat.lt_succ_iff_lt_or_eq.1 hj with h1 | h1
    · exact lt_trans (ih j h1 (by omega)) (h k hk)
    · subst h1; exact h j hk

theorem down_le {z : Nat → ℚ} {n : Nat} (h : Down z n) {j k : Nat} (hjk : j ≤ k) (hk : k < n) : z j ≤ z k := by
  rcases Nat.eq_or_lt_of_le hjk with h1 | h1
  · subst h1; exact le_refl _
  · exact le_of_lt (down_lt h k j h1 hk)

/-- a pick of a loop lies where it says -/
def Sound (L : Nat → ℚ) (n : Nat) (d : ℚ) : Pick → Prop
  | .level j => j < n ∧ L j = d
  | .between j k => k = j + 1 ∧ k < n ∧ L j < d ∧ d ≤ L k
  | .outside => False
  | .unset => False

theorem scanOver_sound (L : Nat → ℚ) (n : Nat) (d : ℚ) : ∀ m : Nat, m + 1 ≤ n →
    Sound L n d ((List.range m).foldl (stepOver L d) .unset) ∨
    ((List.range m).foldl (stepOver L d) .unset = .unset ∧ (L 0 < d → L m < d)) := by
  intro m
  induction m with
  | zero => intro _; exact Or.inr ⟨rfl, id⟩
  | succ m ih =>
    intro hm
    rw [List.range_succ, List.foldl_append]
    simp only [List.foldl_cons, List.foldl_nil]
    rw [stepOver]
    split
    · rename_i h1; exact Or.inl ⟨rfl, by omega, h1.1, h1.2⟩
    · rename_i h1
      split
      · rename_i h2; exact Or.inl ⟨by omega, h2⟩
      · rcases ih (by omega) with h3 | ⟨h3, h4⟩
        · exact Or.inl h3
        · refine Or.inr ⟨h3, fun h0 => ?_⟩
          by_contra h5
          exact h1 ⟨h4 h0, not_lt.1 h5⟩

theorem scanFirst_sound (L : Nat → ℚ) (n : Nat) (d : ℚ) : ∀ m a : Nat, a + m + 1 ≤ n →
    Sound L n d (scanFirst L d (List.range' a m)) ∨ (scanFirst L d (List.range' a m) = .unset ∧ (L a < d → L (a + m) < d)) := by
  intro m
  induction m with
  | zero => intro a _; exact Or.inr ⟨rfl, id⟩
  | succ m ih =>
    intro a hm
    rw [List.range'_succ, scanFirst]
    split
    · rename_i h1; exact Or.inl ⟨rfl, by omega, h1.1, h1.2⟩
    · rename_i h1
      split
      · rename_i h2; exact Or.inl ⟨by omega, h2⟩
      · rcases ih (a + 1) (by omega) with h3 | ⟨h3, h4⟩
        · exact Or.inl h3
        · refine Or.inr ⟨h3, fun h0 => ?_⟩
          have : L (a + 1) < d := by
            by_contra h5
            exact h1 ⟨h0, not_lt.1 h5⟩
          have := h4 this
          rwa [show a + (m + 1) = a + 1 + m by omega]

/-- the profile follows from a pick that lies where it says -/
theorem sound_profile {L v : Nat → ℚ} {n : Nat} {d : ℚ} (hL : Down L n) {p : Pick} (hp : Sound L n d p) :
    ∃ w, p.value L (fun j => some (v j)) d = some w ∧ Profile L v n d w := by
  cases p with
  | level j =>
    obtain ⟨hj, he⟩ := hp
    refine ⟨v j, rfl, ?_, ?_, ?_⟩
    · intro h
      rcases Nat.eq_zero_or_pos j with h0 | h0
      · rw [h0]
      · have := down_lt hL j 0 h0 hj
        linarith
    · intro h
      rcases Nat.lt_or_ge j (n - 1) with h0 | h0
      · have := down_lt hL (n - 1) j h0 (by omega)
        linarith
      · rw [show j = n - 1 by omega]
    · intro i hi h1 h2
      rcases Nat.lt_trichotomy j i with h0 | h0 | h0
      · have := down_lt hL i j h0 (by omega)
        linarith
      · subst h0; rw [he]; ring
      · rcases Nat.eq_or_lt_of_le (Nat.succ_le_of_lt h0) with h3 | h3
        · have h4 : i + 1 = j := h3
          rw [h4, he]; ring
        · have := down_lt hL j (i + 1) h3 hj
          linarith
  | between j k =>
    obtain ⟨hk, hn, h1, h2⟩ := hp
    subst hk
    have hlt := hL j hn
    have hne : L (j + 1) - L j ≠ 0 := by linarith
    refine ⟨(L (j + 1) - d) / (L (j + 1) - L j) * v j + (1 - (L (j + 1) - d) / (L (j + 1) - L j)) * v (j + 1), ?_, ?_⟩
    · simp only [Pick.value, Option.bind_some, weigh, if_neg (ne_of_gt hlt)]
    · have key : ((L (j + 1) - d) / (L (j + 1) - L j) * v j + (1 - (L (j + 1) - d) / (L (j + 1) - L j)) * v (j + 1)) * (L (j + 1) - L j) =
          v j * (L (j + 1) - d) + v (j + 1) * (d - L j) := by
        field_simp
        ring
      have atEnd : d = L (j + 1) →
          (L (j + 1) - d) / (L (j + 1) - L j) * v j + (1 - (L (j + 1) - d) / (L (j + 1) - L j)) * v (j + 1) = v (j + 1) := by
        intro h
        rw [h, sub_self, zero_div]; ring
      refine ⟨?_, ?_, ?_⟩
      · intro h
        have := down_le hL (Nat.zero_le j) (by omega)
        linarith
      · intro h
        have h3 := down_le hL (show j + 1 ≤ n - 1 by omega) (by omega)
        have h4 : d = L (j + 1) := le_antisymm h2 (by linarith)
        have h5 : j + 1 = n - 1 := by
          by_contra h6
          have := down_lt hL (n - 1) (j + 1) (by omega) (by omega)
          linarith
        rw [atEnd h4, h5]
      · intro i hi h3 h4
        rcases Nat.lt_trichotomy j i with h0 | h0 | h0
        · have h5 := down_le hL (show j + 1 ≤ i by omega) (by omega)
          have h6 : d = L (j + 1) := le_antisymm h2 (by linarith)
          have h7 : i = j + 1 := by
            by_contra h8
            have := down_lt hL i (j + 1) (by omega) (by omega)
            linarith
          subst h7
          rw [atEnd h6, ← h6]; ring
        · subst h0; exact key
        · have := down_le hL (show i + 1 ≤ j by omega) (by omega)
          linarith
  | outside => exact absurd hp id
  | unset => exact absurd hp id

theorem level_top {L v : Nat → ℚ} {n : Nat} {d : ℚ} (hn : 1 ≤ n) (hL : Down L n) (h : d ≤ L 0) : Profile L v n d (v 0) := by
  refine ⟨fun _ => rfl, ?_, ?_⟩
  · intro h1
    rcases Nat.eq_or_lt_of_le hn with h2 | h2
    · rw [← h2]
    · have := down_lt hL (n - 1) 0 (by omega) (by omega)
      linarith
  · intro j hj h1 h2
    rcases Nat.eq_zero_or_pos j with h0 | h0
    · subst h0
      have : d = L 0 := le_antisymm h h1
      rw [this]; ring
    · have := down_lt hL j 0 h0 (by omega)
      linarith

theorem level_bottom {L v : Nat → ℚ} {n : Nat} {d : ℚ} (hn : 1 ≤ n) (hL : Down L n) (h : L (n - 1) < d) : Profile L v n d (v (n - 1)) := by
  refine ⟨?_, fun _ => rfl, ?_⟩
  · intro h1
    have := down_le hL (Nat.zero_le (n - 1)) (by omega)
    linarith
  · intro j hj h1 h2
    have := down_le hL (show j + 1 ≤ n - 1 by omega) (by omega)
    linarith

/-- the tests after a loop, with the pick of the loop -/
theorem ends_profile {L v : Nat → ℚ} {n : Nat} {d : ℚ} (hn : 1 ≤ n) (hL : Down L n) {r : Pick}
    (hr : Sound L n d r ∨ (r = .unset ∧ (L 0 < d → L (n - 1) < d))) :
    ∃ w, (ends L n d r).value L (fun j => some (v j)) d = some w ∧ Profile L v n d w := by
  rw [ends]
  split
  · rename_i h
    exact ⟨v 0, rfl, level_top hn hL (le_of_eq h.symm)⟩
  · rename_i h0
    split
    · rename_i h
      exact ⟨v (n - 1), rfl, level_bottom hn hL h⟩
    · rename_i h1
      split
      · rename_i h
        exact ⟨v 0, rfl, level_top hn hL (le_of_lt h)⟩
      · rename_i h2
        rcases hr with h | ⟨_, h⟩
        · exact sound_profile hL h
        · exact absurd (h (lt_of_le_of_ne (not_lt.1 h2) h0)) h1

theorem orElse_profile {L v : Nat → ℚ} {n : Nat} {d : ℚ} (hn : 1 ≤ n) (hL : Down L n) {r : Pick}
    (hr : Sound L n d r ∨ (r = .unset ∧ (L 0 < d → L (n - 1) < d))) :
    ∃ w, (r.orElse (ends L n d .unset)).value L (fun j => some (v j)) d = some w ∧ Profile L v n d w := by
  rcases hr with h | ⟨h, h'⟩
  · have hne : r ≠ .unset := by
      intro h1; rw [h1] at h; exact h
    rw [Pick.orElse, if_neg hne]
    exact sound_profile hL h
  · rw [Pick.orElse, if_pos h]
    exact ends_profile hn hL (Or.inr ⟨rfl, h'⟩)

theorem read_held {s : Values} {m : Nat} (hs : s.full m) {i : Nat} (hi : i < m) : s.read (i : Int) = some (s.held i) := by
  obtain ⟨h1, h2⟩ := hs
  have e1 : s.start[i]? = some (s.start.getD i 0) := by
    rw [List.getD_eq_getElem?_getD, List.getElem?_eq_getElem (by omega)]; rfl
  have e2 : s.finish[i]? = some (s.finish.getD i 0) := by
    rw [List.getD_eq_getElem?_getD, List.getElem?_eq_getElem (by omega)]; rfl
  rw [Values.read, if_neg (by omega), Int.toNat_natCast, e1, e2]
  rfl

/-- the levels of a pick are among the `n` levels -/
def Pick.inside (n : Nat) : Pick → Prop
  | .level j => j < n
  | .between j k => j < n ∧ k < n
  | .outside => True
  | .unset => True

theorem index_lt {n cells i j : Nat} (hi : i < cells) (hj : j < n) : i + j * cells < n * cells := by
  have h1 : (j + 1) * cells ≤ n * cells := Nat.mul_le_mul_right _ hj
  have h3 : (j + 1) * cells = j * cells + cells := by rw [Nat.add_mul, Nat.one_mul]
  omega

theorem read_level {s : Values} {n cells i : Nat} (hs : s.full (n * cells)) (hi : i < cells) {j : Nat} (hj : j < n) :
    s.read ((i : Int) + j * cells) = some (s.held (i + j * cells)) := by
  rw [← read_held hs (index_lt hi hj)]
  push_cast
  rfl

/-- the values read from a full table at the levels of the pick are those held -/
theorem value_read {s : Values} {n cells i : Nat} (hs : s.full (n * cells)) (hi : i < cells) {w : Nat → ℚ} {d : ℚ} {p : Pick} (hp : p.inside n) :
    p.value w (fun j => s.read ((i : Int) + j * cells)) d = p.value w (fun j => some (s.held (i + j * cells))) d := by
  cases p with
  | level j => exact read_level hs hi hp
  | between j k =>
    simp only [Pick.value]
    rw [read_level hs hi hp.1, read_level hs hi hp.2]
  | outside => rfl
  | unset => rfl

theorem sound_inside {L : Nat → ℚ} {n : Nat} {d : ℚ} {r : Pick} (hr : Sound L n d r) : r.inside n := by
  cases r with
  | level j => exact hr.1
  | between j k => exact ⟨by have := hr.1; have := hr.2.1; omega, hr.2.1⟩
  | outside => trivial
  | unset => trivial

theorem ends_inside {L : Nat → ℚ} {n : Nat} {d : ℚ} (hn : 1 ≤ n) {r : Pick} (hr : r.inside n) : (ends L n d r).inside n := by
  rw [ends]
  split
  · exact hn
  · split
    · show n - 1 < n; omega
    · split
      · exact hn
      · exact hr

theorem orElse_inside {n : Nat} {p q : Pick} (hp : p.inside n) (hq : q.inside n) : (p.orElse q).inside n := by
  rw [Pick.orElse]; split <;> assumption

theorem loop_inside {L : Nat → ℚ} {n : Nat} {d : ℚ} {r : Pick} {P : Prop} (hr : Sound L n d r ∨ (r = .unset ∧ P)) : r.inside n := by
  rcases hr with h | ⟨h, _⟩
  · exact sound_inside h
  · rw [h]; trivial

theorem over_loop (L : Nat → ℚ) {n : Nat} (hn : 1 ≤ n) (d : ℚ) :
    Sound L n d (scanOver L n d) ∨ (scanOver L n d = .unset ∧ (L 0 < d → L (n - 1) < d)) :=
  scanOver_sound L n d (n - 1) (by omega)

theorem first_loop (L : Nat → ℚ) {n : Nat} (hn : 1 ≤ n) (d : ℚ) :
    Sound L n d (scanFirst L d (List.range (n - 1))) ∨ (scanFirst L d (List.range (n - 1)) = .unset ∧ (L 0 < d → L (n - 1) < d)) := by
  have := scanFirst_sound L n d (n - 1) 0 (by omega)
  rw [← List.range_eq_range', Nat.zero_add] at this
  exact this

/-! ### Levels from the bottom -/

/-- the same levels counted from the other end -/
def Pick.flip (n : Nat) : Pick → Pick
  | .level j => .level (n - 1 - j)
  | .between j k => .between (n - 1 - j) (n - 1 - k)
  | .outside => .outside
  | .unset => .unset

theorem scanDown_flip (L : Nat → ℚ) (n : Nat) (d : ℚ) : ∀ m : Nat, m + 1 ≤ n →
    (scanDown L d m).flip n = scanFirst (fun i => L (n - 1 - i)) d (List.range' (n - 1 - m) m) := by
  intro m
  induction m with
  | zero => intro _; rfl
  | succ m ih =>
    intro hm
    rw [List.range'_succ, scanFirst, scanDown]
    rw [show n - 1 - (n - 1 - (m + 1)) = m + 1 by omega, show n - 1 - (n - 1 - (m + 1) + 1) = m by omega,
      show n - 1 - (m + 1) + 1 = n - 1 - m by omega]
    split
    · rfl
    · split
      · rfl
      · exact ih (by omega)

theorem endsDown_flip (L : Nat → ℚ) {n : Nat} (_hn : 1 ≤ n) (d : ℚ) (r : Pick) :
    (endsDown L n d r).flip n = ends (fun i => L (n - 1 - i)) n d (r.flip n) := by
  rw [endsDown, ends]
  simp only [Nat.sub_zero, Nat.sub_self]
  split
  · simp [Pick.flip]
  · split
    · simp [Pick.flip]
    · split
      · simp [Pick.flip]
      · rfl

theorem orElse_flip (n : Nat) (p q : Pick) : (p.orElse q).flip n = (p.flip n).orElse (q.flip n) := by
  cases p <;> simp [Pick.orElse, Pick.flip]

theorem flip_value {n : Nat} {w : Nat → ℚ} {v : Nat → Option ℚ} {d : ℚ} {p : Pick} (hp : (p.flip n).inside n) (hq : p.inside n) :
    (p.flip n).value (fun i => w (n - 1 - i)) (fun i => v (n - 1 - i)) d = p.value w v d := by
  cases p with
  | level j =>
    have : j < n := hq
    simp only [Pick.flip, Pick.value]
    rw [show n - 1 - (n - 1 - j) = j by omega]
  | between j k =>
    have h1 : j < n := hq.1
    have h2 : k < n := hq.2
    simp only [Pick.flip, Pick.value]
    rw [show n - 1 - (n - 1 - j) = j by omega, show n - 1 - (n - 1 - k) = k by omega]
  | outside => rfl
  | unset => rfl

theorem scanDown_inside (L : Nat → ℚ) (n : Nat) (d : ℚ) : ∀ m : Nat, m < n → (scanDown L d m).inside n := by
  intro m
  induction m with
  | zero => intro _; trivial
  | succ m ih =>
    intro hm
    rw [scanDown]
    split
    · exact ⟨hm, by omega⟩
    · split
      · exact hm
      · exact ih (by omega)

theorem endsDown_inside {L : Nat → ℚ} {n : Nat} {d : ℚ} (hn : 1 ≤ n) : (endsDown L n d .unset).inside n := by
  rw [endsDown]
  split
  · show n - 1 < n; omega
  · split
    · exact hn
    · split
      · show n - 1 < n; omega
      · trivial

theorem down_profile {L v : Nat → ℚ} {n : Nat} (hn : 1 ≤ n) (d : ℚ) (hL : Down (fun i => L (n - 1 - i)) n) :
    ∃ w, ((scanDown L d (n - 1)).orElse (endsDown L n d .unset)).value L (fun j => some (v j)) d = some w ∧
      Profile (fun i => L (n - 1 - i)) (fun i => v (n - 1 - i)) n d w := by
  have h1 := scanDown_flip L n d (n - 1) (by omega)
  rw [Nat.sub_self, ← List.range_eq_range'] at h1
  have h2 := first_loop (fun i => L (n - 1 - i)) hn d
  obtain ⟨w, hw, hp⟩ := orElse_profile (v := fun i => v (n - 1 - i)) hn hL h2
  refine ⟨w, ?_, hp⟩
  rw [← hw]
  have hq : ((scanDown L d (n - 1)).orElse (endsDown L n d .unset)).inside n :=
    orElse_inside (scanDown_inside L n d (n - 1) (by omega)) (endsDown_inside hn)
  have he : ((scanDown L d (n - 1)).orElse (endsDown L n d .unset)).flip n =
      (scanFirst (fun i => L (n - 1 - i)) d (List.range (n - 1))).orElse (ends (fun i => L (n - 1 - i)) n d .unset) := by
    rw [orElse_flip, h1, endsDown_flip L hn]; rfl
  have hf : (((scanDown L d (n - 1)).orElse (endsDown L n d .unset)).flip n).inside n := by
    rw [he]
    exact orElse_inside (loop_inside h2) (ends_inside hn trivial)
  rw [← flip_value (w := L) (v := fun j => some (v j)) hf hq, he]

/-- the depths of the levels of a ROMS grid go down from the last level to the first when both curves rise from the bottom to the surface and are not positive -/
theorem roms_down {sc cs : Nat → ℚ} {n : Nat} {hc D : ℚ} (hhc : 0 ≤ hc) (hD : 0 < D)
    (h1 : ∀ j : Nat, j + 1 < n → sc j ≤ sc (j + 1)) (h2 : ∀ j : Nat, j + 1 < n → cs j < cs (j + 1))
    (h3 : ∀ j : Nat, j < n → sc j ≤ 0) (h4 : ∀ j : Nat, j < n → cs j ≤ 0) :
    Down (fun i => romsDepth hc (sc (n - 1 - i)) (cs (n - 1 - i)) D) n := by
  intro j hj
  have a1 := h1 (n - 1 - (j + 1)) (by omega)
  have a2 := h2 (n - 1 - (j + 1)) (by omega)
  rw [show n - 1 - (j + 1) + 1 = n - 1 - j by omega] at a1 a2
  have b1 := h3 (n - 1 - j) (by omega)
  have b2 := h4 (n - 1 - j) (by omega)
  have c1 := h3 (n - 1 - (j + 1)) (by omega)
  have c2 := h4 (n - 1 - (j + 1)) (by omega)
  simp only [romsDepth]
  generalize sc (n - 1 - j) = s0 at *
  generalize sc (n - 1 - (j + 1)) = s1 at *
  generalize cs (n - 1 - j) = q0 at *
  generalize cs (n - 1 - (j + 1)) = q1 at *
  have e0 : hc * s0 + D * q0 ≤ 0 := add_nonpos (mul_nonpos_of_nonneg_of_nonpos hhc b1) (mul_nonpos_of_nonneg_of_nonpos hD.le b2)
  have e1 : hc * s1 + D * q1 ≤ 0 := add_nonpos (mul_nonpos_of_nonneg_of_nonpos hhc c1) (mul_nonpos_of_nonneg_of_nonpos hD.le c2)
  rw [abs_of_nonpos (mul_nonpos_of_nonneg_of_nonpos hD.le e0), abs_of_nonpos (mul_nonpos_of_nonneg_of_nonpos hD.le e1)]
  apply div_lt_div_of_pos_right _ (by linarith)
  have : hc * s1 + D * q1 < hc * s0 + D * q0 := by
    have := mul_le_mul_of_nonneg_left a1 hhc
    have := mul_lt_mul_of_pos_left a2 hD
    linarith
  have := mul_lt_mul_of_pos_left this hD
  linarith

/-! ## C285: regular grids -/

/-- C285 as a user would put it: on a regular grid with levels listed from the top, the current at any depth is that of the profile through the levels of the
file at the cell -/
def C285_claim : Prop := ∀ (levels : List ℚ) (cells : Nat) (s : Values) (i : Nat) (d : ℚ), 2 ≤ levels.length →
  Down (levels.getD · 0) levels.length → s.full (levels.length * cells) → i < cells →
  ∃ w, rectAt levels cells s i d = some w ∧ Profile (levels.getD · 0) (fun j => s.held (i + j * cells)) levels.length d w

/-- below the deepest level the index of the value lies before the start of the table -/
theorem C285_counterexample_every (levels : List ℚ) (cells : Nat) (s : Values) (i : Nat) (d : ℚ) (hl : 2 ≤ levels.length)
    (h : levels.getD (levels.length - 1) 0 < d) (hi : i < cells) : rectAt levels cells s i d = none := by
  have hne : levels ≠ [] := by intro h1; rw [h1] at hl; simp at hl
  have hp : rectPick levels d = .outside := by
    rw [rectPick, if_neg hne, if_neg (not_le.2 h)]
  rw [rectAt, if_neg (fun h1 => hne h1.2), hp]
  simp only
  rw [Values.read, if_pos (by omega)]

theorem C285_counterexample : ¬ C285_claim := by
  intro h
  have hd : Down (([0, 10] : List ℚ).getD · 0) ([0, 10] : List ℚ).length := by
    intro j hj
    have : j = 0 := by simp at hj; omega
    subst this; norm_num
  obtain ⟨w, hw, _⟩ := h [0, 10] 1 ⟨[1, 2], [1, 2], none⟩ 0 11 (by simp) hd ⟨rfl, rfl⟩ (by decide)
  rw [C285_counterexample_every _ _ _ _ _ (by simp) (by norm_num) (by decide)] at hw
  cases hw

/-- C285. Between the two times of the file that are in use a value is the one on the line between the values at these times, where the weight is that of the
code, the time left until the second one over the whole (`TGrid.Model`); a constant current is the first one. -/
theorem C285_time (s : Values) (i : Nat) (x y t0 t1 t : ℚ) (h : t0 < t1) (hx : s.start[i]? = some x) (hy : s.finish[i]? = some y) :
    (s.time = some ((t1 - t) / (t1 - t0)) → s.read i = some (x + (y - x) * ((t - t0) / (t1 - t0)))) ∧
    (s.time = none → s.read i = some x) := by
  have hne : t1 - t0 ≠ 0 := by linarith
  unfold Values.read
  rw [if_neg (by omega), Int.toNat_natCast, hx, hy]
  refine ⟨fun ht => ?_, fun ht => ?_⟩
  · rw [ht]
    simp only [timed, Option.some.injEq]
    field_simp
    ring
  · rw [ht]; rfl

/-- C285 down to the deepest level. What is missing is the water below it: `C285_counterexample`. -/
theorem C285_partial (levels : List ℚ) (cells : Nat) (s : Values) (i : Nat) (d : ℚ) (hl : 2 ≤ levels.length)
    (hd : Down (levels.getD · 0) levels.length) (hs : s.full (levels.length * cells)) (hi : i < cells)
    (hb : d ≤ levels.getD (levels.length - 1) 0) :
    ∃ w, rectAt levels cells s i d = some w ∧ Profile (levels.getD · 0) (fun j => s.held (i + j * cells)) levels.length d w := by
  have hne : levels ≠ [] := by intro h1; rw [h1] at hl; simp at hl
  have hloop := over_loop (levels.getD · 0) (show 1 ≤ levels.length by omega) d
  obtain ⟨w, hw, hp⟩ := ends_profile (v := fun j => s.held (i + j * cells)) (by omega) hd hloop
  refine ⟨w, ?_, hp⟩
  have hpick : rectPick levels d = ends (levels.getD · 0) levels.length d (scanOver (levels.getD · 0) levels.length d) := by
    rw [rectPick, if_neg hne, if_pos hb]
  have hin := ends_inside (L := (levels.getD · 0)) (d := d) (show 1 ≤ levels.length by omega) (loop_inside hloop)
  rw [rectAt, if_neg (fun h1 => hne h1.2), hpick]
  rw [← value_read hs hi hin] at hw
  split
  · rename_i h1
    rw [h1] at hw
    have := ends_profile (v := fun j => s.held (i + j * cells)) (by omega) hd hloop
    rcases hloop with h2 | ⟨h2, _⟩
    · rw [ends] at h1
      split at h1
      · cases h1
      · split at h1
        · cases h1
        · split at h1
          · cases h1
          · rw [h1] at h2; exact absurd h2 id
    · rw [ends, h2] at h1
      split at h1
      · cases h1
      · split at h1
        · cases h1
        · split at h1 <;> cases h1
  · exact hw

/-- a file without levels: its current at the surface, nothing below -/
theorem C285_single (cells : Nat) (s : Values) (i : Nat) (d : ℚ) (hs : s.full cells) (hi : i < cells) :
    rectAt [] cells s i d = some (if 0 < d then 0 else s.held i) := by
  rw [rectAt]
  by_cases h : 0 < d
  · rw [if_pos ⟨h, rfl⟩, if_pos h]
  · rw [if_neg (fun h1 => h h1.1), if_neg h]
    simp only [rectPick, if_true, Pick.value]
    rw [show (i : Int) + ((0 : Nat) : Int) * cells = (i : Int) by simp]
    exact read_held hs hi

example : rectAt [0, 10, 30] 2 ⟨[1, 2, 3, 4, 7, 8], [1, 2, 3, 4, 7, 8], none⟩ 1 15 = some 5 := by decide +kernel
example : Profile (([0, 10, 30] : List ℚ).getD · 0) (fun j => ([2, 4, 8] : List ℚ).getD j 0) 3 15 5 := by
  refine ⟨by norm_num, by norm_num, ?_⟩
  intro j hj
  have : j = 0 ∨ j = 1 := by omega
  rcases this with rfl | rfl <;> norm_num

/-! ## C286: curvilinear grids with the currents in the cells -/

/-- the depth of a level: metres, a part of the depth of the sea, or the formula of ROMS -/
def Levels.trueDepth (l : Levels) (D : ℚ) (j : Nat) : ℚ := match l.kind with
  | .multilayer => l.first.getD j 0
  | .sigma => l.first.getD j 0 * D
  | .roms => romsDepth l.hc (l.first.getD j 0) (l.second.getD j 0) D

/-- C286 as a user would put it: on a curvilinear grid with the currents in the cells, where the sea is `D` deep, the current at a depth down to the bottom is that
of the profile through the levels of the file, whether they are listed from the top or from the bottom -/
def C286_claim : Prop := ∀ (l : Levels) (D : ℚ) (cells : Nat) (s : Values) (i : Nat) (d : ℚ), 2 ≤ l.first.length → 0 < D →
  s.full (l.first.length * cells) → i < cells → 0 ≤ d → d ≤ D →
  (Down (l.trueDepth D) l.first.length →
    ∃ w, curvAt l D cells s i d = some w ∧ Profile (l.trueDepth D) (fun j => s.held (i + j * cells)) l.first.length d w) ∧
  (Down (fun j => l.trueDepth D (l.first.length - 1 - j)) l.first.length →
    ∃ w, curvAt l D cells s i d = some w ∧
      Profile (fun j => l.trueDepth D (l.first.length - 1 - j)) (fun j => s.held (i + (l.first.length - 1 - j) * cells)) l.first.length d w)

/-- levels at the surface and at 10 m in a sea of 100 m: halfway between them the value is nearly that of the surface -/
theorem C286_counterexample_metres : curvAt ⟨.multilayer, [0, 10], [], 0⟩ 100 1 ⟨[0, 1], [0, 1], none⟩ 0 5 = some (1 / 200) := by decide +kernel

/-- parts of the depth listed from the bottom: the current at the surface is that of the bottom, whatever the values -/
theorem C286_counterexample_order (l : Levels) (D : ℚ) (cells : Nat) (s : Values) (i : Nat) (hk : l.kind = .sigma) (hl : 2 ≤ l.first.length) (hD : 0 < D)
    (hs : s.full (l.first.length * cells)) (hi : i < cells) (hz : l.first.getD (l.first.length - 1) 0 = 0)
    (hr : ∀ j : Nat, j + 1 < l.first.length → 0 < l.first.getD j 0) : curvAt l D cells s i 0 = some (s.held i) := by
  have hne : l.first ≠ [] := by intro h1; rw [h1] at hl; simp at hl
  have h0 := hr 0 (by omega)
  have hscan : ∀ m a : Nat, a + m + 1 ≤ l.first.length → scanFirst (fun j => l.first.getD j 0 * D) 0 (List.range' a m) = .unset := by
    intro m
    induction m with
    | zero => intro a _; rfl
    | succ m ih =>
      intro a ha
      have h1 := mul_pos (hr a (by omega)) hD
      rw [List.range'_succ, scanFirst, if_neg (fun h => absurd h.1 (not_lt.2 h1.le)), if_neg (ne_of_gt h1)]
      exact ih (a + 1) (by omega)
  have hp : curvPick l D 0 = .level 0 := by
    have h1 := mul_pos h0 hD
    rw [curvPick, if_neg (ne_of_gt hD), if_neg hne, hk]
    simp only [lt_irrefl, if_false]
    rw [if_pos hD.le, List.range_eq_range', hscan _ 0 (by omega)]
    simp only [Pick.orElse, if_true]
    rw [ends, if_neg (ne_of_gt h1)]
    simp only [hz, zero_mul, lt_irrefl, if_false]
    rw [if_pos h1]
  rw [curvAt, hp]
  simp only [Pick.value]
  have := read_level hs hi (show 0 < l.first.length by omega)
  rw [this, Nat.zero_mul, Nat.add_zero]

theorem C286_counterexample : ¬ C286_claim := by
  intro h
  have hd : Down (Levels.trueDepth ⟨.multilayer, [0, 10], [], 0⟩ 100) 2 := by
    intro j hj
    have : j = 0 := by omega
    subst this; norm_num [Levels.trueDepth]
  obtain ⟨w, hw, hp⟩ := (h ⟨.multilayer, [0, 10], [], 0⟩ 100 1 ⟨[0, 1], [0, 1], none⟩ 0 5 (by simp) (by norm_num) ⟨rfl, rfl⟩ (by decide)
    (by norm_num) (by norm_num)).1 hd
  rw [C286_counterexample_metres] at hw
  have := hp.middle 0 (by decide) (by norm_num [Levels.trueDepth]) (by norm_num [Levels.trueDepth])
  cases hw
  norm_num [Levels.trueDepth, Values.held, timed] at this

/-- C286 for parts of the depth listed from the top. What is missing: parts listed from the bottom and levels in metres, see `C286_counterexample_order` and
`C286_counterexample_metres`. -/
theorem C286_partial (l : Levels) (D : ℚ) (cells : Nat) (s : Values) (i : Nat) (d : ℚ) (hk : l.kind = .sigma) (hl : 1 ≤ l.first.length) (hD : 0 < D)
    (hs : s.full (l.first.length * cells)) (hi : i < cells) (h0 : 0 ≤ d) (hd : d ≤ D) (hz : Down (l.trueDepth D) l.first.length) :
    ∃ w, curvAt l D cells s i d = some w ∧ Profile (l.trueDepth D) (fun j => s.held (i + j * cells)) l.first.length d w := by
  have hne : l.first ≠ [] := by intro h1; rw [h1] at hl; simp at hl
  have ht : l.trueDepth D = fun j => l.first.getD j 0 * D := by funext j; simp only [Levels.trueDepth, hk]
  have hw : l.depthAt D = fun j => l.first.getD j 0 * D := by funext j; simp only [Levels.depthAt, hk]
  rw [ht] at hz ⊢
  have hloop := first_loop (fun j => l.first.getD j 0 * D) hl d
  obtain ⟨w, hv, hp⟩ := orElse_profile (v := fun j => s.held (i + j * cells)) hl hz hloop
  refine ⟨w, ?_, hp⟩
  have hin : ((scanFirst (fun j => l.first.getD j 0 * D) d (List.range (l.first.length - 1))).orElse
      (ends (fun j => l.first.getD j 0 * D) l.first.length d .unset)).inside l.first.length :=
    orElse_inside (loop_inside hloop) (ends_inside hl trivial)
  rw [← value_read hs hi hin] at hv
  rw [curvAt, curvPick, if_neg (ne_of_gt hD), if_neg hne, hk]
  simp only
  rw [if_neg (not_lt.2 h0), if_pos hd, hw]
  exact hv

/-- C286 for ROMS grids, whose levels are listed from the bottom -/
theorem C286_roms_partial (l : Levels) (D : ℚ) (cells : Nat) (s : Values) (i : Nat) (d : ℚ) (hk : l.kind = .roms) (hl : 1 ≤ l.first.length) (hD : 0 < D)
    (hs : s.full (l.first.length * cells)) (hi : i < cells) (h0 : 0 ≤ d) (hd : d ≤ D)
    (hz : Down (fun j => l.trueDepth D (l.first.length - 1 - j)) l.first.length) :
    ∃ w, curvAt l D cells s i d = some w ∧
      Profile (fun j => l.trueDepth D (l.first.length - 1 - j)) (fun j => s.held (i + (l.first.length - 1 - j) * cells)) l.first.length d w := by
  have hne : l.first ≠ [] := by intro h1; rw [h1] at hl; simp at hl
  have hw : l.trueDepth D = l.depthAt D := by funext j; simp only [Levels.depthAt, Levels.trueDepth, hk]
  rw [hw] at hz ⊢
  obtain ⟨w, hv, hp⟩ := down_profile (v := fun j => s.held (i + j * cells)) hl d hz
  refine ⟨w, ?_, hp⟩
  have hin : ((scanDown (l.depthAt D) d (l.first.length - 1)).orElse (endsDown (l.depthAt D) l.first.length d .unset)).inside l.first.length :=
    orElse_inside (scanDown_inside _ _ _ _ (by omega)) (endsDown_inside hl)
  rw [← value_read hs hi hin] at hv
  rw [curvAt, curvPick, if_neg (ne_of_gt hD), if_neg hne, hk]
  simp only
  rw [if_neg (not_lt.2 h0), if_pos hd]
  exact hv

/-- below the bottom there is no current -/
theorem C286_below (l : Levels) (D : ℚ) (cells : Nat) (s : Values) (i : Nat) (d : ℚ) (hl : 1 ≤ l.first.length) (hD : 0 < D) (hd : D < d) :
    curvAt l D cells s i d = some 0 := by
  have hne : l.first ≠ [] := by intro h1; rw [h1] at hl; simp at hl
  have h0 : ¬ d < 0 := by linarith
  have h1 : ¬ d ≤ D := not_le.2 hd
  have hp : curvPick l D d = .outside := by
    rw [curvPick, if_neg (ne_of_gt hD), if_neg hne]
    cases l.kind <;> simp [h0, h1]
  rw [curvAt, hp]; rfl

/-- a file without levels, or a place where the sea has no depth: the current of the file at every depth -/
theorem C286_single (l : Levels) (D : ℚ) (cells n : Nat) (s : Values) (i : Nat) (d : ℚ) (hn : 1 ≤ n) (hs : s.full (n * cells)) (hi : i < cells)
    (h : l.first = [] ∨ D = 0) : curvAt l D cells s i d = some (s.held i) := by
  have hp : curvPick l D d = .level 0 := by
    rw [curvPick]
    split
    · rfl
    · rename_i h1
      rw [if_pos (h.resolve_right h1)]
  rw [curvAt, hp]
  simp only [Pick.value]
  have := read_level hs hi (show 0 < n by omega)
  rw [this, Nat.zero_mul, Nat.add_zero]

example : curvAt ⟨.sigma, [0, 1 / 2, 1], [], 0⟩ 40 1 ⟨[4, 2, 0], [4, 2, 0], none⟩ 0 10 = some 3 := by decide +kernel
example : curvAt ⟨.sigma, [1, 1 / 2, 0], [], 0⟩ 40 1 ⟨[0, 2, 4], [0, 2, 4], none⟩ 0 0 = some 0 := by decide +kernel
example : curvAt ⟨.roms, [-1, -1 / 2, 0], [-1, -1 / 2, 0], 10⟩ 40 1 ⟨[0, 2, 4], [0, 2, 4], none⟩ 0 10 = some 3 := by decide +kernel
/-- the hypothesis of `C286_roms_partial` on levels is met by the usual curves -/
example : Down (fun i => romsDepth 10 (([-1, -1 / 2, 0] : List ℚ).getD (3 - 1 - i) 0) (([-1, -1 / 4, 0] : List ℚ).getD (3 - 1 - i) 0) 40) 3 := by
  refine roms_down (sc := fun j => ([-1, -1 / 2, 0] : List ℚ).getD j 0) (cs := fun j => ([-1, -1 / 4, 0] : List ℚ).getD j 0)
    (by norm_num) (by norm_num) ?_ ?_ ?_ ?_ <;> intro j hj <;>
    (have : j = 0 ∨ j = 1 ∨ j = 2 := by omega) <;> rcases this with rfl | rfl | rfl <;> first | omega | norm_num

/-! ## C287: curvilinear grids with the currents on the points -/

/-- the sum of weighted values -/
def weighted (f : Nat → ℚ) (corners : List Corner) : ℚ := (corners.map fun c => c.1 * f c.2).sum

theorem total_some {f : Nat → Option ℚ} {g : Nat → ℚ} : ∀ corners : List Corner, (∀ c ∈ corners, f c.2 = some (g c.2)) →
    total f corners = some (weighted g corners) := by
  intro corners
  induction corners with
  | nil => intro _; rfl
  | cons c cs ih =>
    intro h
    rw [total, h c (by simp), ih (fun c' hc => h c' (by simp [hc]))]
    simp [weighted]

/-- C287 as a user would put it: on a curvilinear grid with the currents on the points, the current at a depth is made of those of the profiles at the four
corners -/
def C287_claim : Prop := ∀ (l : Levels) (bathymetry : List ℚ) (D : ℚ) (points : Nat) (s : Values) (corners : List Corner) (d : ℚ),
  l.kind = .sigma → 2 ≤ l.first.length → 0 < D → s.full (l.first.length * points) → (∀ c ∈ corners, c.2 < points) → 0 ≤ d → d ≤ D →
  Down (l.trueDepth D) l.first.length →
  ∃ g : Nat → ℚ, nodeAt l bathymetry D points s corners d = some (weighted g corners) ∧
    ∀ c ∈ corners, Profile (l.trueDepth D) (fun j => s.held (c.2 + j * points)) l.first.length d (g c.2)

/-- a sea of the same depth everywhere: between two levels the weights are divided by zero -/
theorem C287_counterexample_flat : nodeAt ⟨.sigma, [0, 1], [], 0⟩ [40, 40, 40, 40] 40 4 ⟨[4, 4, 4, 4, 0, 0, 0, 0], [4, 4, 4, 4, 0, 0, 0, 0], none⟩
    [(1 / 4, 0), (1 / 4, 1), (1 / 4, 2), (1 / 4, 3)] 10 = none := by decide +kernel

/-- the depths of the sea at the first two points of the grid stand for the depths of the first two levels: a current from 4 at the surface to 0 at the bottom is 12
a quarter of the way down -/
theorem C287_counterexample_bathymetry : nodeAt ⟨.sigma, [0, 1], [], 0⟩ [20, 25, 40, 40] 40 4
    ⟨[4, 4, 4, 4, 0, 0, 0, 0], [4, 4, 4, 4, 0, 0, 0, 0], none⟩ [(1 / 4, 0), (1 / 4, 1), (1 / 4, 2), (1 / 4, 3)] 10 = some 12 := by decide +kernel

theorem C287_counterexample : ¬ C287_claim := by
  intro h
  have hd : Down (Levels.trueDepth ⟨.sigma, [0, 1], [], 0⟩ 40) 2 := by
    intro j hj
    have : j = 0 := by omega
    subst this; norm_num [Levels.trueDepth]
  obtain ⟨g, hg, _⟩ := h ⟨.sigma, [0, 1], [], 0⟩ [40, 40, 40, 40] 40 4 ⟨[4, 4, 4, 4, 0, 0, 0, 0], [4, 4, 4, 4, 0, 0, 0, 0], none⟩
    [(1 / 4, 0), (1 / 4, 1), (1 / 4, 2), (1 / 4, 3)] 10 rfl (by simp) (by norm_num) ⟨rfl, rfl⟩ (by decide) (by norm_num) (by norm_num) hd
  rw [C287_counterexample_flat] at hg
  cases hg

/-- the pick above the first level and below the last -/
theorem scan_ends {L : Nat → ℚ} {n : Nat} {d : ℚ} (hn : 1 ≤ n) (hL : Down L n) :
    (d ≤ L 0 → (scanFirst L d (List.range (n - 1))).orElse (ends L n d .unset) = .level 0) ∧
    (L (n - 1) < d → (scanFirst L d (List.range (n - 1))).orElse (ends L n d .unset) = .level (n - 1)) := by
  constructor
  · intro h
    have gen : ∀ m a : Nat, a + m + 1 ≤ n → 1 ≤ a → scanFirst L d (List.range' a m) = .unset := by
      intro m
      induction m with
      | zero => intro a _ _; rfl
      | succ m ih =>
        intro a ha h1
        have h2 := down_lt hL a 0 h1 (by omega)
        rw [List.range'_succ, scanFirst, if_neg (fun h3 => by linarith [h3.1]), if_neg (by linarith)]
        exact ih (a + 1) (by omega) (by omega)
    have hend : ends L n d .unset = .level 0 := by
      rw [ends]
      split
      · rfl
      · rename_i h1
        have h2 := down_le hL (Nat.zero_le (n - 1)) (by omega)
        rw [if_neg (by linarith), if_pos (lt_of_le_of_ne h (fun h3 => h1 h3.symm))]
    rcases Nat.eq_zero_or_pos (n - 1) with h1 | h1
    · rw [h1]
      simp only [List.range_zero, scanFirst, Pick.orElse, if_true]
      exact hend
    · obtain ⟨m, hm⟩ : ∃ m, n - 1 = m + 1 := ⟨n - 1 - 1, by omega⟩
      rw [hm, List.range_eq_range', List.range'_succ, scanFirst, if_neg (fun h3 => by linarith [h3.1])]
      split
      · rfl
      · rw [gen m (0 + 1) (by omega) (by omega)]
        simp only [Pick.orElse, if_true]
        exact hend
  · intro h
    have gen : ∀ m a : Nat, a + m + 1 ≤ n → scanFirst L d (List.range' a m) = .unset := by
      intro m
      induction m with
      | zero => intro a _; rfl
      | succ m ih =>
        intro a ha
        have h2 := down_le hL (show a ≤ n - 1 by omega) (by omega)
        have h3 := down_le hL (show a + 1 ≤ n - 1 by omega) (by omega)
        rw [List.range'_succ, scanFirst, if_neg (fun h3 => by linarith [h3.2]), if_neg (by linarith)]
        exact ih (a + 1) (by omega)
    rw [List.range_eq_range', gen (n - 1) 0 (by omega)]
    simp only [Pick.orElse, if_true]
    have h2 := down_le hL (Nat.zero_le (n - 1)) (by omega)
    rw [ends, if_neg (by linarith), if_pos h]

/-- C286 for levels in metres listed from the top, above the first level and below the last -/
theorem C286_metres (l : Levels) (D : ℚ) (cells : Nat) (s : Values) (i : Nat) (d : ℚ) (hk : l.kind = .multilayer) (hl : 1 ≤ l.first.length) (hD : 0 < D)
    (hs : s.full (l.first.length * cells)) (hi : i < cells) (h0 : 0 ≤ d) (hd : d ≤ D) (hz : Down (l.trueDepth D) l.first.length) :
    (d ≤ l.trueDepth D 0 → curvAt l D cells s i d = some (s.held i)) ∧
    (l.trueDepth D (l.first.length - 1) < d → curvAt l D cells s i d = some (s.held (i + (l.first.length - 1) * cells))) := by
  have hne : l.first ≠ [] := by intro h1; rw [h1] at hl; simp at hl
  have ht : l.trueDepth D = fun j => l.first.getD j 0 := by funext j; simp only [Levels.trueDepth, hk]
  have hp : curvPick l D d = (scanFirst (l.trueDepth D) d (List.range (l.first.length - 1))).orElse (ends (l.trueDepth D) l.first.length d .unset) := by
    rw [curvPick, if_neg (ne_of_gt hD), if_neg hne, hk]
    simp only
    rw [if_neg (not_lt.2 h0), if_pos hd, ht]
  refine ⟨fun h => ?_, fun h => ?_⟩
  · rw [curvAt, hp, (scan_ends hl hz).1 h]
    simp only [Pick.value]
    rw [read_level hs hi (show 0 < l.first.length by omega), Nat.zero_mul, Nat.add_zero]
  · rw [curvAt, hp, (scan_ends hl hz).2 h]
    simp only [Pick.value]
    rw [read_level hs hi (show l.first.length - 1 < l.first.length by omega)]

/-- C287 above the first level, below the last and below the bottom, with parts of the depth or with metres listed from the top. What is missing is the water
between the levels: `C287_counterexample`. -/
theorem C287_partial (l : Levels) (bathymetry : List ℚ) (D : ℚ) (points : Nat) (s : Values) (corners : List Corner) (d : ℚ)
    (hk : l.kind ≠ .roms) (hl : 1 ≤ l.first.length) (hD : 0 < D) (hs : s.full (l.first.length * points)) (hc : ∀ c ∈ corners, c.2 < points) (h0 : 0 ≤ d)
    (hz : Down (l.trueDepth D) l.first.length) :
    (d ≤ D → d ≤ l.trueDepth D 0 → nodeAt l bathymetry D points s corners d = some (weighted s.held corners)) ∧
    (d ≤ D → l.trueDepth D (l.first.length - 1) < d →
      nodeAt l bathymetry D points s corners d = some (weighted (fun i => s.held (i + (l.first.length - 1) * points)) corners)) ∧
    (D < d → nodeAt l bathymetry D points s corners d = some 0) := by
  have hne : l.first ≠ [] := by intro h1; rw [h1] at hl; simp at hl
  have hpick : d ≤ D → curvPick l D d = (scanFirst (l.trueDepth D) d (List.range (l.first.length - 1))).orElse
      (ends (l.trueDepth D) l.first.length d .unset) := by
    intro hd
    rw [curvPick, if_neg (ne_of_gt hD), if_neg hne]
    cases hk' : l.kind with
    | multilayer =>
      have ht : l.trueDepth D = fun j => l.first.getD j 0 := by funext j; simp only [Levels.trueDepth, hk']
      simp only
      rw [if_neg (not_lt.2 h0), if_pos hd, ht]
    | sigma =>
      have ht : l.trueDepth D = fun j => l.first.getD j 0 * D := by funext j; simp only [Levels.trueDepth, hk']
      simp only
      rw [if_neg (not_lt.2 h0), if_pos hd, ht]
    | roms => exact absurd hk' hk
  refine ⟨fun hd h => ?_, fun hd h => ?_, fun hd => ?_⟩
  · rw [nodeAt, hpick hd, (scan_ends hl hz).1 h]
    apply total_some
    intro c hcc
    simp only [Pick.value]
    rw [read_level hs (hc c hcc) (show 0 < l.first.length by omega), Nat.zero_mul, Nat.add_zero]
  · rw [nodeAt, hpick hd, (scan_ends hl hz).2 h]
    apply total_some (g := fun i => s.held (i + (l.first.length - 1) * points))
    intro c hcc
    simp only [Pick.value]
    rw [read_level hs (hc c hcc) (show l.first.length - 1 < l.first.length by omega)]
  · have h1 : ¬ d ≤ D := not_le.2 hd
    have hp : curvPick l D d = .outside := by
      rw [curvPick, if_neg (ne_of_gt hD), if_neg hne]
      cases l.kind <;> simp [not_lt.2 h0, h1]
    have := total_some (f := fun i => (curvPick l D d).value (bathymetry.getD · 0) (fun j => s.read ((i : Int) + j * points)) d)
      (g := fun _ => 0) corners (fun c _ => by rw [hp]; rfl)
    rw [nodeAt, this]
    simp [weighted]

example : nodeAt ⟨.sigma, [0, 1], [], 0⟩ [40, 40, 40, 40] 40 4 ⟨[4, 8, 4, 4, 0, 0, 0, 0], [4, 8, 4, 4, 0, 0, 0, 0], none⟩
    [(1 / 4, 0), (1 / 4, 1), (1 / 4, 2), (1 / 4, 3)] 0 = some 5 := by decide +kernel

/-! ## C288: triangles -/

/-- the depth of level `j` of the file at a node where the sea is `D` deep: a height above the bottom, or a part of the depth above the bottom -/
def Tri.depthOf (g : Tri) (D : ℚ) (j : Nat) : ℚ := if g.heights then D - g.levels.getD j 0 else D * (1 - g.levels.getD j 0)

/-- C288 as a user would put it: on triangles with levels listed from the bottom, at a depth that all three corners reach, the current is made of those of the
profiles through the levels of the file at the corners -/
def C288_claim : Prop := ∀ (g : Tri) (file : Nat → Nat → ℚ) (corners : List Corner) (d : ℚ), 1 ≤ g.levels.length → 0 ≤ d →
  (∀ c ∈ corners, d ≤ g.sea.getD c.2 0) → (∀ c ∈ corners, Down (fun k => g.depthOf (g.sea.getD c.2 0) (g.levels.length - 1 - k)) g.levels.length) →
  ∃ w : Nat → ℚ, g.at file corners d = some (weighted w corners) ∧
    ∀ c ∈ corners, Profile (fun k => g.depthOf (g.sea.getD c.2 0) (g.levels.length - 1 - k)) (fun k => file (g.levels.length - 1 - k) c.2) g.levels.length d (w c.2)

/-- at the surface, whatever the file: the value for node `i` is that of node `i / n` at level `n - 1 - i % n` -/
theorem C288_counterexample_surface (g : Tri) (file : Nat → Nat → ℚ) (corners : List Corner) :
    g.at file corners 0 = some (weighted (fun i => file (g.levels.length - i % g.levels.length - 1) (i / g.levels.length)) corners) := by
  rw [Tri.at, if_neg (lt_irrefl 0)]
  exact total_some corners (fun c _ => rfl)

/-- parts of the depth: the values are stored in the other order than the depths. The current is 1 near the surface and 0 near the bottom in the file; a
quarter of the way down it is found to be 0. -/
theorem C288_counterexample_sigma : Tri.at ⟨false, [0, 1], [40, 40, 40]⟩ (fun j _ => j) [(1 / 2, 0), (1 / 4, 1), (1 / 4, 2)] 10 = some 0 ∧
    Tri.at ⟨false, [1, 0], [40, 40, 40]⟩ (fun j _ => 1 - j) [(1 / 2, 0), (1 / 4, 1), (1 / 4, 2)] 10 = some (1 / 4) := by decide +kernel

/-- heights above the bottom where the sea is shallower than the highest level: at every depth the value of that level, which is above the water, is used -/
theorem C288_counterexample_shallow (g : Tri) (file : Nat → Nat → ℚ) (i : Nat) (d : ℚ) (hh : g.heights = true) (hl : 1 ≤ g.levels.length) (h0 : 0 < d)
    (hd : d ≤ g.sea.getD i 0) (hs : g.sea.getD i 0 < g.levels.getD (g.levels.length - 1) 0)
    (hb : 0 ≤ g.sea.getD i 0 - g.levels.getD 0 0 → d ≤ g.sea.getD i 0 - g.levels.getD 0 0) :
    g.at file [(1, i)] d = some (file (g.levels.length - 1) i) := by
  have ht : g.table (g.sea.getD i 0) 0 = g.sea.getD i 0 + 1 := by
    rw [Tri.table, hh, if_pos rfl, Nat.sub_zero, if_neg (by linarith)]
  have hlast : ¬ g.table (g.sea.getD i 0) (g.levels.length - 1) < d := by
    rw [Tri.table, hh, if_pos rfl, show g.levels.length - (g.levels.length - 1) - 1 = 0 by omega]
    split
    · rename_i h; exact not_lt.2 (hb h)
    · linarith
  have hp : g.pick (g.sea.getD i 0) d = .level 0 := by
    rw [Tri.pick, if_pos hd, ends, ht, if_neg (by linarith), if_neg hlast, if_pos (by linarith)]
  rw [Tri.at, if_pos h0]
  simp only [total, hp, Pick.value, Option.bind_some, Tri.stored, Nat.add_zero]
  rw [Nat.mul_mod_left, Nat.mul_div_cancel _ (by omega), Nat.sub_zero]
  simp

theorem C288_counterexample : ¬ C288_claim := by
  intro h
  have hd : Down (fun k => Tri.depthOf ⟨true, [0, 10], [10, 10, 10]⟩ 10 (2 - 1 - k)) 2 := by
    intro j hj
    have : j = 0 := by omega
    subst this; norm_num [Tri.depthOf]
  obtain ⟨w, hw, hp⟩ := h ⟨true, [0, 10], [10, 10, 10]⟩ (fun j _ => j) [(1, 1)] 0 (by decide) (le_refl _)
    (by intro c hc; simp only [List.mem_singleton] at hc; subst hc; norm_num)
    (by intro c hc; simp only [List.mem_singleton] at hc; subst hc; exact hd)
  rw [C288_counterexample_surface] at hw
  have := (hp (1, 1) (by simp)).top (by norm_num [Tri.depthOf])
  norm_num [weighted] at hw this
  rw [this] at hw
  norm_num at hw

/-- C288 below the surface for heights above the bottom that do not reach above the surface at the corners. What is missing is in the counterexamples above. -/
theorem C288_partial (g : Tri) (file : Nat → Nat → ℚ) (corners : List Corner) (d : ℚ) (hh : g.heights = true) (hl : 1 ≤ g.levels.length) (h0 : 0 < d)
    (hd : ∀ c ∈ corners, d ≤ g.sea.getD c.2 0) (hz : ∀ j : Nat, j + 1 < g.levels.length → g.levels.getD j 0 < g.levels.getD (j + 1) 0)
    (hs : ∀ c ∈ corners, g.levels.getD (g.levels.length - 1) 0 ≤ g.sea.getD c.2 0) :
    ∃ w : Nat → ℚ, g.at file corners d = some (weighted w corners) ∧
      ∀ c ∈ corners, Profile (fun k => g.depthOf (g.sea.getD c.2 0) (g.levels.length - 1 - k)) (fun k => file (g.levels.length - 1 - k) c.2)
        g.levels.length d (w c.2) := by
  have hup : Down (g.levels.getD · 0) g.levels.length := hz
  have hdown : ∀ D : ℚ, Down (fun k => g.depthOf D (g.levels.length - 1 - k)) g.levels.length := by
    intro D j hj
    have := hz (g.levels.length - 1 - (j + 1)) (by omega)
    rw [show g.levels.length - 1 - (j + 1) + 1 = g.levels.length - 1 - j by omega] at this
    simp only [Tri.depthOf, hh, if_true]
    linarith
  have each : ∀ i : Nat, d ≤ g.sea.getD i 0 → g.levels.getD (g.levels.length - 1) 0 ≤ g.sea.getD i 0 →
      ∃ w, (g.pick (g.sea.getD i 0) d).value (g.table (g.sea.getD i 0)) (fun j => some (g.stored file (i * g.levels.length + j))) d = some w ∧
        Profile (fun k => g.depthOf (g.sea.getD i 0) (g.levels.length - 1 - k)) (fun k => file (g.levels.length - 1 - k) i) g.levels.length d w := by
    intro i hi hsi
    have htab : g.table (g.sea.getD i 0) = fun k => g.depthOf (g.sea.getD i 0) (g.levels.length - 1 - k) := by
      funext k
      have hle : g.levels.getD (g.levels.length - k - 1) 0 ≤ g.levels.getD (g.levels.length - 1) 0 :=
        down_le hup (by omega) (by omega)
      rw [Tri.table, hh, if_pos rfl, if_pos (by linarith)]
      simp only [Tri.depthOf, hh, if_true]
      rw [show g.levels.length - k - 1 = g.levels.length - 1 - k by omega]
    have hloop := over_loop (fun k => g.depthOf (g.sea.getD i 0) (g.levels.length - 1 - k)) hl d
    obtain ⟨w, hw, hp⟩ := ends_profile (v := fun k => file (g.levels.length - 1 - k) i) hl (hdown _) hloop
    refine ⟨w, ?_, hp⟩
    have hin := ends_inside (L := fun k => g.depthOf (g.sea.getD i 0) (g.levels.length - 1 - k)) (d := d) hl (loop_inside hloop)
    rw [Tri.pick, if_pos hi, htab]
    have hst : ∀ k : Nat, k < g.levels.length → g.stored file (i * g.levels.length + k) = file (g.levels.length - 1 - k) i := by
      intro k hk
      rw [Tri.stored, Nat.mul_comm, Nat.mul_add_mod, Nat.mod_eq_of_lt hk, Nat.mul_add_div (by omega), Nat.div_eq_of_lt hk, Nat.add_zero,
        show g.levels.length - k - 1 = g.levels.length - 1 - k by omega]
    rw [← hw]
    revert hin
    generalize ends (fun k => g.depthOf (g.sea.getD i 0) (g.levels.length - 1 - k)) g.levels.length d
      (scanOver (fun k => g.depthOf (g.sea.getD i 0) (g.levels.length - 1 - k)) g.levels.length d) = p
    intro hin
    cases p with
    | level j => simp only [Pick.value]; rw [hst j hin]
    | between j k => simp only [Pick.value]; rw [hst j hin.1, hst k hin.2]
    | outside => rfl
    | unset => rfl
  refine ⟨fun i => if h : d ≤ g.sea.getD i 0 ∧ g.levels.getD (g.levels.length - 1) 0 ≤ g.sea.getD i 0 then (each i h.1 h.2).choose else 0, ?_, ?_⟩
  · rw [Tri.at, if_pos h0]
    apply total_some
    intro c hc
    have h := And.intro (hd c hc) (hs c hc)
    rw [dif_pos h]
    exact (each c.2 h.1 h.2).choose_spec.1
  · intro c hc
    have h := And.intro (hd c hc) (hs c hc)
    beta_reduce
    rw [dif_pos h]
    exact (each c.2 h.1 h.2).choose_spec.2

/-- a corner that does not reach the depth adds nothing, so the weights of the others no longer add up to one -/
theorem C288_corner (g : Tri) (file : Nat → Nat → ℚ) (a : ℚ) (i : Nat) (corners : List Corner) (d : ℚ) (h0 : 0 < d) (h : g.sea.getD i 0 < d) :
    g.at file ((a, i) :: corners) d = g.at file corners d := by
  rw [Tri.at, Tri.at, if_pos h0, if_pos h0, total]
  have hp : g.pick (g.sea.getD i 0) d = .outside := by rw [Tri.pick, if_neg (not_le.2 h)]
  simp only [hp, Pick.value, Option.bind_some, mul_zero, zero_add]
  cases total _ corners <;> rfl

/-- one level: at the surface the values of the nodes themselves -/
theorem C288_single (g : Tri) (file : Nat → Nat → ℚ) (corners : List Corner) (h : g.levels.length = 1) :
    g.at file corners 0 = some (weighted (fun i => file 0 i) corners) := by
  rw [C288_counterexample_surface]
  simp [h, Nat.mod_one]

example : Tri.at ⟨true, [0, 20, 30], [30, 40, 50]⟩ (fun j i => j + 10 * i) [(1 / 2, 0), (1 / 4, 1), (1 / 4, 2)] 5 = some (37 / 4) := by decide +kernel

end Verif.TGrid.Depth
