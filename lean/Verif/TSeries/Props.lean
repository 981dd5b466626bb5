import Verif.TSeries.Lemmas

/-!
# C70, C71: the value of a time series, and which series are taken

C70: a wind or other time series with ascending times gives back its values at its times,
the straight line between neighbours (to within `1e-5`), and outside of its times it either
refuses or holds its end values, as it was told.

C71: a series is only taken when its times ascend. This fails for lists.
-/

namespace Verif.TSeries

/-- At the given times: the given values. -/
theorem C70_given_times (ts : List TV) (e : Bool) (hasc : Ascending ts) (i : Nat) (p : TV)
    (hp : ts[i]? = some p) : getTimeValue ts e p.time = .ok (p.u, p.v) := by
  have hi : i < ts.length := by
    by_contra h
    rw [List.getElem?_eq_none (by omega)] at hp; cases hp
  have hat := at'_eq hp
  have key : ∀ c : TV → ℚ, component ts c p.time = .ok (c p) := by
    intro c
    by_cases h1 : ts.length = 1
    · have : i = 0 := by omega
      subst this
      unfold component
      rw [if_pos h1, hat]
    · by_cases hlast : i + 1 < ts.length
      · have hlt := asc_lt hasc (Nat.lt_succ_self i) hlast
        obtain ⟨x, hx, hor⟩ := component_seg ts c p.time hasc i hlast (by rw [hat])
          (by rw [← hat]; exact le_of_lt hlt)
        rw [hat] at hor hlt
        rcases hor with h | ⟨_, h3, _⟩
        · rw [hx, onLine_left hlt h]
        · exact absurd h3 (lt_irrefl _)
      · have hlt := asc_lt hasc (show i - 1 < i by omega) hi
        have hi1 : i - 1 + 1 = i := by omega
        obtain ⟨x, hx, hor⟩ := component_seg ts c p.time hasc (i - 1) (by omega)
          (by rw [← hat]; exact le_of_lt hlt) (by rw [hi1, hat])
        rw [hi1, hat] at hor
        rw [hat] at hlt
        rcases hor with h | ⟨_, _, _, hxe⟩
        · rw [hx, onLine_right hlt h]
        · rw [hx, hxe]
  have hlo : (at' ts 0).time ≤ p.time := by
    rcases Nat.eq_zero_or_pos i with h | h
    · subst h; rw [hat]
    · have := asc_lt hasc h hi; rw [hat] at this; omega
  have hhi : p.time ≤ (at' ts (ts.length - 1)).time := by
    rcases Nat.eq_or_lt_of_le (show i ≤ ts.length - 1 by omega) with h | h
    · rw [← h, hat]
    · have := asc_lt hasc h (by omega); rw [hat] at this; omega
  rw [getTimeValue_in ts e p.time (by omega) hlo hhi, key, key]
  rfl

example : getTimeValue [⟨0, 1, 5⟩, ⟨10, 2, 5⟩, ⟨20, 4, 5⟩] false 10 = .ok (2, 5) := by
  refine C70_given_times _ _ ?_ 1 ⟨10, 2, 5⟩ rfl
  intro i j p q hi hj hij
  rcases i with _ | _ | _ | i <;> rcases j with _ | _ | _ | j <;>
    simp at hi hj <;> first | omega | (subst hi; subst hj; decide)

/-- Between two neighbouring times: both components between the two given values, and within
`1e-5` of the straight line; exactly on it when the two given values differ by `1e-5` or more. -/
theorem C70_between (ts : List TV) (e : Bool) (hasc : Ascending ts) (i : Nat) (p q : TV)
    (hp : ts[i]? = some p) (hq : ts[i + 1]? = some q) (t : Int)
    (h0 : p.time ≤ t) (h1 : t ≤ q.time) :
    ∃ x y lx ly, getTimeValue ts e t = .ok (x, y) ∧
      OnLine p q p.u q.u t lx ∧ OnLine p q p.v q.v t ly ∧
      (min p.u q.u ≤ x ∧ x ≤ max p.u q.u) ∧ (min p.v q.v ≤ y ∧ y ≤ max p.v q.v) ∧
      |x - lx| < 1 / 100000 ∧ |y - ly| < 1 / 100000 ∧
      (1 / 100000 ≤ |q.u - p.u| → x = lx) ∧ (1 / 100000 ≤ |q.v - p.v| → y = ly) := by
  have hi : i + 1 < ts.length := by
    by_contra h
    rw [List.getElem?_eq_none (by omega)] at hq; cases hq
  have ep := at'_eq hp
  have eq' := at'_eq hq
  have hlt : p.time < q.time := hasc i (i + 1) p q hp hq (by omega)
  have key : ∀ c : TV → ℚ, ∃ x l, component ts c t = .ok x ∧ OnLine p q (c p) (c q) t l ∧
      (min (c p) (c q) ≤ x ∧ x ≤ max (c p) (c q)) ∧ |x - l| < 1 / 100000 ∧
      (1 / 100000 ≤ |c q - c p| → x = l) := by
    intro c
    obtain ⟨x, hx, hor⟩ := component_seg ts c t hasc i hi (by rw [ep]; exact h0)
      (by rw [eq']; exact h1)
    rw [ep, eq'] at hor
    rcases hor with h | ⟨_, _, hs, hxe⟩
    · exact ⟨x, x, hx, h, onLine_between hlt h0 h1 h, by norm_num, fun _ => rfl⟩
    · obtain ⟨l, _, hl⟩ := line_ok p q c t hlt
      have hb := onLine_between hlt h0 h1 hl
      refine ⟨x, l, hx, hl, ?_, ?_, ?_⟩
      · rw [hxe]; exact ⟨min_le_right _ _, le_max_right _ _⟩
      · have hs' : |c q - c p| < 1 / 100000 := hs
        refine lt_of_le_of_lt ?_ hs'
        rw [hxe]
        rcases le_total (c p) (c q) with h | h
        · rw [min_eq_left h, max_eq_right h] at hb
          rw [abs_of_nonneg (by linarith), abs_of_nonneg (by linarith)]; linarith
        · rw [min_eq_right h, max_eq_left h] at hb
          rw [abs_of_nonpos (by linarith), abs_of_nonpos (by linarith)]; linarith
      · intro h
        exact absurd hs (not_lt.2 h)
  have hlo : (at' ts 0).time ≤ t := by
    rcases Nat.eq_zero_or_pos i with h | h
    · subst h; rw [ep]; exact h0
    · have := asc_lt hasc h (by omega : i < ts.length); rw [ep] at this; omega
  have hhi : t ≤ (at' ts (ts.length - 1)).time := by
    rcases Nat.eq_or_lt_of_le (show i + 1 ≤ ts.length - 1 by omega) with h | h
    · rw [← h, eq']; exact h1
    · have := asc_lt hasc h (by omega); rw [eq'] at this; omega
  obtain ⟨x, lx, hx, a1, a2, a3, a4⟩ := key TV.u
  obtain ⟨y, ly, hy, b1, b2, b3, b4⟩ := key TV.v
  refine ⟨x, y, lx, ly, ?_, a1, b1, a2, b2, a3, b3, a4, b4⟩
  rw [getTimeValue_in ts e t (by omega) hlo hhi, hx, hy]
  rfl

example : getTimeValue [⟨0, 1, 5⟩, ⟨10, 2, 5⟩, ⟨20, 4, 5⟩] false 15 = .ok (3, 5) := by
  rw [getTimeValue_in _ _ _ (by decide) (by decide) (by decide)]
  have hb : bsearch [⟨0, 1, 5⟩, ⟨10, 2, 5⟩, ⟨20, 4, 5⟩] 15 0 2 = 0 := by
    rw [bsearch, dif_neg (by decide)]
  have hs : scan [⟨0, 1, 5⟩, ⟨10, 2, 5⟩, ⟨20, 4, 5⟩] 15 0 = some 2 := by
    rw [scan, dif_pos (by decide), if_neg (by decide), scan, dif_pos (by decide),
      if_neg (by decide), scan, dif_pos (by decide), if_pos (by decide)]
  norm_num [component, hb, hs, at', tol, line, both]

/-- A request outside of the times is refused when extrapolation is not allowed. -/
theorem C70_outside_refused (ts : List TV) (h2 : 2 ≤ ts.length) (t : Int)
    (hout : (∀ p ∈ ts, t < p.time) ∨ (∀ p ∈ ts, p.time < t)) :
    getTimeValue ts false t = .err := by
  have hmem : ∀ i, i < ts.length → at' ts i ∈ ts := fun i hi =>
    List.mem_of_getElem? (at'_get hi)
  have key : ∀ c : TV → ℚ, component ts c t = .err := by
    intro c
    unfold component
    rw [if_neg (by omega)]
    by_cases h : t < (at' ts 0).time
    · rw [if_pos h]
    · rw [if_neg h]
      rcases hout with h' | h'
      · exact absurd (h' _ (hmem 0 (by omega))) h
      · rw [if_pos (h' _ (hmem _ (by omega)))]
  unfold getTimeValue
  rw [if_neg (by omega)]
  simp [key, both]

/-- … and answered with the nearest end value when it is. -/
theorem C70_outside_held (ts : List TV) (hasc : Ascending ts) (t : Int) (p : TV) :
    (ts.head? = some p → t < p.time → getTimeValue ts true t = .ok (p.u, p.v)) ∧
    (ts.getLast? = some p → p.time < t → getTimeValue ts true t = .ok (p.u, p.v)) := by
  constructor
  · intro hp ht
    have h0 : ts[0]? = some p := by rw [← List.head?_eq_getElem?]; exact hp
    rw [← C70_given_times ts true hasc 0 p h0]
    have hc : clamp ts t = clamp ts p.time := by
      have := at'_eq h0
      unfold clamp
      rw [this, if_pos ht, if_neg (lt_irrefl _)]
      have hl : 0 < ts.length := by
        cases ts with
        | nil => cases hp
        | cons => simp
      have hle : p.time ≤ (at' ts (ts.length - 1)).time := by
        rcases Nat.eq_zero_or_pos (ts.length - 1) with h | h
        · rw [h, this]
        · have h' := asc_lt hasc h (by omega); rw [this] at h'; omega
      rw [if_neg (by omega)]
    unfold getTimeValue
    simp [hc]
  · intro hp ht
    have h0 : ts[ts.length - 1]? = some p := by rw [← List.getLast?_eq_getElem?]; exact hp
    rw [← C70_given_times ts true hasc _ p h0]
    have hc : clamp ts t = clamp ts p.time := by
      have := at'_eq h0
      unfold clamp
      rw [this]
      have hl : 0 < ts.length := by
        cases ts with
        | nil => cases hp
        | cons => simp
      have hle : (at' ts 0).time ≤ p.time := by
        rcases Nat.eq_zero_or_pos (ts.length - 1) with h | h
        · rw [← this, h]
        · have h' := asc_lt hasc h (by omega); rw [this] at h'; omega
      rw [if_neg (by omega), if_pos (by omega), if_neg (by omega), if_neg (lt_irrefl _)]
    unfold getTimeValue
    simp [hc]

example : getTimeValue [⟨0, 1, 5⟩, ⟨10, 2, 6⟩] false 11 = .err ∧
    getTimeValue [⟨0, 1, 5⟩, ⟨10, 2, 6⟩] true 11 = .ok (2, 6) ∧
    getTimeValue [⟨0, 1, 5⟩, ⟨10, 2, 6⟩] true (-3) = .ok (1, 5) := by decide +kernel

/-- A series of one value is that value at all times. -/
theorem C70_single (p : TV) (e : Bool) (t : Int) :
    getTimeValue [p] e t = .ok (p.u, p.v) := by
  unfold getTimeValue
  simp [component, at', both]

example : getTimeValue [⟨0, 1, 5⟩] false 100 = .ok (1, 5) := by decide +kernel

/-- No request, of any series in any order, reads the unset indices. -/
theorem C70_no_garbage (ts : List TV) (e : Bool) (t : Int) :
    getTimeValue ts e t ≠ .garbage := by
  have key : ∀ (c : TV → ℚ) (t : Int), ts.length ≠ 0 → component ts c t ≠ .garbage := by
    intro c t hn h
    have hline : ∀ p q dt, line p q c dt t ≠ .garbage := by
      intro p q dt h'
      unfold line at h'
      split at h' <;> cases h'
    unfold component at h
    split at h
    · cases h
    · split at h
      · cases h
      · split at h
        · cases h
        · split at h
          · exact hline _ _ _ h
          · rename_i h1 h2 h3 h4
            obtain ⟨k, hk, _, _, k3, _⟩ := bracket ts t (by omega) (by omega) (by omega)
            rw [hk] at h
            simp only at h
            split at h
            · cases h
            · rename_i h5
              split at h
              · rename_i h6
                subst h6
                have := k3 rfl
                exact h5 (by rw [← this]; norm_num [tol])
              · split at h
                · cases h
                · exact hline _ _ _ h
  unfold getTimeValue
  split
  · simp
  · rename_i hn
    have hu := key TV.u (if e then clamp ts t else t) hn
    have hv := key TV.v (if e then clamp ts t else t) hn
    simp only
    generalize component ts TV.u (if e then clamp ts t else t) = a at hu
    generalize component ts TV.v (if e then clamp ts t else t) = b at hv
    cases a <;> cases b <;> simp_all [both]

example : getTimeValue [⟨30, 1, 5⟩, ⟨10, 2, 6⟩, ⟨40, 2, 6⟩] true 35 ≠ .garbage := C70_no_garbage _ _ _

/-- A request for several times is the requests one by one, or an error. -/
theorem C70_many (ts : List TV) (e : Bool) (times : List Int) :
    (∀ xs, getTimeValues ts e times = .ok xs ↔
      (times.map (getTimeValue ts e)) = xs.map R.ok) ∧
    (getTimeValues ts e times = .err ↔ ∃ t ∈ times, getTimeValue ts e t = .err) := by
  induction times with
  | nil =>
    refine ⟨fun xs => ?_, by simp [getTimeValues]⟩
    simp only [getTimeValues, List.map_nil]
    constructor
    · intro h; injection h with h; subst h; rfl
    · intro h
      have : xs = [] := by simpa using h.symm
      rw [this]
  | cons t rest ih =>
    have hg := C70_no_garbage ts e t
    simp only [getTimeValues]
    cases ht : getTimeValue ts e t with
    | garbage => exact absurd ht hg
    | err =>
      refine ⟨fun xs => ?_, ?_⟩
      · simp only [List.map_cons, ht]
        constructor
        · intro h; cases h
        · intro h
          cases xs with
          | nil => cases h
          | cons x xs => injection h with h1; cases h1
      · simp [ht]
    | ok x =>
      simp only
      have hng : getTimeValues ts e rest ≠ .garbage := by
        clear ih
        induction rest with
        | nil => simp [getTimeValues]
        | cons s r ih =>
          have := C70_no_garbage ts e s
          simp only [getTimeValues]
          cases hs : getTimeValue ts e s <;> simp_all
          cases hr : getTimeValues ts e r <;> simp_all
      cases hr : getTimeValues ts e rest with
      | garbage => exact absurd hr hng
      | err =>
        obtain ⟨i1, i2⟩ := ih
        rw [hr] at i1 i2
        refine ⟨fun xs => ?_, ?_⟩
        · simp only [List.map_cons, ht]
          constructor
          · intro h; cases h
          · intro h
            cases xs with
            | nil => cases h
            | cons y ys =>
              injection h with h1 h2
              have := (i1 ys).2 h2
              cases this
        · obtain ⟨s, hs, hs'⟩ := i2.1 rfl
          constructor
          · intro _; exact ⟨s, List.mem_cons_of_mem _ hs, hs'⟩
          · intro _; rfl
      | ok ys =>
        obtain ⟨i1, i2⟩ := ih
        rw [hr] at i1 i2
        refine ⟨fun xs => ?_, ?_⟩
        · simp only [List.map_cons, ht]
          constructor
          · intro h
            injection h with h
            subst h
            rw [List.map_cons, (i1 ys).1 rfl]
          · intro h
            cases xs with
            | nil => cases h
            | cons y zs =>
              injection h with h1 h2
              injection h1 with h1
              have := (i1 zs).2 h2
              injection this with this
              rw [h1, this]
        · constructor
          · intro h; cases h
          · rintro ⟨s, hs, hs'⟩
            rcases List.mem_cons.1 hs with rfl | hs
            · rw [ht] at hs'; cases hs'
            · have := i2.2 ⟨s, hs, hs'⟩
              cases this

example : getTimeValues [⟨0, 1, 5⟩, ⟨10, 2, 6⟩] false [0, 5, 10] =
    .ok [(1, 5), (3 / 2, 11 / 2), (2, 6)] := by decide +kernel

/-! ## C71 -/

theorem isAscending_iff (ts : List TV) : isAscending ts = true ↔ Ascending ts := by
  induction ts with
  | nil =>
    simp [isAscending, Ascending]
  | cons p rest ih =>
    cases rest with
    | nil =>
      simp only [isAscending, true_iff]
      intro i j a b hi hj hij
      cases j with
      | zero => omega
      | succ j => simp at hj
    | cons q rest =>
      simp only [isAscending, Bool.and_eq_true, decide_eq_true_eq, ih]
      constructor
      · rintro ⟨h1, h2⟩ i j a b hi hj hij
        cases j with
        | zero => omega
        | succ j =>
          cases i with
          | succ i => exact h2 i j a b (by simpa using hi) (by simpa using hj) (by omega)
          | zero =>
            have hpa : p = a := by simpa using hi
            subst hpa
            cases j with
            | zero =>
              have : q = b := by simpa using hj
              subst this; omega
            | succ j =>
              have := h2 0 (j + 1) q b (by simp) (by simpa using hj) (by omega)
              omega
      · intro h
        refine ⟨?_, ?_⟩
        · have := h 0 1 p q (by simp) (by simp) (by omega)
          omega
        · intro i j a b hi hj hij
          exact h (i + 1) (j + 1) a b (by simpa using hi) (by simpa using hj) (by omega)

/-- Full C71: every series that is taken has ascending times. -/
def C71_claim : Prop := ∀ inp ts, accept inp = some ts → Ascending ts

/-- It fails: a list with its two times the wrong way round is taken … -/
theorem C71_counterexample : ¬ C71_claim := by
  intro h
  have := h (.pairs [⟨10, 1, 0⟩, ⟨0, 2, 0⟩]) _ rfl 0 1 _ _ rfl rfl (by omega)
  simp at this

/-- … and then no time whatever has a value, allowed to extrapolate or not. -/
theorem C71_counterexample_unusable (e : Bool) (t : Int) :
    getTimeValue [⟨10, 1, 0⟩, ⟨0, 2, 0⟩] e t = .err := by
  have key : ∀ (c : TV → ℚ) (t : Int), component [⟨10, 1, 0⟩, ⟨0, 2, 0⟩] c t = .err := by
    intro c t
    unfold component
    by_cases h : t < 10
    · simp [at', h]
    · simp only [List.length_cons, List.length_nil]
      rw [if_neg (by decide), if_neg (show ¬ t < (at' [⟨10, 1, 0⟩, ⟨0, 2, 0⟩] 0).time from h),
        if_pos (show t > (at' [⟨10, 1, 0⟩, ⟨0, 2, 0⟩] (0 + 1 + 1 - 1)).time from by
          show (0 : Int) < t; omega)]
  unfold getTimeValue
  simp [key, both]

/-- What holds: an array is taken exactly when its times ascend, and is stored as it is;
a list is always taken. -/
theorem C71_array_partial (ts : List TV) :
    (Ascending ts → accept (.array ts) = some ts) ∧
    (¬ Ascending ts → accept (.array ts) = none) := by
  have := isAscending_iff ts
  constructor
  · intro h; simp [accept, this.2 h]
  · intro h
    have : isAscending ts ≠ true := fun h' => h (this.1 h')
    simp [accept, this]

example : accept (.array [⟨10, 1, 0⟩, ⟨0, 2, 0⟩]) = none := by decide

/-- So a wind from an accepted array can always be asked for its values at its own times. -/
theorem C71_array_usable_partial (inp ts : List TV) (e : Bool) (h : accept (.array inp) = some ts)
    (p : TV) (hp : p ∈ inp) : getTimeValue ts e p.time = .ok (p.u, p.v) := by
  have hts : ts = inp ∧ isAscending inp = true := by
    simp only [accept] at h
    split at h
    · rename_i h'; injection h with h; exact ⟨h.symm, h'⟩
    · cases h
  obtain ⟨rfl, ha⟩ := hts
  obtain ⟨i, hi⟩ := List.mem_iff_getElem?.1 hp
  exact C70_given_times ts e ((isAscending_iff ts).1 ha) i p hi

example : accept (.array [⟨0, 1, 0⟩, ⟨10, 2, 0⟩]) = some [⟨0, 1, 0⟩, ⟨10, 2, 0⟩] := by decide

end Verif.TSeries
