import Verif.Shio.CycleModel

/-!
# C166: the place in the tidal cycle
-/

namespace Verif.Shio.Cycle

/-- The place in the cycle: between two events the phase of the first and the fraction of the time to the second;
before the first event the phase before, of which the fraction grows to one at the event. -/
def Loc (es : List Ev) (t : Int) (p : Nat) (f : ℚ) : Prop :=
  (∃ l1 a b l2, es = l1 ++ a :: b :: l2 ∧ a.time ≤ t ∧ t < b.time ∧ p = a.phase ∧ f * (b.time - a.time) = t - a.time)
  ∨ (∃ e, es.getLast? = some e ∧ t = e.time ∧ p = e.phase ∧ f = 0)
  ∨ (∃ a b l, es = a :: b :: l ∧ t < a.time ∧ (p + 1) % 4 = a.phase % 4 ∧ 0 ≤ f ∧ f = max 0 (1 - (a.time - t) / (b.time - a.time)))

/-- The events of a station of heights: slack water at the highs and lows, the maximum halfway. -/
def eventsH : List HL → List Ev
  | a :: b :: l => ⟨a.time, slackOf a.high⟩ :: ⟨(b.time - a.time) / 2 + a.time, maxOf a.high⟩ :: eventsH (b :: l)
  | [a] => [⟨a.time, slackOf a.high⟩]
  | [] => []

/-- **C166, as stated**: the place in the cycle is found by the events next to the time. -/
def C166_claim : Prop :=
  (∀ (es : List Ev) (t : Int), 2 ≤ es.length → es.Pairwise (fun a b => a.time < b.time) → (∃ e, es.getLast? = some e ∧ t ≤ e.time) →
    ∃ p f, locC t true es = some (p, f) ∧ Loc es t p f)
  ∧ ∀ (hl : List HL) (t : Int) (junk : HL), 2 ≤ hl.length → hl.Pairwise (fun a b => a.time + 1 < b.time) →
    (∃ e, hl.getLast? = some e ∧ t ≤ e.time) → ∃ p f, locH t junk true hl = some (p, f) ∧ Loc (eventsH hl) t p f

theorem locC_spec (es : List Ev) (t : Int) (isFirst : Bool) (h2 : 2 ≤ es.length) (ho : es.Pairwise fun a b => a.time < b.time)
    (h1 : ∃ a, es.head? = some a ∧ a.time ≤ t) (h3 : ∃ e, es.getLast? = some e ∧ t ≤ e.time) :
    ∃ p f, locC t isFirst es = some (p, f) ∧ 0 ≤ f ∧ f < 1
      ∧ ((∃ l1 a b l2, es = l1 ++ a :: b :: l2 ∧ a.time ≤ t ∧ t < b.time ∧ p = a.phase ∧ f * (b.time - a.time) = t - a.time)
        ∨ ∃ e, es.getLast? = some e ∧ t = e.time ∧ p = e.phase ∧ f = 0) := by
  induction es generalizing isFirst with
  | nil => simp at h2
  | cons e1 es ih =>
    cases es with
    | nil => simp at h2
    | cons e2 l =>
      obtain ⟨a, ha, hat⟩ := h1
      simp at ha
      subst ha
      obtain ⟨e, he, het⟩ := h3
      unfold locC
      by_cases hb : e1.time ≤ t ∧ t < e2.time
      · rw [if_pos hb]
        have h12 : (e1.time : ℚ) < e2.time := by exact_mod_cast lt_of_le_of_lt hb.1 hb.2
        have ht1 : (e1.time : ℚ) ≤ t := by exact_mod_cast hb.1
        have ht2 : (t : ℚ) < e2.time := by exact_mod_cast hb.2
        refine ⟨_, _, rfl, ?_, ?_, Or.inl ⟨[], e1, e2, l, rfl, hb.1, hb.2, rfl, ?_⟩⟩
        · unfold frac; push_cast; exact div_nonneg (by linarith) (by linarith)
        · unfold frac; push_cast; rw [div_lt_one (by linarith)]; linarith
        · unfold frac; push_cast
          have : (e2.time : ℚ) - e1.time ≠ 0 := by linarith
          field_simp
      · rw [if_neg hb, if_neg (by omega)]
        have hge : e2.time ≤ t := by
          by_contra hc; exact hb ⟨hat, by omega⟩
        cases l with
        | nil =>
          simp at he
          subst he
          simp only
          rw [if_pos (by omega)]
          exact ⟨_, _, rfl, le_refl _, by norm_num, Or.inr ⟨e2, by simp, by omega, rfl, rfl⟩⟩
        | cons e3 l =>
          simp only
          obtain ⟨p, f, r1, r2, r3, r4⟩ := ih false (by simp) (List.pairwise_cons.1 ho).2 ⟨e2, rfl, hge⟩
            ⟨e, by rw [List.getLast?_cons_cons] at he; exact he, het⟩
          refine ⟨p, f, r1, r2, r3, ?_⟩
          rcases r4 with ⟨l1, a, b, l2, q1, q2⟩ | ⟨e', q1, q2⟩
          · exact Or.inl ⟨e1 :: l1, a, b, l2, by rw [q1]; rfl, q2⟩
          · exact Or.inr ⟨e', by rw [List.getLast?_cons_cons]; exact q1, q2⟩

/-- **C166 (partial)**: for a station of currents, from the first to the last event. -/
theorem C166_partial (es : List Ev) (t : Int) (h2 : 2 ≤ es.length) (ho : es.Pairwise fun a b => a.time < b.time)
    (h1 : ∃ a, es.head? = some a ∧ a.time ≤ t) (h3 : ∃ e, es.getLast? = some e ∧ t ≤ e.time) :
    ∃ p f, locC t true es = some (p, f) ∧ 0 ≤ f ∧ f < 1 ∧ Loc es t p f := by
  obtain ⟨p, f, r1, r2, r3, r4⟩ := locC_spec es t true h2 ho h1 h3
  refine ⟨p, f, r1, r2, r3, ?_⟩
  rcases r4 with h | h
  · exact Or.inl h
  · exact Or.inr (Or.inl h)

/-- **C166 fails**: before the first event the fraction runs backwards: it falls to 0 at the event. -/
theorem C166_counterexample_backwards (a b : Ev) (l : List Ev) (s t : Int) (hab : a.time < b.time) (hst : s < t) (ht : t < a.time)
    (hs : a.time - s ≤ b.time - a.time) :
    ∃ fs ft, locC s true (a :: b :: l) = some (before a.phase, fs) ∧ locC t true (a :: b :: l) = some (before a.phase, ft) ∧ ft < fs := by
  have h12 : (0 : ℚ) < (b.time : ℚ) - a.time := by
    have : (a.time : ℚ) < b.time := by exact_mod_cast hab
    linarith
  have hst' : (s : ℚ) < t := by exact_mod_cast hst
  have hs' : (a.time : ℚ) - s ≤ b.time - a.time := by exact_mod_cast hs
  have n1 : ¬ (((a.time - s : Int) : ℚ) / ((b.time - a.time : Int) : ℚ) > 1) := by
    rw [not_lt]; push_cast; rw [div_le_one h12]; exact hs'
  have n2 : ¬ (((a.time - t : Int) : ℚ) / ((b.time - a.time : Int) : ℚ) > 1) := by
    rw [not_lt]; push_cast; rw [div_le_one h12]; linarith
  refine ⟨((a.time - s : Int) : ℚ) / ((b.time - a.time : Int) : ℚ), ((a.time - t : Int) : ℚ) / ((b.time - a.time : Int) : ℚ), ?_, ?_, ?_⟩
  · unfold locC; rw [if_neg (by omega), if_pos ⟨rfl, by omega⟩]; simp only; rw [if_neg n1]
  · unfold locC; rw [if_neg (by omega), if_pos ⟨rfl, by omega⟩]; simp only; rw [if_neg n2]
  · push_cast
    exact div_lt_div_of_pos_right (by linarith) h12

/-- The phase before the first event is the one that comes before in the cycle of four, so that only the fraction is wrong. -/
theorem C166_before (a b : Ev) (l : List Ev) (t : Int) (ht : t < a.time) (hp : a.phase < 4) :
    ∃ p f, locC t true (a :: b :: l) = some (p, f) ∧ p < 4 ∧ (p + 1) % 4 = a.phase := by
  refine ⟨before a.phase, _, by unfold locC; rw [if_neg (by omega), if_pos ⟨rfl, ht⟩], ?_, ?_⟩
  · unfold before; split <;> omega
  · unfold before; split <;> omega

example : locC 0 true [⟨10, 0⟩, ⟨20, 1⟩] = some (3, 1) := by
  norm_num [locC, before]

/-- What the code finds for a station of heights, between two of them and from half the interval before on: slack
water and the fraction of the whole time to the next high or low, past the maximum of flood or ebb. -/
theorem C166_height (t : Int) (junk : HL) (isFirst : Bool) (hl : List HL) (l1 l2 : List HL) (a b : HL) (he : hl = l1 ++ a :: b :: l2)
    (ho : hl.Pairwise fun a b => a.time < b.time) (h1 : a.time ≤ t) (h2 : t < b.time)
    (hmid : ∀ m1 c d m2, hl = m1 ++ c :: d :: m2 → d.time ≤ t → (d.time - c.time) / 2 + d.time ≤ t) :
    locH t junk isFirst hl = some (slackOf a.high, frac a.time b.time t) := by
  induction l1 generalizing hl isFirst with
  | nil =>
    subst he
    simp only [List.nil_append, locH]
    rw [if_pos ⟨h1, h2⟩]
  | cons x l1 ih =>
    obtain ⟨y, m, hm⟩ : ∃ y m, l1 ++ a :: b :: l2 = y :: m := by
      cases l1 with
      | nil => exact ⟨a, b :: l2, rfl⟩
      | cons y l1 => exact ⟨y, l1 ++ a :: b :: l2, rfl⟩
    have hl' : hl = x :: y :: m := by rw [he, List.cons_append, hm]
    have hyt : y.time ≤ t := by
      rw [hl'] at ho
      have ho2 := (List.pairwise_cons.1 ho).2
      have hmem : a ∈ y :: m := by rw [← hm]; simp
      rw [List.mem_cons] at hmem
      rcases hmem with rfl | hmem
      · exact h1
      · have := (List.pairwise_cons.1 ho2).1 a hmem; omega
    have hxy : x.time < y.time := by
      rw [hl'] at ho; exact (List.pairwise_cons.1 ho).1 y (by simp)
    have hmm := hmid [] x y m hl' hyt
    rw [hl']
    unfold locH
    simp only
    rw [if_neg (by omega), if_neg (by omega), if_neg (by omega)]
    exact ih false (y :: m) hm.symm (by rw [hl'] at ho; exact (List.pairwise_cons.1 ho).2)
      (fun m1 c d m2 hh => hmid (x :: m1) c d m2 (by rw [hl', hh]; rfl))

/-- **C166 fails**: halfway between a low and a high, at the maximum of the flood, the station is said to be halfway
between slack water and the maximum; an hour before the high nearly at the maximum. -/
theorem C166_counterexample_height :
    let hl : List HL := [⟨0, false⟩, ⟨21600, true⟩, ⟨43200, false⟩]
    (∀ junk, locH 10800 junk true hl = some (0, 1 / 2) ∧ locH 18000 junk true hl = some (0, 5 / 6))
    ∧ Loc (eventsH hl) 10800 1 0 ∧ Loc (eventsH hl) 18000 1 (2 / 3) := by
  refine ⟨?_, ?_, ?_⟩
  · intro junk
    constructor
    · simp only [locH]; norm_num [slackOf, frac]
    · simp only [locH]; norm_num [slackOf, frac]
  · refine Or.inl ⟨[⟨0, 0⟩], ⟨10800, 1⟩, ⟨21600, 2⟩, [⟨32400, 3⟩, ⟨43200, 0⟩], by decide, by norm_num, by norm_num, rfl, by norm_num⟩
  · refine Or.inl ⟨[⟨0, 0⟩], ⟨10800, 1⟩, ⟨21600, 2⟩, [⟨32400, 3⟩, ⟨43200, 0⟩], by decide, by norm_num, by norm_num, rfl, by norm_num⟩

/-- **C166 fails**: and right at the next high, at slack water, the station is said to be halfway between the maximum of
the flood and slack water. -/
theorem C166_counterexample_slack (junk : HL) :
    locH 21600 junk true [⟨0, false⟩, ⟨21600, true⟩, ⟨43200, false⟩] = some (1, 1 / 2)
    ∧ Loc (eventsH [⟨0, false⟩, ⟨21600, true⟩, ⟨43200, false⟩]) 21600 2 0 := by
  constructor
  · simp only [locH]; norm_num [maxOf, frac]
  · exact Or.inl ⟨[⟨0, 0⟩, ⟨10800, 1⟩], ⟨21600, 2⟩, ⟨32400, 3⟩, [⟨43200, 0⟩], by decide, by norm_num, by norm_num, rfl, by norm_num⟩

theorem C166_counterexample : ¬ C166_claim := by
  rintro ⟨h, _⟩
  obtain ⟨p, f, h1, h2⟩ := h [⟨100, 1⟩, ⟨200, 2⟩] 90 (by simp) (by simp) ⟨⟨200, 2⟩, by simp, by norm_num⟩
  have hf : locC 90 true [⟨100, 1⟩, ⟨200, 2⟩] = some (0, 1 / 10) := by decide +kernel
  rw [hf] at h1
  cases h1
  rcases h2 with ⟨l1, a, b, l2, q1, q2, _⟩ | ⟨e, q1, q2, _⟩ | ⟨a, b, l, q1, _, _, _, q5⟩
  · have ha : a ∈ ([⟨100, 1⟩, ⟨200, 2⟩] : List Ev) := by rw [q1]; simp
    simp at ha
    rcases ha with rfl | rfl <;> norm_num at q2
  · simp at q1
    subst q1
    norm_num at q2
  · simp at q1
    obtain ⟨rfl, rfl, _⟩ := q1
    norm_num at q5

/-- Non-trivial case. -/
example : locC 150 true [⟨0, 0⟩, ⟨100, 1⟩, ⟨200, 2⟩] = some (1, 1 / 2) := by decide +kernel

end Verif.Shio.Cycle
