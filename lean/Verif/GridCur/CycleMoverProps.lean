import Verif.GridCur.CycleMoverModel

/-!
# Currents of a tidal cycle: proofs

C255: with harmonics of a tide, the current is the pattern for the place in the tidal cycle.
C256: without a tide, it is the pattern for the time since the start of the run.
-/

namespace Verif.GridCur.CycleMover

/-- A cycle of patterns, interpolated: at the whole number `k` it is pattern `k`, after the last comes the first. -/
def cyc (recs : List ℚ) (x : ℚ) : ℚ :=
  (1 - Int.fract x) * recs.getD (⌊x⌋.toNat % recs.length) 0 + Int.fract x * recs.getD ((⌊x⌋.toNat + 1) % recs.length) 0

/-- How far from the start of the pattern, the maximum flood, in quarters of the cycle. -/
def quarters (phase : Nat) (f : ℚ) : ℚ := ((phase + 3) % 4 : Nat) + f

/-- What may be loaded: a record and the one after it, after the last the first, or one record, or nothing. -/
def Inv (g : Grid) : Prop :=
  (g.start = none ∧ g.stop = none) ∨ ∃ a, g.start = some a ∧ a < g.n ∧ (g.stop = none ∨ g.stop = some ((a + 1) % g.n))

theorem cyc_between (recs : List ℚ) (x : ℚ) (k : Nat) (hk : 1 ≤ k) (h1 : (k : ℚ) - 1 ≤ x) (h2 : x ≤ k) :
    cyc recs x = (k - x) * recs.getD ((k - 1) % recs.length) 0 + (1 - (k - x)) * recs.getD (k % recs.length) 0 := by
  rcases eq_or_lt_of_le h2 with h | h
  · subst h
    simp [cyc]
  · have hf : ⌊x⌋ = (k : Int) - 1 := by
      rw [Int.floor_eq_iff]
      push_cast
      constructor <;> linarith
    have e1 : ⌊x⌋.toNat = k - 1 := by omega
    have e2 : k - 1 + 1 = k := by omega
    have e3 : Int.fract x = x - (k - 1) := by
      unfold Int.fract
      rw [hf]
      push_cast
      ring
    unfold cyc
    rw [e1, e2, e3]
    ring

theorem load_inv (g : Grid) (a : Nat) (b : Option Nat) (hb : b = none ∨ b = some ((a + 1) % g.n)) : Inv (g.load a b).1 := by
  unfold Grid.load
  split
  · exact Or.inr ⟨a, rfl, by assumption, hb⟩
  · exact Or.inl ⟨rfl, rfl⟩

theorem setInterval_inv (ex : Bool) (f : ℚ) (o : Nat) (t : Int) (g : Grid) (h2 : 2 ≤ g.n) (h : Inv g) :
    Inv (setInterval ex f o t g).1 := by
  unfold setInterval
  dsimp only
  split
  · exact h
  · split
    · rename_i hk
      split
      · rename_i hn
        apply load_inv
        right
        have : (check g f o t).2.1 - 1 + 1 = g.n := by omega
        rw [this]
        show some 0 = some (g.n % g.n)
        rw [Nat.mod_self]
      · split
        · exact load_inv _ _ _ (Or.inl rfl)
        · split
          · exact load_inv _ _ _ (Or.inl rfl)
          · exact Or.inl ⟨rfl, rfl⟩
    · rename_i hk
      apply load_inv
      split
      · rename_i hl
        right
        have : (check g f o t).2.1 - 1 + 1 = (check g f o t).2.1 := by omega
        rw [this]
        show _ = some (_ % g.n)
        rw [Nat.mod_eq_of_lt hl]
      · exact Or.inl rfl

/-- `setInterval` changes nothing but what is loaded and the weight. -/
theorem setInterval_keeps (ex : Bool) (f : ℚ) (o : Nat) (t : Int) (g : Grid) :
    (setInterval ex f o t g).1.recs = g.recs ∧ (setInterval ex f o t g).1.times = g.times
    ∧ (setInterval ex f o t g).1.modelStart = g.modelStart := by
  unfold setInterval Grid.load
  dsimp only
  repeat' split
  all_goals exact ⟨rfl, rfl, rfl⟩

/-- The interval of a place of the cycle. -/
theorem setInterval_cycle (ex : Bool) (f : ℚ) (o m : Nat) (t : Int) (g : Grid) (hm : 1 ≤ m) (hn : g.n = 4 * m) (hi : Inv g)
    (hf0 : 0 ≤ f) (hf1 : f ≤ 1) (ho : o < 4) (hne : ¬ (f = 0 ∧ o = 0)) :
    ∃ g', setInterval ex f o t g = (g', true) ∧ value g' t = some (cyc g.recs (m * (o + f))) := by
  have hx : place g.n f o = m * (o + f) := by
    unfold place
    rw [hn]
    push_cast
    ring
  have hlen : g.recs.length = 4 * m := hn
  have hmq : (1 : ℚ) ≤ m := by exact_mod_cast hm
  have hoq : (o : ℚ) ≤ 3 := by
    have : o ≤ 3 := by omega
    exact_mod_cast this
  have ho0 : (0 : ℚ) ≤ o := by positivity
  -- what the check gives
  obtain ⟨k, hk1, hkn, hkx, hxk, hc⟩ : ∃ k : Nat, 1 ≤ k ∧ k ≤ 4 * m ∧ (k : ℚ) - 1 ≤ m * (o + f) ∧ (m * (o + f) : ℚ) ≤ k
      ∧ ∃ l : Bool, check g f o t = (l, k, k - m * (o + f))
        ∧ (l = true → g.start = some (k - 1) ∧ g.stop = some (k % g.n)) := by
    have hstop : ∀ a b, g.start = some a → g.stop = some b → b = (a + 1) % (4 * m) := by
      intro a b ha hb
      rcases hi with ⟨h, _⟩ | ⟨a', h1, _, h2 | h2⟩
      · rw [ha] at h; cases h
      · rw [hb] at h2; cases h2
      · rw [ha] at h1; cases h1
        rw [hb, hn] at h2; cases h2; rfl
    have hlt : ∀ a, g.start = some a → a < 4 * m := by
      intro a ha
      rcases hi with ⟨h, _⟩ | ⟨a', h1, h2, _⟩
      · rw [ha] at h; cases h
      · rw [ha] at h1; cases h1
        omega
    by_cases hf : f = 0
    · subst hf
      have ho1 : 1 ≤ o := by
        rcases Nat.eq_zero_or_pos o with h | h
        · exact absurd ⟨rfl, h⟩ hne
        · exact h
      have hint : (m * (o + 0) : ℚ) = ((m * o : Nat) : ℚ) := by push_cast; ring
      have hle : m * o ≤ m * 3 := Nat.mul_le_mul_left m (by omega)
      refine ⟨m * o + 1, by omega, by omega, ?_, ?_, false, ?_, fun h => by cases h⟩
      · push_cast; linarith
      · push_cast; linarith
      · unfold check
        rw [if_neg hne, hx, hint]
        simp only [Int.floor_natCast, Int.ceil_natCast, Int.toNat_natCast, if_true]
        refine Prod.ext ?_ (Prod.ext rfl ?_)
        · simp only [decide_eq_false_iff_not]
          rintro ⟨h1, h2⟩
          have h3 := hstop _ _ h1 h2
          have h4 := hlt _ h1
          split at h3
          · rename_i h12
            rw [h12] at h3 h4
            rcases Nat.lt_or_ge 13 (4 * m) with h | h
            · rw [Nat.mod_eq_of_lt (by omega)] at h3; omega
            · have : m = 3 := by omega
              subst this
              omega
          · rcases Nat.lt_or_ge (m * o + 1) (4 * m) with h | h
            · rw [Nat.mod_eq_of_lt h] at h3; omega
            · have : m * o + 1 = 4 * m := by omega
              rw [this, Nat.mod_self] at h3
              omega
        · push_cast; ring
    · have hfp : 0 < f := lt_of_le_of_ne hf0 (Ne.symm hf)
      have hxp : (0 : ℚ) < m * (o + f) := by
        apply mul_pos <;> linarith
      have hxn : (m * (o + f) : ℚ) ≤ ((4 * m : Nat) : Int) := by
        push_cast
        nlinarith
      have hc1 : 1 ≤ ⌈(m * (o + f) : ℚ)⌉ := by
        have := Int.ceil_pos.mpr hxp
        omega
      have hc2 : ⌈(m * (o + f) : ℚ)⌉ ≤ ((4 * m : Nat) : Int) := Int.ceil_le.mpr hxn
      have hc3 := Int.le_ceil (m * (o + f) : ℚ)
      have hc4 := Int.ceil_lt_add_one (m * (o + f) : ℚ)
      obtain ⟨k, hk⟩ : ∃ k : Nat, ⌈(m * (o + f) : ℚ)⌉ = k := ⟨⌈(m * (o + f) : ℚ)⌉.toNat, by omega⟩
      rw [hk] at hc1 hc2 hc3 hc4
      push_cast at hc3 hc4
      refine ⟨k, by omega, by omega, by linarith, hc3,
        decide (g.start = some ⌊(m * (o + f) : ℚ)⌋.toNat ∧ g.stop = some (if k = 12 then 0 else k)), ?_, ?_⟩
      · unfold check
        rw [if_neg hne, hx]
        simp only [hk, Int.toNat_natCast, if_neg hf]
      · intro hl
        obtain ⟨h1, h2⟩ := of_decide_eq_true hl
        have h3 := hstop _ _ h1 h2
        have h4 := hlt _ h1
        have hfl : ⌊(m * (o + f) : ℚ)⌋.toNat = k ∨ ⌊(m * (o + f) : ℚ)⌋.toNat = k - 1 := by
          rcases eq_or_lt_of_le hc3 with h | h
          · left; rw [h]; simp
          · right
            have : ⌊(m * (o + f) : ℚ)⌋ = (k : Int) - 1 := by
              rw [Int.floor_eq_iff]
              push_cast
              constructor <;> linarith
            omega
        rcases hfl with hfl | hfl
        · exfalso
          rw [hfl] at h3 h4
          split at h3
          · rename_i h12
            rw [h12] at h3 h4
            rcases Nat.lt_or_ge 13 (4 * m) with h | h
            · rw [Nat.mod_eq_of_lt (by omega)] at h3; omega
            · have : m = 3 := by omega
              subst this
              omega
          · rcases Nat.lt_or_ge (k + 1) (4 * m) with h | h
            · rw [Nat.mod_eq_of_lt h] at h3; omega
            · have : k + 1 = 4 * m := by omega
              rw [this, Nat.mod_self] at h3
              omega
        · rw [hfl] at h1 h3
          refine ⟨h1, ?_⟩
          rw [h2, h3, hn]
          congr 2
          omega
  obtain ⟨l, hc, hl⟩ := hc
  have ha : ((k : ℚ) - m * (o + f)) ≠ -1 := by linarith
  have ha0 : 0 ≤ ((k : ℚ) - m * (o + f)) := by linarith
  have hval : ∀ g', g'.recs = g.recs → g'.alpha = k - m * (o + f) → g'.start = some (k - 1) → g'.stop = some (k % g.n) →
      value g' t = some (cyc g.recs (m * (o + f))) := by
    intro g' e1 e2 e3 e4
    unfold value
    rw [e3, e4]
    simp only [e2, if_neg ha]
    rw [cyc_between g.recs _ k hk1 hkx hxk]
    have : (k - 1) % g.recs.length = k - 1 := Nat.mod_eq_of_lt (by omega)
    rw [this]
    simp only [Grid.rec', Grid.n, e1]
  unfold setInterval
  rw [hc]
  dsimp only
  cases l with
  | true =>
    rw [if_pos rfl]
    exact ⟨_, rfl, hval _ rfl rfl (hl rfl).1 (hl rfl).2⟩
  | false =>
    rw [if_neg (by simp)]
    by_cases hkn' : k = g.n
    · rw [if_pos (Or.inr hkn'), if_pos ⟨ha0, hkn'⟩]
      unfold Grid.load
      rw [if_pos (by show k - 1 < g.n; omega)]
      refine ⟨_, rfl, hval _ rfl rfl rfl ?_⟩
      rw [hkn', Nat.mod_self]
    · rw [if_neg (by omega), if_pos (by omega)]
      unfold Grid.load
      rw [if_pos (by show k - 1 < g.n; omega)]
      refine ⟨_, rfl, hval _ rfl rfl rfl ?_⟩
      rw [Nat.mod_eq_of_lt (by omega)]

/-- Steps of a run: each with its time and tide. -/
def runs (ex : Bool) : Bool → List (Tide × Int) → Grid → Except Err Grid
  | _, [], g => .ok g
  | first, (d, t) :: l, g =>
    match prepare ex first d t g with
    | .ok g' => runs ex false l g'
    | .error e => .error e

theorem prepare_inv (ex first : Bool) (d : Tide) (t : Int) (g g' : Grid) (h2 : 2 ≤ g.n) (hi : Inv g)
    (h : prepare ex first d t g = .ok g') :
    Inv g' ∧ g'.recs = g.recs ∧ g'.times = g.times ∧ g'.modelStart = if first then t else g.modelStart := by
  have key : ∀ f o, (match setInterval ex f o t (if first then { g with modelStart := t } else g) with
      | (g', true) => (.ok g' : Except Err Grid)
      | (_, false) => .error .noRecord) = .ok g' →
      Inv g' ∧ g'.recs = g.recs ∧ g'.times = g.times ∧ g'.modelStart = if first then t else g.modelStart := by
    intro f o h
    have k1 := setInterval_inv ex f o t (if first then { g with modelStart := t } else g)
      (by cases first <;> exact h2) (by cases first <;> exact hi)
    have k2 := setInterval_keeps ex f o t (if first then { g with modelStart := t } else g)
    generalize setInterval ex f o t (if first then { g with modelStart := t } else g) = r at h k1 k2
    obtain ⟨r1, r2⟩ := r
    cases r2 with
    | false => cases h
    | true =>
      cases h
      obtain ⟨e1, e2, e3⟩ := k2
      refine ⟨k1, ?_, ?_, ?_⟩
      · rw [e1]; cases first <;> rfl
      · rw [e2]; cases first <;> rfl
      · rw [e3]; cases first <;> rfl
  unfold prepare at h
  cases d with
  | off => exact key _ _ h
  | shio p f v => exact key _ _ h
  | series v => cases h

theorem runs_inv (ex first : Bool) (l : List (Tide × Int)) (g g' : Grid) (h2 : 2 ≤ g.n) (hi : Inv g) (h : runs ex first l g = .ok g') :
    Inv g' ∧ g'.recs = g.recs ∧ g'.times = g.times := by
  induction l generalizing g first with
  | nil => cases h; exact ⟨hi, rfl, rfl⟩
  | cons a l ih =>
    obtain ⟨d, t⟩ := a
    simp only [runs] at h
    cases hp : prepare ex first d t g with
    | error e => rw [hp] at h; cases h
    | ok g1 =>
      rw [hp] at h
      obtain ⟨q1, q2, q3, _⟩ := prepare_inv ex first d t g g1 h2 hi hp
      obtain ⟨r1, r2, r3⟩ := ih false g1 (by unfold Grid.n; rw [q2]; exact h2) q1 h
      exact ⟨r1, r2.trans q2, r3.trans q3⟩

/-- The claim: after any steps, with any number of patterns and any tide, the step at a phase and a fraction of the tidal cycle has the current
of the pattern at that place of the cycle, times scale and strength of the tide. -/
def C255_claim : Prop :=
  ∀ (ex : Bool) (recs : List ℚ) (times : List Int) (steps : List (Tide × Int)) (g : Grid) (t : Int) (p : Nat) (f v scale : ℚ),
    2 ≤ recs.length → times.length = recs.length → runs ex true steps { recs, times } = .ok g → p < 4 → 0 ≤ f → f ≤ 1 →
    ∃ g', prepare ex steps.isEmpty (.shio p f (some v)) t g = .ok g'
      ∧ current scale (.shio p f (some v)) g' t = some (scale * |v| * cyc recs (recs.length / 4 * quarters p f))

theorem offsetOf_eq (p : Nat) (hp : p < 4) : offsetOf p = (p + 3) % 4 := by
  unfold offsetOf
  split <;> omega

/-- The claim for a multiple of four patterns, at a time that is not the maximum flood.  The value of the tide may be missing, then there is
no current. -/
theorem C255_partial (ex : Bool) (recs : List ℚ) (times : List Int) (steps : List (Tide × Int)) (g : Grid) (t : Int) (p m : Nat)
    (f scale : ℚ) (v : Option ℚ) (hm : 1 ≤ m) (hlen : recs.length = 4 * m) (hr : runs ex true steps { recs, times } = .ok g)
    (hp : p < 4) (hf0 : 0 ≤ f) (hf1 : f ≤ 1) (hne : ¬ (p = 1 ∧ f = 0)) :
    ∃ g', prepare ex steps.isEmpty (.shio p f v) t g = .ok g'
      ∧ current scale (.shio p f v) g' t = some (scale * |v.getD 0| * cyc recs (recs.length / 4 * quarters p f)) := by
  obtain ⟨hi, h1, _⟩ := runs_inv ex true steps { recs, times } g (by show 2 ≤ recs.length; omega) (Or.inl ⟨rfl, rfl⟩) hr
  have hn : g.n = 4 * m := by unfold Grid.n; rw [h1]; exact hlen
  obtain ⟨g', k1, k2⟩ := setInterval_cycle ex f (offsetOf p) m t (if steps.isEmpty then { g with modelStart := t } else g) hm
    (by split <;> exact hn) (by split <;> exact hi) hf0 hf1 (by rw [offsetOf_eq p hp]; omega)
    (by rw [offsetOf_eq p hp]; rintro ⟨h, h'⟩; exact hne ⟨by omega, h⟩)
  refine ⟨g', ?_, ?_⟩
  · unfold prepare
    simp only [k1]
  · unfold current
    rw [k2]
    have e1 : (if steps.isEmpty = true then ({ g with modelStart := t } : Grid) else g).recs = recs := by
      split <;> exact h1
    rw [e1, offsetOf_eq p hp]
    have e2 : ((recs.length : ℚ) / 4 * quarters p f) = m * ((((p + 3) % 4 : Nat) : ℚ) + f) := by
      unfold quarters
      rw [hlen]
      push_cast
      ring
    rw [e2]
    simp only [Option.map_some, factor]
    congr 1
    ring

/-- At the end of a quarter of the cycle the current is that at the start of the next quarter. -/
theorem C255_continuous (recs : List ℚ) (m p : Nat) (hlen : recs.length = 4 * m) (hp : p < 4) :
    cyc recs (recs.length / 4 * quarters p 1) = cyc recs (recs.length / 4 * quarters ((p + 1) % 4) 0) := by
  have e : ∀ (q : Nat) (f : ℚ), ((recs.length : ℚ) / 4 * quarters q f) = m * ((((q + 3) % 4 : Nat) : ℚ) + f) := by
    intro q f
    unfold quarters
    rw [hlen]
    push_cast
    ring
  rw [e, e]
  have a1 : (m : ℚ) * ((((p + 3) % 4 : Nat) : ℚ) + 1) = ((m * ((p + 3) % 4 + 1) : Nat) : ℚ) := by push_cast; ring
  have a2 : (m : ℚ) * (((((p + 1) % 4 + 3) % 4 : Nat) : ℚ) + 0) = ((m * (((p + 1) % 4 + 3) % 4) : Nat) : ℚ) := by push_cast; ring
  rw [a1, a2]
  unfold cyc
  simp only [Int.floor_natCast, Int.toNat_natCast, Int.fract_natCast, hlen]
  simp only [sub_zero, one_mul, zero_mul, add_zero]
  congr 1
  rcases Nat.lt_or_ge p 1 with h | h
  · have : p = 0 := by omega
    subst this
    show m * 4 % (4 * m) = m * 0 % (4 * m)
    rw [show m * 4 = 4 * m by ring, Nat.mod_self]; simp
  · have h1 : (p + 3) % 4 + 1 = p := by omega
    have h2 : ((p + 1) % 4 + 3) % 4 = p := by omega
    rw [h1, h2]

/-- At the maximum flood itself the pattern is that of the time since the start of the run: an hour after it pattern 1, not pattern 0. -/
theorem C255_counterexample_flood :
    ∃ g g', runs false true [(.shio 1 (1 / 2) (some 1), 1000)] { recs := [0, 10, 20, 30], times := [0, 3600, 7200, 10800] } = .ok g
      ∧ prepare false false (.shio 1 0 (some 1)) 4600 g = .ok g' ∧ current 1 (.shio 1 0 (some 1)) g' 4600 = some 10
      ∧ cyc [0, 10, 20, 30] (4 / 4 * quarters 1 0) = 0 := by
  refine ⟨{ recs := [0, 10, 20, 30], times := [0, 3600, 7200, 10800], start := some 0, stop := some 1, alpha := 1 / 2, modelStart := 1000 },
    { recs := [0, 10, 20, 30], times := [0, 3600, 7200, 10800], start := some 0, stop := some 1, alpha := -1, modelStart := 1000 }, ?_, ?_, ?_, ?_⟩
  · decide +kernel
  · decide +kernel
  · decide +kernel
  · decide +kernel

/-- ... and after the time of the last pattern the step fails there. -/
theorem C255_counterexample_late :
    ∃ g, runs false true [(.shio 1 (1 / 2) (some 1), 1000)] { recs := [0, 10, 20, 30], times := [0, 3600, 7200, 10800] } = .ok g
      ∧ prepare false false (.shio 1 0 (some 1)) 50000 g = .error .noRecord := by
  refine ⟨{ recs := [0, 10, 20, 30], times := [0, 3600, 7200, 10800], start := some 0, stop := some 1, alpha := 1 / 2, modelStart := 1000 },
    ?_, ?_⟩
  · decide +kernel
  · decide +kernel

/-- Six patterns: at the minimum before flood, half way from pattern 4 to pattern 5, the current is beyond both. -/
theorem C255_counterexample_six :
    ∃ g', prepare false true (.shio 0 0 (some 1)) 1000 { recs := [0, 10, 20, 30, 20, 40], times := [0, 1, 2, 3, 4, 5] } = .ok g'
      ∧ current 1 (.shio 0 0 (some 1)) g' 1000 = some 60 ∧ cyc [0, 10, 20, 30, 20, 40] (6 / 4 * quarters 0 0) = 30 := by
  refine ⟨{ recs := [0, 10, 20, 30, 20, 40], times := [0, 1, 2, 3, 4, 5], start := some 5, stop := some 0, alpha := 3 / 2, modelStart := 1000 },
    ?_, ?_, ?_⟩
  · decide +kernel
  · decide +kernel
  · decide +kernel

/-- Two patterns: no step at the minimum before flood. -/
theorem C255_counterexample_two (ex : Bool) (a b : ℚ) (s u t : Int) (v : Option ℚ) :
    prepare ex true (.shio 0 0 v) t { recs := [a, b], times := [s, u] } = .error .noRecord := by
  norm_num [prepare, setInterval, check, offsetOf, place, Grid.n, Grid.load]
  rw [if_neg (by rintro ⟨h, _⟩; cases h)]

theorem C255_counterexample : ¬ C255_claim := by
  intro h
  obtain ⟨g', h1, _⟩ := h false [0, 0] [0, 1] [] { recs := [0, 0], times := [0, 1] } 0 0 0 0 1 (by simp) (by simp) rfl (by norm_num)
    (by norm_num) (by norm_num)
  rw [List.isEmpty_nil, C255_counterexample_two] at h1
  cases h1

/-- A tide that is a series of values, which the mover takes, brings the program down at the first step. -/
theorem C255_counterexample_series (ex first : Bool) (v : ℚ) (t : Int) (g : Grid) : prepare ex first (.series v) t g = .error .crash := rfl

/-- The velocities given for display are not those: at the middle of a quarter, between 0 and 10, elements move at 5, and the answer is a number
that grows with the time of the model. -/
theorem C255_counterexample_reported (t : Int) :
    ∃ g', prepare false true (.shio 1 (1 / 2) (some 1)) t { recs := [0, 10, 20, 30], times := [0, 3600, 7200, 10800] } = .ok g'
      ∧ current 1 (.shio 1 (1 / 2) (some 1)) g' t = some 5 ∧ reported false (1 / 2) 0 t g' = some ((t : ℚ) / 360) := by
  refine ⟨{ recs := [0, 10, 20, 30], times := [0, 3600, 7200, 10800], start := some 0, stop := some 1, alpha := 1 / 2, modelStart := t }, ?_, ?_, ?_⟩
  · norm_num [prepare, setInterval, check, offsetOf, place, Grid.n, Grid.load]
    rw [if_neg (by rintro ⟨h, _⟩; cases h)]
  · norm_num [current, value, factor, Grid.rec']
  · norm_num [reported, setInterval, check, place, Grid.n, Grid.load, reduceCtorEq, Grid.time, Grid.rec']
    ring

/-- The hypotheses of `C255_partial` are met: twelve patterns, a third of the way from the maximum ebb on. -/
example : ∃ g', prepare false true (.shio 3 (1 / 2) (some (-2))) 1000 { recs := List.replicate 12 7, times := List.replicate 12 0 } = .ok g'
    ∧ current 3 (.shio 3 (1 / 2) (some (-2))) g' 1000 = some 42 := by
  obtain ⟨g', h1, h2⟩ := C255_partial false (List.replicate 12 7) (List.replicate 12 0) [] { recs := List.replicate 12 7, times := List.replicate 12 0 }
    1000 3 3 (1 / 2) 3 (some (-2)) (by norm_num) (by simp) rfl (by norm_num) (by norm_num) (by norm_num) (by norm_num)
  refine ⟨g', h1, ?_⟩
  rw [h2]
  decide +kernel

/-! ## Without a tide -/

theorem seek_some (g : Grid) (e : Int) (i : Nat)
    (h : seek g e = some i) : i + 1 < g.n ∧ g.time i ≤ e ∧ e ≤ g.time (i + 1) := by
  unfold seek at h
  have h1 := List.mem_of_find?_eq_some h
  have h2 := List.find?_some h
  rw [List.mem_range] at h1
  have h3 := of_decide_eq_true h2
  exact ⟨by omega, h3.1, h3.2⟩

theorem time_lt (g : Grid) (i j : Nat) (hinc : g.times.Pairwise (· < ·)) (hlen : g.times.length = g.n) (hij : i < j) (hj : j < g.n) :
    g.time i < g.time j := by
  unfold Grid.time
  rw [List.getD_eq_getElem _ _ (by omega), List.getD_eq_getElem _ _ (by omega)]
  exact List.pairwise_iff_getElem.mp hinc i j (by omega) (by omega) hij

/-- Linear in time between two records. -/
def line (g : Grid) (i : Nat) (e : Int) : ℚ :=
  g.rec' i + (g.rec' (i + 1) - g.rec' i) * ((e - g.time i : Int) : ℚ) / ((g.time (i + 1) - g.time i : Int) : ℚ)

/-- The two records on both sides of a time do not matter at a record: the line is the same. -/
theorem line_unique (g : Grid) (i j : Nat) (e : Int) (hinc : g.times.Pairwise (· < ·)) (hlen : g.times.length = g.n) (hi : i + 1 < g.n)
    (hj : j + 1 < g.n) (h1 : g.time i ≤ e) (h2 : e ≤ g.time (i + 1)) (h3 : g.time j ≤ e) (h4 : e ≤ g.time (j + 1)) : line g i e = line g j e := by
  have key : ∀ i j, i < j → i + 1 < g.n → j + 1 < g.n → e ≤ g.time (i + 1) → g.time j ≤ e → line g i e = line g j e := by
    intro i j hij hi hj h2 h3
    rcases Nat.lt_or_ge (i + 1) j with h | h
    · have := time_lt g (i + 1) j hinc hlen h (by omega)
      omega
    · have : j = i + 1 := by omega
      subst this
      have he : e = g.time (i + 1) := by omega
      subst he
      have := time_lt g i (i + 1) hinc hlen (by omega) hi
      have hne : ((g.time (i + 1) - g.time i : Int) : ℚ) ≠ 0 := by
        have : g.time (i + 1) - g.time i ≠ 0 := by omega
        exact_mod_cast this
      unfold line
      rw [mul_div_assoc, div_self hne]
      simp
  rcases Nat.lt_trichotomy i j with h | h | h
  · exact key i j h hi hj h2 h3
  · rw [h]
  · exact (key j i h hj hi h4 h1).symm

/-- C256, the claim: without a tide, after any steps, the step at a time has the pattern for the time since the first step, linear in time between
two patterns, times the scale. -/
theorem C256_elapsed (ex : Bool) (recs : List ℚ) (times : List Int) (first : Bool) (g : Grid) (t t0 : Int) (i : Nat) (scale : ℚ)
    (hn : 2 ≤ recs.length) (hlen : times.length = recs.length) (hinc : times.Pairwise (· < ·))
    (hg : g.recs = recs ∧ g.times = times ∧ Inv g) (h0 : t0 = if first then t else g.modelStart) (ht0 : t0 ≠ 0)
    (hi : i + 1 < recs.length) (h1 : times.getD i 0 ≤ t - t0) (h2 : t - t0 ≤ times.getD (i + 1) 0) :
    ∃ g', prepare ex first .off t g = .ok g' ∧ g'.modelStart = t0
      ∧ current scale .off g' t = some (scale * (recs.getD i 0 + (recs.getD (i + 1) 0 - recs.getD i 0)
          * ((t - t0 - times.getD i 0 : Int) : ℚ) / ((times.getD (i + 1) 0 - times.getD i 0 : Int) : ℚ))) := by
  obtain ⟨e1, e2, hinv⟩ := hg
  obtain ⟨q, hq⟩ : ∃ q, q = (if first then { g with modelStart := t } else g) := ⟨_, rfl⟩
  have q1 : q.recs = recs := by rw [hq]; split <;> exact e1
  have q2 : q.times = times := by rw [hq]; split <;> exact e2
  have q3 : Inv q := by rw [hq]; split <;> exact hinv
  have q4 : q.modelStart = t0 := by rw [hq, h0]; cases first <;> rfl
  have qn : q.n = recs.length := by unfold Grid.n; rw [q1]
  have qt : ∀ j, q.time j = times.getD j 0 := by intro j; unfold Grid.time; rw [q2]
  have qinc : q.times.Pairwise (· < ·) := by rw [q2]; exact hinc
  have qlen : q.times.length = q.n := by rw [q2, qn]; exact hlen
  -- the value for whatever pair of records is loaded around the time
  have hval : ∀ r : Grid, ∀ j, r.recs = recs → r.times = times → r.modelStart = t0 → r.alpha = -1 → r.start = some j → r.stop = some (j + 1) →
      j + 1 < q.n → q.time j ≤ t - t0 → t - t0 ≤ q.time (j + 1) →
      current scale .off r t = some (scale * (recs.getD i 0 + (recs.getD (i + 1) 0 - recs.getD i 0)
          * ((t - t0 - times.getD i 0 : Int) : ℚ) / ((times.getD (i + 1) 0 - times.getD i 0 : Int) : ℚ))) := by
    intro r j r1 r2 r3 r4 r5 r6 hj b1 b2
    have hu := line_unique q i j (t - t0) qinc qlen (by omega) hj (by rw [qt]; exact h1) (by rw [qt]; exact h2) b1 b2
    have hi' : line q i (t - t0) = recs.getD i 0 + (recs.getD (i + 1) 0 - recs.getD i 0)
          * ((t - t0 - times.getD i 0 : Int) : ℚ) / ((times.getD (i + 1) 0 - times.getD i 0 : Int) : ℚ) := by
      unfold line
      simp only [qt, Grid.rec', q1]
    rw [← hi', hu]
    have hlt := time_lt q j (j + 1) qinc qlen (by omega) hj
    have hpos : ((q.time (j + 1) : ℚ) - q.time j) ≠ 0 := by
      have : (q.time j : ℚ) < q.time (j + 1) := by exact_mod_cast hlt
      linarith
    unfold current value line
    rw [r5, r6]
    simp only [r4, if_true, r3, Option.map_some, factor, Grid.rec', Grid.time, r1, r2, q1, q2]
    simp only [Grid.time, q2] at hpos
    congr 1
    push_cast
    rw [mul_div_assoc, mul_one]
    have : ((times.getD (j + 1) 0 : ℚ) - (t - t0)) / (times.getD (j + 1) 0 - times.getD j 0)
        = 1 - ((t : ℚ) - t0 - times.getD j 0) / (times.getD (j + 1) 0 - times.getD j 0) := by
      rw [eq_sub_iff_add_eq, ← add_div, div_eq_one_iff_eq hpos]
      ring
    rw [this]
    ring
  have hseek : ∃ j, seek q (t - t0) = some j := by
    unfold seek
    rw [← Option.isSome_iff_exists, List.find?_isSome]
    exact ⟨i, by rw [List.mem_range]; omega, by rw [qt, qt]; exact decide_eq_true ⟨h1, h2⟩⟩
  obtain ⟨j, hj⟩ := hseek
  obtain ⟨j1, j2, j3⟩ := seek_some q _ j hj
  have hce : (checkElapsed q t = (false, j + 1)) ∨ ∃ a, checkElapsed q t = (true, a + 1) ∧ q.start = some a ∧ q.stop = some (a + 1) ∧ a + 1 < q.n
      ∧ q.time a ≤ t - t0 ∧ t - t0 ≤ q.time (a + 1) := by
    have hf : checkElapsed.found q (t - t0) = j + 1 := by unfold checkElapsed.found; rw [hj]
    unfold checkElapsed
    simp only [q4, if_neg ht0, hf]
    rcases q3 with ⟨s1, s2⟩ | ⟨a, s1, s2, s3 | s3⟩
    · rw [s1]; exact Or.inl rfl
    · rw [s1, s3]; exact Or.inl rfl
    · rw [s1, s3]
      simp only
      split
      · rename_i hb
        right
        have hlt : a + 1 < q.n := by
          rcases Nat.lt_or_ge (a + 1) q.n with h | h
          · exact h
          · exfalso
            have h' : a + 1 = q.n := by omega
            rw [h', Nat.mod_self] at hb
            have := time_lt q 0 a qinc qlen (by omega) s2
            omega
        rw [Nat.mod_eq_of_lt hlt] at hb ⊢
        exact ⟨a, rfl, rfl, rfl, hlt, hb.1, hb.2⟩
      · exact Or.inl rfl
  unfold prepare
  simp only [← hq]
  unfold setInterval check
  simp only [and_self, if_true]
  rcases hce with hce | ⟨a, hce, s1, s2, s3, s4, s5⟩
  · rw [hce]
    simp only [Bool.false_eq_true, if_false]
    rw [if_neg (by omega), if_pos j1]
    unfold Grid.load
    rw [if_pos (by show j + 1 - 1 < q.n; omega)]
    exact ⟨_, rfl, q4, hval _ j q1 q2 q4 rfl rfl rfl j1 j2 j3⟩
  · rw [hce]
    simp only [if_true]
    exact ⟨_, rfl, q4, hval _ a q1 q2 q4 rfl s1 s2 s3 s4 s5⟩

/-- After the last pattern: an error, or the last pattern with extrapolation. -/
theorem C256_after (ex first : Bool) (g : Grid) (t t0 : Int) (scale : ℚ) (hn : 2 ≤ g.n) (hlen : g.times.length = g.n)
    (hinc : g.times.Pairwise (· < ·)) (hinv : Inv g) (h0 : t0 = if first then t else g.modelStart) (ht0 : t0 ≠ 0) (h : g.time (g.n - 1) < t - t0) :
    (ex = false → prepare ex first .off t g = .error .noRecord)
    ∧ (ex = true → ∃ g', prepare ex first .off t g = .ok g' ∧ current scale .off g' t = some (scale * g.rec' (g.n - 1))) := by
  obtain ⟨q, hq⟩ : ∃ q, q = (if first then { g with modelStart := t } else g) := ⟨_, rfl⟩
  have q1 : q.recs = g.recs := by rw [hq]; split <;> rfl
  have q2 : q.times = g.times := by rw [hq]; split <;> rfl
  have q3 : Inv q := by rw [hq]; split <;> exact hinv
  have q4 : q.modelStart = t0 := by rw [hq, h0]; cases first <;> rfl
  have qn : q.n = g.n := by unfold Grid.n; rw [q1]
  have qt : ∀ j, q.time j = g.time j := by intro j; unfold Grid.time; rw [q2]
  have hall : ∀ j, j < g.n → g.time j < t - t0 := by
    intro j hj
    rcases Nat.lt_or_ge j (g.n - 1) with h' | h'
    · have := time_lt g j (g.n - 1) hinc hlen h' (by omega)
      omega
    · have : j = g.n - 1 := by omega
      rw [this]; exact h
  have hs : seek q (t - t0) = none := by
    unfold seek
    rw [List.find?_eq_none]
    intro j hj
    rw [List.mem_range, qn] at hj
    rw [qt, qt]
    have := hall (j + 1) (by omega)
    simp only [decide_eq_true_eq, not_and]
    omega
  have hce : checkElapsed q t = (false, g.n) := by
    have hz := hall 0 (by omega)
    have hf : checkElapsed.found q (t - t0) = g.n := by
      unfold checkElapsed.found
      rw [hs]
      simp only
      rw [qt, if_neg (by omega), qn]
    unfold checkElapsed
    simp only [q4, if_neg ht0, hf]
    rcases q3 with ⟨s1, s2⟩ | ⟨a, s1, s2, s3 | s3⟩
    · rw [s1]
    · rw [s1, s3]
    · rw [s1, s3]
      simp only
      have := hall ((a + 1) % q.n) (by rw [← qn]; exact Nat.mod_lt _ (by omega))
      rw [if_neg (by rw [qt, qt]; omega)]
  constructor
  · intro he
    subst he
    unfold prepare
    simp only [← hq]
    unfold setInterval check
    simp only [and_self, if_true, hce, Bool.false_eq_true, if_false, false_and]
    rw [if_pos (Or.inr qn.symm), if_neg (by norm_num)]
  · intro he
    subst he
    unfold prepare
    simp only [← hq]
    unfold setInterval check
    simp only [and_self, if_true, hce, Bool.false_eq_true, if_false, true_and]
    rw [if_pos (Or.inr qn.symm), if_neg (by norm_num), if_pos qn.symm]
    unfold Grid.load
    rw [if_pos (by show g.n - 1 < q.n; omega)]
    refine ⟨_, rfl, ?_⟩
    unfold current value
    simp only [Option.map_some, factor, Grid.rec', q1]
    congr 1
    ring

example : ∃ g', prepare false true .off 1000 { recs := [0, 10], times := [0, 3600] } = .ok g' ∧ current 2 .off g' 1000 = some 0 := by
  obtain ⟨g', h1, _, h2⟩ := C256_elapsed false [0, 10] [0, 3600] true { recs := [0, 10], times := [0, 3600] } 1000 1000 0 2 (by simp) (by simp)
    (by simp) ⟨rfl, rfl, Or.inl ⟨rfl, rfl⟩⟩ rfl (by norm_num) (by simp) (by simp) (by simp)
  exact ⟨g', h1, by rw [h2]; norm_num⟩

end Verif.GridCur.CycleMover
