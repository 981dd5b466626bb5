import Verif.Shio.PeaksModel

/-!
# C163: the highs and lows of a tide station
-/

namespace Verif.Shio

/-! ## The search by minutes -/

theorem findLoop_low (h : Int → ℚ) (t0 t : Int) (n : Nat) (hf : findLoop h false t0 n = some t) :
    t0 ≤ t ∧ t < t0 + n ∧ h t ≤ h (t + 1) ∧ ∀ s, t0 ≤ s → s < t → h (s + 1) < h s := by
  induction n generalizing t0 with
  | zero => simp [findLoop] at hf
  | succ n ih =>
    simp only [findLoop, if_true] at hf
    split at hf
    · cases hf
      rename_i hge
      exact ⟨le_refl _, by push_cast; omega, hge, fun s h1 h2 => by omega⟩
    · rename_i hge
      obtain ⟨h1, h2, h3, h4⟩ := ih (t0 + 1) hf
      refine ⟨by omega, by push_cast; omega, h3, fun s hs1 hs2 => ?_⟩
      by_cases hs : s = t0
      · rw [hs]; exact lt_of_not_ge hge
      · exact h4 s (by omega) hs2

theorem findLoop_high (h : Int → ℚ) (t0 t : Int) (n : Nat) (hf : findLoop h true t0 n = some t) :
    t0 ≤ t ∧ t < t0 + n ∧ h (t + 1) < h t ∧ ∀ s, t0 ≤ s → s < t → h s ≤ h (s + 1) := by
  induction n generalizing t0 with
  | zero => simp [findLoop] at hf
  | succ n ih =>
    simp only [findLoop, Bool.true_eq_false, if_false] at hf
    split at hf
    · cases hf
      rename_i hge
      exact ⟨le_refl _, by push_cast; omega, hge, fun s h1 h2 => by omega⟩
    · rename_i hge
      obtain ⟨h1, h2, h3, h4⟩ := ih (t0 + 1) hf
      refine ⟨by omega, by push_cast; omega, h3, fun s hs1 hs2 => ?_⟩
      by_cases hs : s = t0
      · rw [hs]; exact not_lt.1 hge
      · exact h4 s (by omega) hs2

theorem findLoop_low_none (h : Int → ℚ) (t0 : Int) (n : Nat) (hf : findLoop h false t0 n = none) :
    ∀ s, t0 ≤ s → s < t0 + n → h (s + 1) < h s := by
  induction n generalizing t0 with
  | zero => intro s h1 h2; simp at h2; omega
  | succ n ih =>
    simp only [findLoop, if_true] at hf
    split at hf
    · simp at hf
    · rename_i hge
      intro s h1 h2
      by_cases hs : s = t0
      · rw [hs]; exact lt_of_not_ge hge
      · exact ih (t0 + 1) hf s (by omega) (by push_cast at h2; omega)

theorem findLoop_high_none (h : Int → ℚ) (t0 : Int) (n : Nat) (hf : findLoop h true t0 n = none) :
    ∀ s, t0 ≤ s → s < t0 + n → h s ≤ h (s + 1) := by
  induction n generalizing t0 with
  | zero => intro s h1 h2; simp at h2; omega
  | succ n ih =>
    simp only [findLoop, Bool.true_eq_false, if_false] at hf
    split at hf
    · simp at hf
    · rename_i hge
      intro s h1 h2
      by_cases hs : s = t0
      · rw [hs]; exact not_lt.1 hge
      · exact ih (t0 + 1) hf s (by omega) (by push_cast at h2; omega)

/-- Steps down (or level) add up. -/
theorem mono_steps (h : Int → ℚ) (a : Int) (n : Nat) (hs : ∀ s, a ≤ s → s < a + n → h s ≤ h (s + 1)) : h a ≤ h (a + n) := by
  induction n with
  | zero => simp
  | succ n ih =>
    have h1 := ih (fun s h1 h2 => hs s h1 (by push_cast; omega))
    have h2 := hs (a + n) (by omega) (by push_cast; omega)
    have e : a + ((n + 1 : Nat) : Int) = a + n + 1 := by push_cast; ring
    rw [e]
    exact le_trans h1 h2

/-- What a low has to be: its height that of its minute, the water falls to it and does not fall right after it. -/
def IsLow (h : Int → ℚ) (a : Int) (p : Peak) : Prop :=
  p.high = false ∧ p.height = h p.time ∧ h p.time ≤ h (p.time + 1) ∧ ∀ s, a ≤ s → s < p.time → h (s + 1) < h s

/-- What a high has to be. -/
def IsHigh (h : Int → ℚ) (a : Int) (p : Peak) : Prop :=
  p.high = true ∧ p.height = h p.time ∧ h (p.time + 1) < h p.time ∧ ∀ s, a ≤ s → s < p.time → h s ≤ h (s + 1)

theorem find_low (h : Int → ℚ) (t0 t1 : Int) (h1 : t0 ≤ t1) (n : Nat) (hn : 4 ≤ t1 + n - t0) (hup : h t1 < h (t1 + n)) :
    let f := findHighLow h t0 (t1 + n) false
    t0 ≤ f.2 ∧ f.2 < t1 + n ∧ IsLow h t0 ⟨f.2, false, f.1⟩ := by
  unfold findHighLow
  simp only
  rw [if_neg (by omega)]
  cases hf : findLoop h false t0 (t1 + n - t0).toNat with
  | none =>
    exfalso
    have := findLoop_low_none h t0 _ hf
    have hm := mono_steps (fun s => - h s) t1 n (fun s hs1 hs2 => by
      have := this s (by omega) (by omega)
      linarith)
    linarith
  | some t =>
    obtain ⟨e1, e2, e3, e4⟩ := findLoop_low h t0 t _ hf
    exact ⟨e1, by simp only; omega, rfl, rfl, e3, e4⟩

theorem find_high (h : Int → ℚ) (t0 t1 : Int) (h1 : t0 ≤ t1) (n : Nat) (hn : 4 ≤ t1 + n - t0) (hup : h (t1 + n) < h t1) :
    let f := findHighLow h t0 (t1 + n) true
    t0 ≤ f.2 ∧ f.2 < t1 + n ∧ IsHigh h t0 ⟨f.2, true, f.1⟩ := by
  unfold findHighLow
  simp only
  rw [if_neg (by omega)]
  cases hf : findLoop h true t0 (t1 + n - t0).toNat with
  | none =>
    exfalso
    have := findLoop_high_none h t0 _ hf
    have hm := mono_steps h t1 n (fun s hs1 hs2 => this s (by omega) (by omega))
    linarith
  | some t =>
    obtain ⟨e1, e2, e3, e4⟩ := findLoop_high h t0 t _ hf
    exact ⟨e1, by simp only; omega, rfl, rfl, e3, e4⟩

/-! ## C163 -/

/-- Height of sample `i`. -/
def samp (h : Int → ℚ) (b : Int) (i : Nat) : ℚ := h (sampleTime b i)

/-- Sample `i + 1` is higher than both neighbours. -/
def Top (h : Int → ℚ) (b : Int) (i : Nat) : Prop := samp h b i < samp h b (i + 1) ∧ samp h b (i + 2) < samp h b (i + 1)

/-- Sample `i + 1` is lower than both neighbours. -/
def Bottom (h : Int → ℚ) (b : Int) (i : Nat) : Prop := samp h b (i + 1) < samp h b i ∧ samp h b (i + 1) < samp h b (i + 2)

instance (h : Int → ℚ) (b : Int) (i : Nat) : Decidable (Top h b i) := by unfold Top; infer_instance
instance (h : Int → ℚ) (b : Int) (i : Nat) : Decidable (Bottom h b i) := by unfold Bottom; infer_instance

/-- The turning points among the first `n` samples, in order. -/
def turns (h : Int → ℚ) (b : Int) : Nat → List Nat
  | 0 => []
  | 1 => []
  | 2 => []
  | n + 3 => turns h b (n + 2) ++ if Top h b n ∨ Bottom h b n then [n] else []

/-- A reported peak is right for the turning point at sample `i + 1`. -/
def PeakAt (h : Int → ℚ) (b : Int) (i : Nat) (p : Peak) : Prop :=
  sampleTime b i ≤ p.time ∧ p.time < sampleTime b (i + 2)
  ∧ (Top h b i → IsHigh h (sampleTime b i) p) ∧ (Bottom h b i → IsLow h (sampleTime b i) p)

/-- No two successive samples are equal. -/
def NoFlat (h : Int → ℚ) (b : Int) (n : Nat) : Prop := ∀ i, i + 1 < n → samp h b i ≠ samp h b (i + 1)

theorem turns_mono (h : Int → ℚ) (b : Int) (n : Nat) : (turns h b n).length ≤ (turns h b (n + 1)).length := by
  match n with
  | 0 => simp [turns]
  | 1 => simp [turns]
  | n + 2 => simp [turns]

/-- State of the scan after `n ≥ 2` samples. -/
structure Inv (h : Int → ℚ) (b : Int) (n : Nat) (st : Scan) : Prop where
  old : st.old = samp h b (n + 1)
  s2 : st.s2 = samp h b (n + 1) - samp h b n
  t2 : st.t2 = sampleTime b (n + 1)
  t1 : n = 0 ∨ st.t1 = sampleTime b n
  first : n = 0 → st.s1 = st.s2 ∧ st.t0 = sampleTime b 0 ∧ st.t1 = sampleTime b 1
  peaks : List.Forall₂ (PeakAt h b) (turns h b (n + 2)) st.peaks
  kinds : ∀ p, st.peaks.getLast? = some p → (p.high = true ↔ st.s2 < 0)
  alter : st.peaks.IsChain fun p q => p.high ≠ q.high

theorem forall₂_snoc {α β : Type} {R : α → β → Prop} {l : List α} {m : List β} {a : α} {c : β} (h : List.Forall₂ R l m) (h2 : R a c) :
    List.Forall₂ R (l ++ [a]) (m ++ [c]) := by
  induction h with
  | nil => exact .cons h2 .nil
  | cons hr _ ih => exact .cons hr ih

theorem chain_snoc {l : List Peak} {q : Peak} (h : l.IsChain fun p q => p.high ≠ q.high)
    (h2 : ∀ p, l.getLast? = some p → p.high ≠ q.high) : (l ++ [q]).IsChain fun p q => p.high ≠ q.high := by
  induction l with
  | nil => exact List.IsChain.singleton _
  | cons a l ih =>
    cases l with
    | nil =>
      rw [List.singleton_append, List.isChain_cons_cons]
      exact ⟨h2 a rfl, List.IsChain.singleton _⟩
    | cons c l =>
      rw [List.isChain_cons_cons] at h
      have := ih h.2 (fun p hp => h2 p (by rw [List.getLast?_cons_cons]; exact hp))
      simp only [List.cons_append] at this ⊢
      rw [List.isChain_cons_cons]
      exact ⟨h.1, this⟩

theorem inv_base (h : Int → ℚ) (b : Int) (m : Nat) (hnf : NoFlat h b 2) :
    ∃ st, scan h m b 2 = .ok st ∧ Inv h b 0 st := by
  have hne := hnf 0 (by omega)
  have hz : h (sampleTime b 1) - h (sampleTime b 0) ≠ 0 := by
    intro hc; apply hne; unfold samp; linarith
  refine ⟨⟨h (sampleTime b 1), h (sampleTime b 1) - h (sampleTime b 0), h (sampleTime b 1) - h (sampleTime b 0),
    b, sampleTime b 1, sampleTime b 1, []⟩, ?_, ?_⟩
  · have n1 : ¬ (h (sampleTime b 1) - h (sampleTime b 0) < 0 ∧ h (sampleTime b 1) - h (sampleTime b 0) > 0) := by
      rintro ⟨a, c⟩; linarith
    have n2 : ¬ (h (sampleTime b 1) - h (sampleTime b 0) > 0 ∧ h (sampleTime b 1) - h (sampleTime b 0) < 0) := by
      rintro ⟨a, c⟩; linarith
    simp only [scan, scan0, scanStep, Except.bind, if_true, Nat.one_ne_zero, if_false, Except.map]
    simp only [if_neg hz, if_neg n1, if_neg n2]
  · constructor
    · rfl
    · rfl
    · rfl
    · exact Or.inl rfl
    · intro _; exact ⟨rfl, by simp [sampleTime], rfl⟩
    · simp [turns]
    · simp
    · exact List.IsChain.nil

theorem inv_step (h : Int → ℚ) (b : Int) (m n : Nat) (st : Scan) (hi : Inv h b n st) (hnf : NoFlat h b (n + 3))
    (hm : (turns h b (n + 3)).length ≤ m) :
    ∃ st', scanStep h m (n + 2) (sampleTime b (n + 2)) st = .ok st' ∧ Inv h b (n + 1) st' := by
  have hne1 := hnf n (by omega)
  have hne2 := hnf (n + 1) (by omega)
  have hold : st.old = samp h b (n + 1) := hi.old
  -- after the bookkeeping
  obtain ⟨s, hs, hso, hs1, hs2, hst0, hst1, hst2, hsp⟩ : ∃ s : Scan,
      (if n + 2 = 1 then { st with s1 := h (sampleTime b (n + 2)) - st.old, s2 := h (sampleTime b (n + 2)) - st.old, t1 := sampleTime b (n + 2), t2 := sampleTime b (n + 2) }
        else if n + 2 = 2 then { st with s2 := h (sampleTime b (n + 2)) - st.old, t2 := sampleTime b (n + 2) }
        else { st with s1 := st.s2, s2 := h (sampleTime b (n + 2)) - st.old, t0 := st.t1, t1 := st.t2, t2 := sampleTime b (n + 2) }) = s
      ∧ s.old = samp h b (n + 1) ∧ s.s1 = samp h b (n + 1) - samp h b n
      ∧ s.s2 = samp h b (n + 2) - samp h b (n + 1) ∧ s.t0 = sampleTime b n ∧ s.t1 = sampleTime b (n + 1)
      ∧ s.t2 = sampleTime b (n + 2) ∧ s.peaks = st.peaks := by
    refine ⟨_, rfl, ?_⟩
    rw [if_neg (by omega)]
    by_cases h0 : n = 0
    · rw [if_pos (by omega)]
      obtain ⟨f1, f2, f3⟩ := hi.first h0
      refine ⟨hold, ?_, ?_, ?_, ?_, rfl, rfl⟩
      · simp only; rw [f1, hi.s2]
      · simp only; rw [hold]; rfl
      · simp only; rw [f2, h0]
      · simp only; rw [f3, h0]
    · rw [if_neg (by omega)]
      refine ⟨hold, hi.s2, ?_, ?_, hi.t2, rfl, rfl⟩
      · simp only; rw [hold]; rfl
      · simp only; exact (hi.t1.resolve_left h0)
  have hz1 : s.s1 ≠ 0 := by rw [hs1]; intro hc; apply hne1; linarith
  have hz2 : s.s2 ≠ 0 := by rw [hs2]; intro hc; apply hne2; linarith
  have hlen := hi.peaks.length_eq
  unfold scanStep
  simp only
  rw [if_neg (by omega), hs, if_neg hz1, if_neg hz2]
  have e2 : sampleTime b (n + 2) = sampleTime b (n + 1) + (10 : Nat) := by unfold sampleTime; push_cast; ring
  have e1 : sampleTime b (n + 1) = sampleTime b n + 10 := by unfold sampleTime; push_cast; ring
  by_cases hb : s.s1 < 0 ∧ s.s2 > 0
  · rw [if_pos hb]
    have hbot : Bottom h b n := ⟨by linarith [hb.1, hs1], by linarith [hb.2, hs2]⟩
    have hturn : turns h b (n + 3) = turns h b (n + 2) ++ [n] := by
      rw [turns, if_pos (Or.inr hbot)]
    have hf := find_low h (sampleTime b n) (sampleTime b (n + 1)) (by omega) 10 (by omega)
      (by rw [← e2]; exact hbot.2)
    rw [← e2] at hf
    simp only at hf
    unfold store
    rw [if_neg (by rw [hturn] at hm; simp at hm; rw [hsp]; omega)]
    simp only [Except.map]
    refine ⟨_, rfl, ?_⟩
    constructor
    · rfl
    · simpa using hs2
    · exact hst2
    · exact Or.inr hst1
    · intro hc; omega
    · simp only
      rw [hturn, hsp, hst0]
      refine forall₂_snoc hi.peaks ⟨hf.1, hf.2.1, fun ht => ?_, fun _ => hf.2.2⟩
      exfalso; have := ht.1; have := hbot.1; linarith
    · intro p hp
      simp only [List.getLast?_append, List.getLast?_singleton, Option.some_or, Option.some.injEq] at hp
      subst hp
      simp only [Bool.false_eq_true, false_iff, not_lt]
      exact le_of_lt hb.2
    · simp only
      apply chain_snoc (by rw [hsp]; exact hi.alter)
      intro p hp
      rw [hsp] at hp
      have hk := hi.kinds p hp
      have : st.s2 < 0 := by rw [hi.s2]; rw [hs1] at hb; exact hb.1
      simp only
      rw [hk.2 this]; simp
  · rw [if_neg hb]
    by_cases ht : s.s1 > 0 ∧ s.s2 < 0
    · rw [if_pos ht]
      have htop : Top h b n := ⟨by linarith [ht.1, hs1], by linarith [ht.2, hs2]⟩
      have hturn : turns h b (n + 3) = turns h b (n + 2) ++ [n] := by
        rw [turns, if_pos (Or.inl htop)]
      have hf := find_high h (sampleTime b n) (sampleTime b (n + 1)) (by omega) 10 (by omega)
        (by rw [← e2]; exact htop.2)
      rw [← e2] at hf
      simp only at hf
      unfold store
      rw [if_neg (by rw [hturn] at hm; simp at hm; rw [hsp]; omega)]
      simp only [Except.map]
      refine ⟨_, rfl, ?_⟩
      constructor
      · rfl
      · simpa using hs2
      · exact hst2
      · exact Or.inr hst1
      · intro hc; omega
      · simp only
        rw [hturn, hsp, hst0]
        refine forall₂_snoc hi.peaks ⟨hf.1, hf.2.1, fun _ => hf.2.2, fun hbot => ?_⟩
        exfalso; have := htop.1; have := hbot.1; linarith
      · intro p hp
        simp only [List.getLast?_append, List.getLast?_singleton, Option.some_or, Option.some.injEq] at hp
        subst hp
        simp only [true_iff]
        exact ht.2
      · simp only
        apply chain_snoc (by rw [hsp]; exact hi.alter)
        intro p hp
        rw [hsp] at hp
        have hk := hi.kinds p hp
        have hpos : 0 < st.s2 := by rw [hi.s2]; rw [hs1] at ht; exact ht.1
        simp only
        intro hc
        have := hk.1 hc
        linarith
    · rw [if_neg ht]
      simp only [Except.map]
      refine ⟨_, rfl, ?_⟩
      have hnb : ¬ Bottom h b n := fun hc => hb ⟨by rw [hs1]; linarith [hc.1], by rw [hs2]; linarith [hc.2]⟩
      have hnt : ¬ Top h b n := fun hc => ht ⟨by rw [hs1]; linarith [hc.1], by rw [hs2]; linarith [hc.2]⟩
      have hsame : s.s2 < 0 ↔ st.s2 < 0 := by
        rw [hi.s2, ← hs1]
        constructor
        · intro hc
          rcases lt_or_gt_of_ne hz1 with h' | h'
          · exact h'
          · exact absurd ⟨h', hc⟩ ht
        · intro hc
          rcases lt_or_gt_of_ne hz2 with h' | h'
          · exact h'
          · exact absurd ⟨hc, h'⟩ hb
      constructor
      · rfl
      · simpa using hs2
      · exact hst2
      · exact Or.inr hst1
      · intro hc; omega
      · simp only
        rw [turns, if_neg (by rintro (hc | hc); exacts [hnt hc, hnb hc]), hsp, List.append_nil]
        exact hi.peaks
      · intro p hp
        simp only at hp ⊢
        rw [hsp] at hp
        rw [hi.kinds p hp, hsame]
      · simp only; rw [hsp]; exact hi.alter

theorem inv_all (h : Int → ℚ) (b : Int) (m n : Nat) (hnf : NoFlat h b (n + 2)) (hm : (turns h b (n + 2)).length ≤ m) :
    ∃ st, scan h m b (n + 2) = .ok st ∧ Inv h b n st := by
  induction n with
  | zero => exact inv_base h b m hnf
  | succ n ih =>
    obtain ⟨st, hs, hi⟩ := ih (fun i hi => hnf i (by omega)) (le_trans (turns_mono h b (n + 2)) hm)
    obtain ⟨st', h1, h2⟩ := inv_step h b m n st hi hnf hm
    refine ⟨st', ?_, h2⟩
    rw [scan, hs]
    exact h1

/-- **C163, as stated**: the highs and lows that are reported are those of the curve: one for every turning point of
the samples, highs and lows in turn, each with the height of the water at its minute. -/
def C163_claim : Prop :=
  ∀ (h : Int → ℚ) (b : Int) (maxPeaks n : Nat), (turns h b (n + 2)).length ≤ maxPeaks →
    ∃ st, scan h maxPeaks b (n + 2) = .ok st ∧ List.Forall₂ (PeakAt h b) (turns h b (n + 2)) st.peaks
      ∧ st.peaks.IsChain fun p q => p.high ≠ q.high

/-- **C163 (partial)**: when no two successive samples are equal. -/
theorem C163_partial (h : Int → ℚ) (b : Int) (maxPeaks n : Nat) (hnf : NoFlat h b (n + 2))
    (hm : (turns h b (n + 2)).length ≤ maxPeaks) :
    ∃ st, scan h maxPeaks b (n + 2) = .ok st ∧ List.Forall₂ (PeakAt h b) (turns h b (n + 2)) st.peaks
      ∧ st.peaks.IsChain fun p q => p.high ≠ q.high := by
  obtain ⟨st, h1, h2⟩ := inv_all h b maxPeaks n hnf hm
  exact ⟨st, h1, h2.peaks, h2.alter⟩

/-- **C163 fails**: a low between two equal samples ends the computation with an error, a high there is found. -/
theorem C163_counterexample_low (h : Int → ℚ) (b : Int) (m : Nat) (hm : 0 < m)
    (heq : samp h b 0 = samp h b 1) (hlow : h (b + 5) ≤ samp h b 0) : scan h m b 2 = .error .flat := by
  have hz : h (sampleTime b 1) - h (sampleTime b 0) = 0 := by unfold samp at heq; linarith
  have hmid : (b + sampleTime b 1) / 2 = b + 5 := by unfold sampleTime; push_cast; omega
  have hl : ¬ (h (b + 5) > h (sampleTime b 0)) := not_lt.2 hlow
  simp only [scan, scan0, scanStep, Except.bind, if_true, Nat.one_ne_zero, if_false, Except.map]
  have h0 : ¬ (m ≤ ([] : List Peak).length) := by simp; omega
  simp only [hmid, if_pos hz, if_neg hl, if_neg h0]

theorem C163_counterexample : ¬ C163_claim := by
  intro hc
  obtain ⟨st, hs, _⟩ := hc (fun _ => 0) 0 1 0 (by simp [turns])
  rw [C163_counterexample_low (fun _ => 0) 0 1 (by omega) rfl (le_refl _)] at hs
  cases hs

/-- That end, unlike the one for want of room, is reported as an error; success is reported for a curve that is read through. -/
theorem C163_reported (r : Except Ended Scan) : returnCode r = 0 ↔ r ≠ .error .flat := by
  cases r with
  | ok s => simp [returnCode]
  | error e => cases e <;> simp [returnCode]

/-- A curve with a high at minute 13 and a low at minute 34. -/
def demo (t : Int) : ℚ := if t ≤ 13 then t else if t ≤ 34 then 26 - t else t - 42

example : NoFlat demo 0 7 ∧ turns demo 0 7 = [0, 2]
    ∧ (scan demo 4 0 7).toOption.map Scan.peaks = some [⟨13, true, 13⟩, ⟨34, false, -8⟩] := by
  refine ⟨?_, by decide +kernel, by decide +kernel⟩
  intro i hi
  have : i = 0 ∨ i = 1 ∨ i = 2 ∨ i = 3 ∨ i = 4 ∨ i = 5 := by omega
  rcases this with rfl | rfl | rfl | rfl | rfl | rfl <;> decide +kernel

/-- **C163 fails**: when there are more highs and lows than room for them, nothing is stored, but success is
reported. -/
theorem C163_counterexample_full : (scan demo 1 0 7 matches .error .full) ∧ returnCode (scan demo 1 0 7) = 0 := by
  constructor <;> decide +kernel

end Verif.Shio
