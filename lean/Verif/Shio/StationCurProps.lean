import Verif.Shio.StationCurModel
import Mathlib.Data.List.GetD
import Mathlib.Algebra.Order.Field.Basic
import Mathlib.Tactic.Linarith
import Mathlib.Tactic.Ring
import Mathlib.Tactic.FieldSimp
import Mathlib.Tactic.NormNum
/-!
# C282-C284: the currents of a tide station

C282: the current is given, and corrected, at every time between the events that surround the period; it passes through the corrected events.
C283: between slack water and a maximum the current does not run the other way or faster than the maximum.
C284: events that the corrections put out of order.
-/
namespace Verif.Shio.StationCur

/-- Spec: the corrected events follow each other in time, and slack waters alternate with maxima. -/
structure Regular (o : Offset) (evs : List Ev) (zero last : Ev) : Prop where
  clean : ∀ e ∈ zero :: evs ++ [last], e.off = false
  ascending : ((zero :: evs ++ [last]).map (fun e => (correct o e).time)).Pairwise (· < ·)
  swing : ((zero :: evs ++ [last]).map (fun e => (correct o e).val)).IsChain (fun a b => a = 0 ↔ b ≠ 0)

/-- no correction, as at a reference station -/
def noOffset : Offset := ⟨0, 0, 0, 0, 1, 1⟩

/-- a day of six hours between maxima -/
def day : List Ev := [⟨103, 2, .maxFlood, false⟩, ⟨106, 0, .minEbb, false⟩, ⟨109, -3, .maxEbb, false⟩]
def dayZero : Ev := ⟨100, 0, .minFlood, false⟩
def dayLast : Ev := ⟨112, 0, .minFlood, false⟩

theorem day_regular (o : Offset) (ho : o = noOffset ∨ o = ⟨1, 1, 1, 1, 1 / 2, 1 / 3⟩) : Regular o day dayZero dayLast := by
  rcases ho with rfl | rfl
  · refine ⟨by decide +kernel, by decide +kernel, by decide +kernel⟩
  · refine ⟨by decide +kernel, by decide +kernel, by decide +kernel⟩

/-! ## The events of a regular station are not moved -/

theorem tryOnce_sorted (n : Nat) (fx : Bool) (a : Arr) (h : ∀ i, 1 ≤ i → i < n → (a (i - 1)).time ≤ (a i).time) : tryOnce n fx a = (a, false) := by
  have key : ∀ l : List Nat, (∀ i ∈ l, 1 ≤ i ∧ i < n) → l.foldl (fixPair fx) (a, false) = (a, false) := by
    intro l
    induction l with
    | nil => intro _; rfl
    | cons i l ih =>
      intro hl
      have hi := hl i (by simp)
      have hs : fixPair fx (a, false) i = (a, false) := by
        unfold fixPair
        rw [if_neg (not_lt.2 (h i hi.1 hi.2))]
      rw [List.foldl_cons, hs]
      exact ih (fun j hj => hl j (by simp [hj]))
  refine key _ (fun i hi => ?_)
  rw [List.mem_range'] at hi
  obtain ⟨j, hj, rfl⟩ := hi
  omega

theorem order_sorted (n k : Nat) (a : Arr) (h : ∀ i, 1 ≤ i → i < n → (a (i - 1)).time ≤ (a i).time) : order n k a = a := by
  cases k with
  | zero => rfl
  | succ k =>
    unfold order
    rw [tryOnce_sorted n _ a h]
    rfl

/-- what the curve is fitted to -/
def fitted (o : Offset) (evs : List Ev) (zero : Ev) : List Ev := evs.map (correct o) ++ [correct o zero, correct o blank]

theorem store_some {cap : Nat} {evs : List Ev} {zero last : Ev} (h : evs.length + 1 < cap) :
    ∃ a, store cap evs zero last = some a ∧ (∀ i, i < evs.length → a i = evs.getD i blank) ∧ a evs.length = zero ∧ a (evs.length + 1) = blank := by
  refine ⟨put (put (fun i => evs.getD i blank) evs.length zero) (evs.length + 1 + 1) last, ?_, ?_, ?_, ?_⟩
  · unfold store
    simp only
    rw [if_neg (by omega), if_pos h]
  · intro i hi
    unfold put
    rw [if_neg (by omega), if_neg (by omega)]
  · unfold put
    rw [if_neg (by omega), if_pos rfl]
  · unfold put
    rw [if_neg (by omega), if_neg (by omega)]
    exact List.getD_eq_default _ _ (by omega)

theorem correct_off (o : Offset) (e : Ev) : (correct o e).off = e.off := by
  unfold correct
  cases e.kind <;> rfl

/-- A regular station is fitted to its corrected events, the one before the first, and an empty one in the place of the one after the last. -/
theorem station_eq {tol : ℚ} {cap : Nat} {evs : List Ev} {zero last : Ev} {o : Offset} (t : ℚ) (hc : evs.length + 1 < cap)
    (hr : Regular o evs zero last) : station tol cap evs zero last o t = some (fit tol (arrayOf (fitted o evs zero)) evs.length t) := by
  obtain ⟨a, ha, h1, h2, h3⟩ := store_some (zero := zero) (last := last) hc
  have hasc := hr.ascending
  have hclean := hr.clean
  have hsort : ∀ i, 1 ≤ i → i < evs.length → (correct o (a (i - 1))).time ≤ (correct o (a i)).time := by
    intro i hi hn
    rw [h1 i hn, h1 (i - 1) (by omega), List.getD_eq_getElem _ _ hn, List.getD_eq_getElem _ _ (by omega)]
    simp only [List.cons_append, List.map_cons, List.map_append, List.pairwise_cons, List.pairwise_append] at hasc
    have := hasc.2.1
    rw [List.pairwise_map, List.pairwise_iff_getElem] at this
    exact (this (i - 1) i (by omega) hn (by omega)).le
  have hev : events o evs.length a = fitted o evs zero := by
    unfold events
    rw [order_sorted]
    · unfold kept
      have hmap : (List.range (evs.length + 2)).map (fun i => if i < evs.length + 2 then correct o (a i) else a i) = fitted o evs zero := by
        apply List.ext_getElem
        · simp [fitted]
        · intro i hi hi'
          simp only [List.length_map, List.length_range] at hi
          simp only [List.getElem_map, List.getElem_range, if_pos hi]
          simp only [fitted, List.getElem_append, List.length_map]
          by_cases hlt : i < evs.length
          · rw [dif_pos hlt, h1 i hlt, List.getD_eq_getElem _ _ hlt, List.getElem_map]
          · rw [dif_neg hlt]
            rcases (by omega : i = evs.length ∨ i = evs.length + 1) with rfl | rfl
            · simp [h2]
            · simp [h3]
      rw [hmap]
      rw [List.filter_eq_self]
      intro e he
      unfold fitted at he
      simp only [List.mem_append, List.mem_map, List.mem_cons, List.not_mem_nil, or_false] at he
      have : e.off = false := by
        rcases he with ⟨x, hx, rfl⟩ | rfl | rfl
        · rw [correct_off]
          exact hclean x (by simp [hx])
        · rw [correct_off]
          exact hclean zero (by simp)
        · rw [correct_off]
          rfl
      simp [this]
    · intro i hi hn
      rw [if_pos (by omega), if_pos (by omega)]
      exact hsort i hi hn
  unfold station
  rw [ha, Option.map_some]
  simp only
  rw [hev]
  have hl : (fitted o evs zero).length - 2 = evs.length := by simp [fitted]
  rw [hl]

/-! ## Which events are around a time -/

theorem find_next {L : Arr} {m i : Nat} {t : ℚ} (h : ∀ j, j < i → (L j).time ≤ t) (hi : i < m) (ht : t < (L i).time) :
    (List.range m).find? (fun i => decide (t < (L i).time)) = some i := by
  rw [List.find?_range_eq_some]
  refine ⟨by simpa using ht, List.mem_range.2 hi, fun j hj => ?_⟩
  have := h j hj
  simp only [Bool.not_eq_true', decide_eq_false_iff_not, not_lt]
  exact this

theorem find_none {L : Arr} {m : Nat} {t : ℚ} (h : ∀ j, j < m → (L j).time ≤ t) : (List.range m).find? (fun i => decide (t < (L i).time)) = none := by
  rw [List.find?_eq_none]
  intro j hj
  have := h j (List.mem_range.1 hj)
  simpa using this

theorem times_le {L : Arr} {m : Nat} (hasc : ∀ i j, i < j → j < m → (L i).time < (L j).time) {i j : Nat} (hij : i ≤ j) (hj : j < m) :
    (L i).time ≤ (L j).time := by
  rcases Nat.lt_or_eq_of_le hij with h | h
  · exact (hasc i j h hj).le
  · rw [h]

theorem fit_between {tol : ℚ} {L : Arr} {m i : Nat} {t : ℚ} (hasc : ∀ i j, i < j → j < m → (L i).time < (L j).time) (hi : i + 1 < m)
    (h1 : (L i).time ≤ t) (h2 : t < (L (i + 1)).time) :
    fit tol L m t = (shape (L i) (L (i + 1))).map (fun s => curve tol (spans L m t) s t) := by
  have hf := find_next (m := m) (t := t) (L := L) (i := i + 1) (fun j hj => le_trans (times_le hasc (by omega : j ≤ i) (by omega)) h1) hi h2
  unfold fit segment
  rw [if_neg (fun hc => absurd hc.1 (not_lt.2 (le_trans (times_le hasc (Nat.zero_le i) (by omega)) h1))),
    if_neg (not_lt.2 (le_trans h2.le (times_le hasc (by omega : i + 1 ≤ m - 1) (by omega)))),
    if_neg (not_lt.2 (le_trans (times_le hasc (Nat.zero_le i) (by omega)) h1)), hf]
  simp

theorem fit_before {tol : ℚ} {L : Arr} {m : Nat} {t : ℚ} (hasc : ∀ i j, i < j → j < m → (L i).time < (L j).time) (hm : 0 < m)
    (h1 : (L m).time ≤ t) (h2 : t < (L 0).time) :
    fit tol L m t = (shape (L m) (L 0)).map (fun s => curve tol (spans L m t) s t) := by
  unfold fit segment
  rw [if_neg (fun hc => absurd hc.2 (not_lt.2 h1)),
    if_neg (not_lt.2 (le_trans h2.le (times_le hasc (Nat.zero_le (m - 1)) (by omega)))), if_pos h2]
  simp

theorem fit_after {tol : ℚ} {L : Arr} {m : Nat} {t : ℚ} (hasc : ∀ i j, i < j → j < m → (L i).time < (L j).time) (hm : 0 < m)
    (h1 : (L (m - 1)).time ≤ t) (h2 : (L (m + 1)).time < t) : fit tol L m t = none := by
  have hf := find_none (m := m) (t := t) (L := L) (fun j hj => le_trans (times_le hasc (by omega : j ≤ m - 1) (by omega)) h1)
  have h0 : ¬ (t < (L 0).time) := not_lt.2 (le_trans (times_le hasc (Nat.zero_le (m - 1)) (by omega)) h1)
  unfold fit segment
  rw [if_neg (fun hc => h0 hc.1), if_neg h0, if_pos h2, hf]
  split <;> rfl

theorem spans_between {L : Arr} {m i : Nat} {t : ℚ} (hasc : ∀ i j, i < j → j < m → (L i).time < (L j).time) (hi : i + 1 < m)
    (h1 : (L i).time ≤ t) (h2 : t < (L (i + 1)).time) :
    (spans L m t).t1 = (L i).time ∧ (spans L m t).v1 = (L i).val ∧ (spans L m t).t2 = (L (i + 1)).time ∧ (spans L m t).v2 = (L (i + 1)).val ∧
      (∀ j, i = j + 1 → (spans L m t).t0 = (L j).time ∧ (spans L m t).v0 = (L j).val) ∧
      (i + 2 < m → (spans L m t).t3 = (L (i + 2)).time ∧ (spans L m t).v3 = (L (i + 2)).val) := by
  have hf := find_next (m := m) (t := t) (L := L) (i := i + 1) (fun j hj => le_trans (times_le hasc (by omega : j ≤ i) (by omega)) h1) hi h2
  unfold spans
  rw [hf]
  cases i with
  | zero =>
    by_cases h : 0 + 1 + 1 < m
    · simp [h]
    · simp only [if_neg h]
      refine ⟨trivial, trivial, trivial, trivial, fun j hj => by omega, fun h' => absurd h' h⟩
  | succ i =>
    by_cases h : i + 1 + 1 + 1 < m
    · simp [h]
    · simp only [if_neg h]
      refine ⟨trivial, trivial, trivial, trivial, fun j hj => ?_, fun h' => absurd h' h⟩
      rw [show j = i by omega]
      exact ⟨rfl, rfl⟩

theorem shape_some {a b : Ev} (h : a.val = 0 ↔ b.val ≠ 0) : ∃ s, shape a b = some s := by
  unfold shape
  by_cases ha : a.val = 0
  · rw [if_pos ha, if_neg (h.1 ha)]
    exact ⟨_, rfl⟩
  · rw [if_neg ha]
    have : b.val = 0 := by
      by_contra hb
      exact ha (h.2 hb)
    rw [if_pos this]
    exact ⟨_, rfl⟩

theorem hermite_start (tol v1 s1 t1 v2 s2 t2 : ℚ) (htol : tol ≤ t2 - t1) (hpos : t1 < t2) : hermite tol v1 s1 t1 v2 s2 t2 t1 = v1 := by
  unfold hermite
  rw [if_neg (by rw [if_neg (by linarith)]; linarith)]
  simp

/-! ## C282 -/

theorem fitted_lt {o : Offset} {evs : List Ev} {zero : Ev} {i : Nat} (h : i < evs.length) : arrayOf (fitted o evs zero) i = correct o evs[i] := by
  unfold arrayOf fitted
  rw [List.getD_append _ _ _ _ (by simpa using h), List.getD_eq_getElem _ _ (by simpa using h), List.getElem_map]

theorem fitted_zero {o : Offset} {evs : List Ev} {zero : Ev} : arrayOf (fitted o evs zero) evs.length = correct o zero := by
  unfold arrayOf fitted
  rw [List.getD_append_right _ _ _ _ (by simp)]
  simp

theorem fitted_last {o : Offset} {evs : List Ev} {zero : Ev} : arrayOf (fitted o evs zero) (evs.length + 1) = correct o blank := by
  unfold arrayOf fitted
  rw [List.getD_append_right _ _ _ _ (by simp)]
  simp

theorem fitted_asc {o : Offset} {evs : List Ev} {zero last : Ev} (hr : Regular o evs zero last) :
    ∀ i j, i < j → j < evs.length → (arrayOf (fitted o evs zero) i).time < (arrayOf (fitted o evs zero) j).time := by
  intro i j hij hj
  rw [fitted_lt hj, fitted_lt (by omega)]
  have hasc := hr.ascending
  simp only [List.cons_append, List.map_cons, List.map_append, List.pairwise_cons, List.pairwise_append] at hasc
  have := hasc.2.1
  rw [List.pairwise_map, List.pairwise_iff_getElem] at this
  exact this i j (by omega) hj hij

theorem fitted_swing {o : Offset} {evs : List Ev} {zero last : Ev} (hr : Regular o evs zero last) {i : Nat} (hi : i + 1 < evs.length) :
    (correct o evs[i]).val = 0 ↔ (correct o evs[i + 1]).val ≠ 0 := by
  have h := hr.swing
  rw [List.isChain_iff_getElem] at h
  have := h (i + 1) (by simp; omega)
  simpa [List.getElem_append_left, hi, Nat.lt_of_succ_lt hi] using this

/-- Full claim: at every time from the event before the first to the event after the last there is a corrected current. -/
def C282_claim : Prop := ∀ (tol : ℚ) (cap : Nat) (evs : List Ev) (zero last : Ev) (o : Offset) (t : ℚ), evs.length + 1 < cap → evs ≠ [] →
  Regular o evs zero last → (correct o zero).time ≤ t → t < (correct o last).time → ∃ v, station tol cap evs zero last o t = some (some v)

/-- After the last event of the period there is none, whatever the event after it is, unless the times are near zero: the sample is left as it is in the
reference curve, with its time. -/
theorem C282_counterexample_every (tol : ℚ) (cap : Nat) (evs : List Ev) (zero last : Ev) (o : Offset) (t : ℚ) (hc : evs.length + 1 < cap) (hne : evs ≠ [])
    (hr : Regular o evs zero last) (ht : (correct o (evs.getLast hne)).time ≤ t) (h0 : o.minFlood < t) :
    station tol cap evs zero last o t = some none ∧
      ∀ (start step : ℚ) (i : Nat) (ref : ℚ × ℚ), start + (i : ℚ) * step = t → sample tol (arrayOf (fitted o evs zero)) evs.length start t step i ref = ref := by
  have hpos : 0 < evs.length := List.length_pos_of_ne_nil hne
  have hn : fit tol (arrayOf (fitted o evs zero)) evs.length t = none := by
    refine fit_after (fitted_asc hr) hpos ?_ ?_
    · rw [fitted_lt (by omega)]
      rw [List.getLast_eq_getElem] at ht
      exact ht
    · rw [fitted_last]
      simpa [correct, blank] using h0
  refine ⟨by rw [station_eq t hc hr, hn], fun start step i ref hs => ?_⟩
  unfold sample
  simp only [hs, lt_irrefl, if_false, hn]

example : station (1 / 100000) 14 day dayZero dayLast noOffset (110 : ℚ) = some none :=
  (C282_counterexample_every _ 14 day dayZero dayLast noOffset 110 (by decide) (by decide) (day_regular _ (Or.inl rfl)) (by decide +kernel)
    (by decide +kernel)).1

theorem C282_counterexample : ¬ C282_claim := by
  intro h
  obtain ⟨v, hv⟩ := h (1 / 100000) 14 day dayZero dayLast noOffset 110 (by decide) (by decide) (day_regular _ (Or.inl rfl)) (by decide +kernel)
    (by decide +kernel)
  rw [(C282_counterexample_every _ 14 day dayZero dayLast noOffset 110 (by decide) (by decide) (day_regular _ (Or.inl rfl)) (by decide +kernel)
    (by decide +kernel)).1] at hv
  simp at hv

/-- Missing from the full claim: times from the last event of the period on. -/
theorem C282_partial (tol : ℚ) (cap : Nat) (evs : List Ev) (zero last : Ev) (o : Offset) (t : ℚ) (hc : evs.length + 1 < cap) (hne : evs ≠ [])
    (hr : Regular o evs zero last) (h1 : (correct o zero).time ≤ t) (h2 : t < (correct o (evs.getLast hne)).time) :
    ∃ v, station tol cap evs zero last o t = some (some v) := by
  have hpos : 0 < evs.length := List.length_pos_of_ne_nil hne
  rw [station_eq t hc hr]
  by_cases h0 : t < (correct o evs[0]).time
  · rw [fit_before (fitted_asc hr) hpos (by rw [fitted_zero]; exact h1) (by rw [fitted_lt hpos]; exact h0), fitted_zero, fitted_lt hpos]
    have hs : (correct o zero).val = 0 ↔ (correct o evs[0]).val ≠ 0 := by
      have h := hr.swing
      rw [List.isChain_iff_getElem] at h
      have := h 0 (by simp)
      simpa [List.getElem_append_left, hpos] using this
    obtain ⟨s, hs⟩ := shape_some hs
    rw [hs]
    exact ⟨_, rfl⟩
  · have hex : ∃ i, i < evs.length ∧ t < (arrayOf (fitted o evs zero) i).time :=
      ⟨evs.length - 1, by omega, by rw [fitted_lt (by omega)]; rw [List.getLast_eq_getElem] at h2; exact h2⟩
    obtain ⟨hi, hti⟩ := Nat.find_spec hex
    have hmin : ∀ j, j < Nat.find hex → (arrayOf (fitted o evs zero) j).time ≤ t := by
      intro j hj
      by_contra hcon
      exact Nat.find_min hex hj ⟨by omega, lt_of_not_ge hcon⟩
    generalize Nat.find hex = k at hi hti hmin
    cases k with
    | zero =>
      rw [fitted_lt hpos] at hti
      exact absurd hti h0
    | succ i =>
      rw [fit_between (fitted_asc hr) hi (hmin i (by omega)) hti, fitted_lt hi, fitted_lt (Nat.lt_of_succ_lt hi)]
      obtain ⟨s, hs⟩ := shape_some (fitted_swing hr hi)
      rw [hs]
      exact ⟨_, rfl⟩

example : ∃ v, station (1 / 100000) 14 day dayZero dayLast noOffset (201 / 2) = some (some v) :=
  C282_partial _ 14 day dayZero dayLast _ _ (by decide) (by decide) (day_regular _ (Or.inl rfl)) (by decide +kernel) (by decide +kernel)

/-- At the corrected time of an event the current is the corrected one. -/
theorem C282_through (tol : ℚ) (cap : Nat) (evs : List Ev) (zero last : Ev) (o : Offset) (i : Nat) (hc : evs.length + 1 < cap) (hi : i + 1 < evs.length)
    (hr : Regular o evs zero last) (htol : tol ≤ (correct o evs[i + 1]).time - (correct o evs[i]).time) :
    station tol cap evs zero last o (correct o evs[i]).time = some (some (correct o evs[i]).val) := by
  have hlt := fitted_asc hr i (i + 1) (by omega) hi
  have hlt' := hlt
  rw [fitted_lt hi, fitted_lt (Nat.lt_of_succ_lt hi)] at hlt'
  have h1 : (arrayOf (fitted o evs zero) i).time ≤ (correct o evs[i]).time := by rw [fitted_lt (Nat.lt_of_succ_lt hi)]
  have h2 : (correct o evs[i]).time < (arrayOf (fitted o evs zero) (i + 1)).time := by rw [fitted_lt hi]; exact hlt'
  obtain ⟨a1, a2, a3, a4, -, -⟩ := spans_between (fitted_asc hr) hi h1 h2
  rw [fitted_lt (Nat.lt_of_succ_lt hi)] at a1 a2
  rw [fitted_lt hi] at a3 a4
  rw [station_eq _ hc hr, fit_between (fitted_asc hr) hi h1 h2, fitted_lt hi, fitted_lt (Nat.lt_of_succ_lt hi)]
  obtain ⟨s, hs⟩ := shape_some (fitted_swing hr hi)
  rw [hs, Option.map_some]
  unfold curve
  simp only [a1, a2, a3, a4]
  cases s <;> simp only [hermite_start _ _ _ _ _ _ _ htol hlt']

example : station (1 / 100000) 14 day dayZero dayLast ⟨1, 1, 1, 1, 1 / 2, 1 / 3⟩ 104 = some (some 1) := by
  have h := C282_through (1 / 100000) 14 day dayZero dayLast ⟨1, 1, 1, 1, 1 / 2, 1 / 3⟩ 0 (by decide) (by decide) (day_regular _ (Or.inr rfl))
    (by decide +kernel)
  have e1 : (correct ⟨1, 1, 1, 1, 1 / 2, 1 / 3⟩ day[0]).time = 104 := by decide +kernel
  have e2 : (correct ⟨1, 1, 1, 1, 1 / 2, 1 / 3⟩ day[0]).val = 1 := by decide +kernel
  rw [e1, e2] at h
  exact h

/-! ## C283: between slack water and a maximum -/

/-- the current between a maximum and the slack water after it, as a share of the maximum; `b` is the mean of the two chords over the first of them -/
def share (b x : ℚ) : ℚ := (1 - x) * (1 - x) * (1 + 2 * x) + b * (x * x) * (1 - x)

theorem share_nonneg {b x : ℚ} (hb : 0 ≤ b) (h0 : 0 ≤ x) (h1 : x ≤ 1) : 0 ≤ share b x := by
  unfold share
  have h2 : 0 ≤ 1 - x := by linarith
  positivity

theorem share_le {b x : ℚ} (hb : b ≤ 3) (h0 : 0 ≤ x) (h1 : x ≤ 1) : share b x ≤ 1 := by
  have h2 : 0 ≤ 1 - x := by linarith
  have e : 1 - share b x = x * x * (x + (3 - b) * (1 - x)) := by unfold share; ring
  have : 0 ≤ x * x * (x + (3 - b) * (1 - x)) := by
    have : 0 ≤ 3 - b := by linarith
    positivity
  linarith

theorem share_gt {b : ℚ} (hb : 3 < b) : ∃ x, 0 < x ∧ x < 1 ∧ 1 < share b x := by
  refine ⟨(b - 3) / (2 * (b - 2)), ?_, ?_, ?_⟩
  · apply div_pos <;> linarith
  · rw [div_lt_one (by linarith)]; linarith
  · have hb2 : 0 < b - 2 := by linarith
    have e : 1 - share b ((b - 3) / (2 * (b - 2))) = -(((b - 3) / (2 * (b - 2))) * ((b - 3) / (2 * (b - 2))) * ((b - 3) / 2)) := by
      unfold share
      field_simp
      ring
    have : 0 < ((b - 3) / (2 * (b - 2))) * ((b - 3) / (2 * (b - 2))) * ((b - 3) / 2) := by
      have : 0 < (b - 3) / (2 * (b - 2)) := by apply div_pos <;> linarith
      have : 0 < (b - 3) / 2 := by linarith
      positivity
    linarith

theorem hermite_falling {tol a s t1 t2 t b : ℚ} (htol : tol ≤ t2 - t1) (hlt : t1 < t2) (hs : s * (t2 - t1) = -(b * a)) :
    hermite tol a 0 t1 0 s t2 t = share b ((t - t1) / (t2 - t1)) * a := by
  unfold hermite share
  rw [if_neg (by rw [if_neg (by linarith)]; linarith)]
  simp only [hs]
  ring

theorem hermite_rising {tol a s t1 t2 t b : ℚ} (htol : tol ≤ t2 - t1) (hlt : t1 < t2) (hs : s * (t2 - t1) = b * a) :
    hermite tol 0 s t1 a 0 t2 t = share b ((t2 - t) / (t2 - t1)) * a := by
  unfold hermite share
  rw [if_neg (by rw [if_neg (by linarith)]; linarith)]
  have hx : (t2 - t) / (t2 - t1) = 1 - (t - t1) / (t2 - t1) := by
    have : t2 - t1 ≠ 0 := by linarith
    field_simp
    ring
  simp only [hs, hx]
  ring

/-- the exact curve from a maximum to slack water, `r` being the ratio of the next chord to this one -/
theorem falling_eq {tol : ℚ} {cap : Nat} {evs : List Ev} {zero last : Ev} {o : Offset} {i : Nat} {t r : ℚ} (hc : evs.length + 1 < cap)
    (hi : i + 2 < evs.length) (hr : Regular o evs zero last) (htol : tol ≤ (correct o evs[i + 1]).time - (correct o evs[i]).time)
    (hslack : (correct o evs[i + 1]).val = 0) (h1 : (correct o evs[i]).time ≤ t) (h2 : t < (correct o evs[i + 1]).time)
    (hratio : (correct o evs[i + 2]).val / ((correct o evs[i + 2]).time - (correct o evs[i + 1]).time) =
      -(r * ((correct o evs[i]).val / ((correct o evs[i + 1]).time - (correct o evs[i]).time)))) :
    station tol cap evs zero last o t = some (some (share ((1 + r) / 2)
      ((t - (correct o evs[i]).time) / ((correct o evs[i + 1]).time - (correct o evs[i]).time)) * (correct o evs[i]).val)) := by
  have hi1 : i + 1 < evs.length := by omega
  have hlt := fitted_asc hr i (i + 1) (by omega) hi1
  rw [fitted_lt hi1, fitted_lt (Nat.lt_of_succ_lt hi1)] at hlt
  have h1' : (arrayOf (fitted o evs zero) i).time ≤ t := by rw [fitted_lt (by omega)]; exact h1
  have h2' : t < (arrayOf (fitted o evs zero) (i + 1)).time := by rw [fitted_lt hi1]; exact h2
  obtain ⟨a1, a2, a3, a4, -, a6⟩ := spans_between (fitted_asc hr) hi1 h1' h2'
  obtain ⟨a7, a8⟩ := a6 hi
  rw [fitted_lt (by omega)] at a1 a2
  rw [fitted_lt hi1] at a3 a4
  rw [fitted_lt hi] at a7 a8
  have hmax : (correct o evs[i]).val ≠ 0 := fun h => (fitted_swing hr hi1).1 h hslack
  rw [station_eq _ hc hr, fit_between (fitted_asc hr) hi1 h1' h2', fitted_lt hi1, fitted_lt (Nat.lt_of_succ_lt hi1)]
  have hs : shape (correct o evs[i]) (correct o evs[i + 1]) = some .maxToMin := by
    unfold shape
    rw [if_neg hmax, if_pos hslack]
  rw [hs, Option.map_some]
  unfold curve
  simp only [a1, a2, a3, a4, a7, a8, hslack, sub_zero, hratio]
  rw [hermite_falling htol hlt]
  have : (correct o evs[i + 1]).time - (correct o evs[i]).time ≠ 0 := by linarith
  field_simp
  ring

/-- the exact curve from slack water to the maximum after it -/
theorem rising_eq {tol : ℚ} {cap : Nat} {evs : List Ev} {zero last : Ev} {o : Offset} {i : Nat} {t r : ℚ} (hc : evs.length + 1 < cap)
    (hi : i + 2 < evs.length) (hr : Regular o evs zero last) (htol : tol ≤ (correct o evs[i + 2]).time - (correct o evs[i + 1]).time)
    (hslack : (correct o evs[i + 1]).val = 0) (h1 : (correct o evs[i + 1]).time ≤ t) (h2 : t < (correct o evs[i + 2]).time)
    (hratio : (correct o evs[i]).val / ((correct o evs[i + 1]).time - (correct o evs[i]).time) =
      -(r * ((correct o evs[i + 2]).val / ((correct o evs[i + 2]).time - (correct o evs[i + 1]).time)))) :
    station tol cap evs zero last o t = some (some (share ((1 + r) / 2)
      (((correct o evs[i + 2]).time - t) / ((correct o evs[i + 2]).time - (correct o evs[i + 1]).time)) * (correct o evs[i + 2]).val)) := by
  have hi1 : i + 1 < evs.length := by omega
  have hlt := fitted_asc hr (i + 1) (i + 2) (by omega) hi
  rw [fitted_lt hi1, fitted_lt hi] at hlt
  have h1' : (arrayOf (fitted o evs zero) (i + 1)).time ≤ t := by rw [fitted_lt (by omega)]; exact h1
  have h2' : t < (arrayOf (fitted o evs zero) (i + 1 + 1)).time := by rw [fitted_lt hi]; exact h2
  obtain ⟨a1, a2, a3, a4, a5, -⟩ := spans_between (i := i + 1) (fitted_asc hr) hi h1' h2'
  obtain ⟨a7, a8⟩ := a5 i rfl
  rw [fitted_lt hi1] at a1 a2
  rw [fitted_lt hi] at a3 a4
  rw [fitted_lt (by omega)] at a7 a8
  have hmax : (correct o evs[i + 2]).val ≠ 0 := (fitted_swing (i := i + 1) hr hi).1 hslack
  rw [station_eq _ hc hr, fit_between (i := i + 1) (fitted_asc hr) hi h1' h2', fitted_lt hi1, fitted_lt hi]
  have hs : shape (correct o evs[i + 1]) (correct o evs[i + 1 + 1]) = some .minToMax := by
    unfold shape
    rw [if_pos hslack, if_neg hmax]
  rw [hs, Option.map_some]
  unfold curve
  have e : ((0 : ℚ) - (correct o evs[i]).val) / ((correct o evs[i + 1]).time - (correct o evs[i]).time) =
      r * ((correct o evs[i + 2]).val / ((correct o evs[i + 2]).time - (correct o evs[i + 1]).time)) := by
    rw [zero_sub, neg_div, hratio, neg_neg]
  simp only [a1, a2, a3, a4, a7, a8, hslack, sub_zero, e]
  rw [hermite_rising htol hlt]
  have : (correct o evs[i + 2]).time - (correct o evs[i + 1]).time ≠ 0 := by linarith
  field_simp
  ring

/-- Full claim: between a maximum and the slack water after it the current is a share of the maximum between none and all of it. -/
def C283_claim : Prop := ∀ (tol : ℚ) (cap : Nat) (evs : List Ev) (zero last : Ev) (o : Offset) (i : Nat) (t : ℚ) (_hc : evs.length + 1 < cap)
  (hi : i + 2 < evs.length) (_hr : Regular o evs zero last), tol ≤ (correct o evs[i + 1]).time - (correct o evs[i]).time →
  (correct o evs[i + 1]).val = 0 → (correct o evs[i]).val * (correct o evs[i + 2]).val < 0 →
  (correct o evs[i]).time ≤ t → t < (correct o evs[i + 1]).time →
  ∃ q, 0 ≤ q ∧ q ≤ 1 ∧ station tol cap evs zero last o t = some (some (q * (correct o evs[i]).val))

/-- Whenever the next chord is more than five times as steep as this one, the current exceeds the maximum at some time between it and slack water. -/
theorem C283_counterexample_every (tol : ℚ) (cap : Nat) (evs : List Ev) (zero last : Ev) (o : Offset) (i : Nat) (r : ℚ) (hc : evs.length + 1 < cap)
    (hi : i + 2 < evs.length) (hr : Regular o evs zero last) (htol : tol ≤ (correct o evs[i + 1]).time - (correct o evs[i]).time)
    (hslack : (correct o evs[i + 1]).val = 0) (h5 : 5 < r)
    (hratio : (correct o evs[i + 2]).val / ((correct o evs[i + 2]).time - (correct o evs[i + 1]).time) =
      -(r * ((correct o evs[i]).val / ((correct o evs[i + 1]).time - (correct o evs[i]).time)))) :
    ∃ t q, (correct o evs[i]).time < t ∧ t < (correct o evs[i + 1]).time ∧ 1 < q ∧
      station tol cap evs zero last o t = some (some (q * (correct o evs[i]).val)) := by
  obtain ⟨x, hx0, hx1, hx⟩ := share_gt (b := (1 + r) / 2) (by linarith)
  have hi1 : i + 1 < evs.length := by omega
  have hlt := fitted_asc hr i (i + 1) (by omega) hi1
  rw [fitted_lt hi1, fitted_lt (Nat.lt_of_succ_lt hi1)] at hlt
  have hd : 0 < (correct o evs[i + 1]).time - (correct o evs[i]).time := by linarith
  have ht1 : (correct o evs[i]).time < (correct o evs[i]).time + x * ((correct o evs[i + 1]).time - (correct o evs[i]).time) := by
    have := mul_pos hx0 hd
    linarith
  have ht2 : (correct o evs[i]).time + x * ((correct o evs[i + 1]).time - (correct o evs[i]).time) < (correct o evs[i + 1]).time := by
    have := mul_lt_mul_of_pos_right hx1 hd
    linarith
  refine ⟨_, _, ht1, ht2, hx, ?_⟩
  rw [falling_eq hc hi hr htol hslack ht1.le ht2 hratio]
  have : ((correct o evs[i]).time + x * ((correct o evs[i + 1]).time - (correct o evs[i]).time) - (correct o evs[i]).time) /
      ((correct o evs[i + 1]).time - (correct o evs[i]).time) = x := by
    have := hd.ne'
    field_simp
    ring
  rw [this]

/-- a weak flood before a strong ebb -/
def uneven : List Ev := [⟨103, 1 / 5, .maxFlood, false⟩, ⟨106, 0, .minEbb, false⟩, ⟨109, -2, .maxEbb, false⟩]

theorem uneven_regular : Regular noOffset uneven dayZero dayLast := ⟨by decide +kernel, by decide +kernel, by decide +kernel⟩

theorem C283_counterexample : ¬ C283_claim := by
  intro h
  obtain ⟨t, q, h1, h2, hq, hs⟩ := C283_counterexample_every (1 / 100000) 14 uneven dayZero dayLast noOffset 0 10 (by decide) (by decide) uneven_regular
    (by decide +kernel) (by decide +kernel) (by norm_num) (by decide +kernel)
  obtain ⟨q', h0', h1', hs'⟩ := h (1 / 100000) 14 uneven dayZero dayLast noOffset 0 t (by decide) (by decide) uneven_regular (by decide +kernel)
    (by decide +kernel) (by decide +kernel) h1.le h2
  rw [hs] at hs'
  have e : (correct noOffset uneven[0]).val = 1 / 5 := by decide +kernel
  rw [e] at hs'
  have : q * (1 / 5) = q' * (1 / 5) := Option.some.inj (Option.some.inj hs')
  linarith

/-- Missing from the full claim: a next chord more than five times as steep as this one. -/
theorem C283_partial (tol : ℚ) (cap : Nat) (evs : List Ev) (zero last : Ev) (o : Offset) (i : Nat) (t r : ℚ) (hc : evs.length + 1 < cap)
    (hi : i + 2 < evs.length) (hr : Regular o evs zero last) (htol : tol ≤ (correct o evs[i + 1]).time - (correct o evs[i]).time)
    (hslack : (correct o evs[i + 1]).val = 0) (h1 : (correct o evs[i]).time ≤ t) (h2 : t < (correct o evs[i + 1]).time) (h0 : 0 ≤ r) (h5 : r ≤ 5)
    (hratio : (correct o evs[i + 2]).val / ((correct o evs[i + 2]).time - (correct o evs[i + 1]).time) =
      -(r * ((correct o evs[i]).val / ((correct o evs[i + 1]).time - (correct o evs[i]).time)))) :
    ∃ q, 0 ≤ q ∧ q ≤ 1 ∧ station tol cap evs zero last o t = some (some (q * (correct o evs[i]).val)) := by
  have hx0 : 0 ≤ (t - (correct o evs[i]).time) / ((correct o evs[i + 1]).time - (correct o evs[i]).time) := div_nonneg (by linarith) (by linarith)
  have hx1 : (t - (correct o evs[i]).time) / ((correct o evs[i + 1]).time - (correct o evs[i]).time) ≤ 1 := by
    rw [div_le_one (by linarith)]
    linarith
  exact ⟨_, share_nonneg (by linarith) hx0 hx1, share_le (by linarith) hx0 hx1, falling_eq hc hi hr htol hslack h1 h2 hratio⟩

/-- The same after slack water, with the chord before it. -/
theorem C283_rising (tol : ℚ) (cap : Nat) (evs : List Ev) (zero last : Ev) (o : Offset) (i : Nat) (t r : ℚ) (hc : evs.length + 1 < cap)
    (hi : i + 2 < evs.length) (hr : Regular o evs zero last) (htol : tol ≤ (correct o evs[i + 2]).time - (correct o evs[i + 1]).time)
    (hslack : (correct o evs[i + 1]).val = 0) (h1 : (correct o evs[i + 1]).time ≤ t) (h2 : t < (correct o evs[i + 2]).time) (h0 : 0 ≤ r) (h5 : r ≤ 5)
    (hratio : (correct o evs[i]).val / ((correct o evs[i + 1]).time - (correct o evs[i]).time) =
      -(r * ((correct o evs[i + 2]).val / ((correct o evs[i + 2]).time - (correct o evs[i + 1]).time)))) :
    ∃ q, 0 ≤ q ∧ q ≤ 1 ∧ station tol cap evs zero last o t = some (some (q * (correct o evs[i + 2]).val)) := by
  have hx0 : 0 ≤ ((correct o evs[i + 2]).time - t) / ((correct o evs[i + 2]).time - (correct o evs[i + 1]).time) := div_nonneg (by linarith) (by linarith)
  have hx1 : ((correct o evs[i + 2]).time - t) / ((correct o evs[i + 2]).time - (correct o evs[i + 1]).time) ≤ 1 := by
    rw [div_le_one (by linarith)]
    linarith
  exact ⟨_, share_nonneg (by linarith) hx0 hx1, share_le (by linarith) hx0 hx1, rising_eq hc hi hr htol hslack h1 h2 hratio⟩

example : ∃ q, 0 ≤ q ∧ q ≤ 1 ∧ station (1 / 100000) 14 day dayZero dayLast noOffset 105 = some (some (q * (correct noOffset day[0]).val)) :=
  C283_partial _ 14 day dayZero dayLast noOffset 0 105 (3 / 2) (by decide) (by decide) (day_regular _ (Or.inl rfl)) (by decide +kernel) (by decide +kernel)
    (by decide +kernel) (by decide +kernel) (by norm_num) (by norm_num) (by decide +kernel)

example : ∃ q, 0 ≤ q ∧ q ≤ 1 ∧ station (1 / 100000) 14 day dayZero dayLast noOffset 107 = some (some (q * (correct noOffset day[2]).val)) :=
  C283_rising _ 14 day dayZero dayLast noOffset 0 107 (2 / 3) (by decide) (by decide) (day_regular _ (Or.inl rfl)) (by decide +kernel) (by decide +kernel)
    (by decide +kernel) (by decide +kernel) (by norm_num) (by norm_num) (by decide +kernel)

/-! ## C284: events that the corrections put out of order -/

/-- what the fix cannot change: the value and the label -/
def tag (e : Ev) : ℚ × Kind := (e.val, e.kind)

/-- the events of the period that are left -/
def remaining (n : Nat) (a : Arr) : List Ev := ((List.range n).map a).filter (fun e => !e.off)

/-- Full claim: the events that are left after the fix follow each other in time. -/
def C284_claim : Prop := ∀ (n : Nat) (a : Arr), (∀ i, (a i).off = false) → ((remaining n (order n 5 a)).map Ev.time).Pairwise (· ≤ ·)

/-- six events in order, of the kinds of a tide, with the corrections below -/
def tangled : List Ev := [⟨5, 0, .minFlood, false⟩, ⟨9, 2, .maxFlood, false⟩, ⟨11, 0, .minEbb, false⟩, ⟨16, -2, .maxEbb, false⟩,
  ⟨21, 0, .minFlood, false⟩, ⟨25, 2, .maxFlood, false⟩]

def tangledOffset : Offset := ⟨-9, 8, 9, 3, 1, 1⟩

def tangledArr : Arr := fun i => correct tangledOffset (tangled.getD i blank)

theorem C284_counterexample : ¬ C284_claim := by
  intro h
  have hoff : ∀ i, (tangledArr i).off = false := by
    intro i
    unfold tangledArr
    rw [correct_off]
    match i with
    | 0 | 1 | 2 | 3 | 4 | 5 => rfl
    | n + 6 => rfl
  have := h 6 tangledArr hoff
  revert this
  decide +kernel

theorem fixPair_tag (fx : Bool) (s : Arr × Bool) (i j : Nat) : tag ((fixPair fx s i).1 j) = tag (s.1 j) := by
  unfold fixPair
  split
  · split <;> (simp only [put]; split <;> [skip; split]) <;> simp_all [tag]
  · rfl

theorem foldl_tag (fx : Bool) (l : List Nat) : ∀ (s : Arr × Bool) (j : Nat), tag ((l.foldl (fixPair fx) s).1 j) = tag (s.1 j) := by
  induction l with
  | nil => intro s j; rfl
  | cons i l ih =>
    intro s j
    rw [List.foldl_cons, ih, fixPair_tag]

/-- Values and labels stay as they are, whatever the order. -/
theorem C284_values (n k : Nat) : ∀ (a : Arr) (j : Nat), tag (order n k a j) = tag (a j) := by
  induction k with
  | zero => intro a j; rfl
  | succ k ih =>
    intro a j
    unfold order
    simp only
    split
    · rw [ih]
      exact foldl_tag _ _ _ _
    · exact foldl_tag _ _ _ _

/-- Events in order are left alone. -/
theorem C284_sorted (n k : Nat) (a : Arr) (h : ∀ i, 1 ≤ i → i < n → (a (i - 1)).time ≤ (a i).time) : order n k a = a := order_sorted n k a h

/-- a pass that fixes: the second component tells of any change -/
theorem fixing_false (l : List Nat) : ∀ (s : Arr × Bool), (l.foldl (fixPair true) s).2 = false →
    l.foldl (fixPair true) s = s ∧ ∀ i ∈ l, (s.1 (i - 1)).time ≤ (s.1 i).time := by
  induction l with
  | nil => intro s _; simp
  | cons i l ih =>
    intro s hs
    rw [List.foldl_cons] at hs
    obtain ⟨h1, h2⟩ := ih _ hs
    by_cases hlt : (s.1 i).time < (s.1 (i - 1)).time
    · have : (fixPair true s i).2 = true := by
        unfold fixPair
        rw [if_pos hlt, if_pos rfl]
      rw [h1, this] at hs
      exact absurd hs (by simp)
    · have e : fixPair true s i = s := by
        unfold fixPair
        rw [if_neg hlt]
      rw [e] at h1 h2
      rw [List.foldl_cons, e, h1]
      refine ⟨rfl, fun j hj => ?_⟩
      rcases List.mem_cons.1 hj with rfl | hj
      · exact not_lt.1 hlt
      · exact h2 j hj

theorem marking_time (s : Arr × Bool) (i j : Nat) : ((fixPair false s i).1 j).time = (s.1 j).time := by
  unfold fixPair
  split
  · rw [if_neg (by simp)]
    simp only [put]
    split
    · simp_all
    · split <;> simp_all
  · rfl

theorem marking_off (s : Arr × Bool) (i j : Nat) (h : (s.1 j).off = true) : ((fixPair false s i).1 j).off = true := by
  unfold fixPair
  split
  · rw [if_neg (by simp)]
    simp only [put]
    split
    · rfl
    · split
      · rfl
      · exact h
  · exact h

theorem marking_snd (s : Arr × Bool) (i : Nat) : (fixPair false s i).2 = s.2 := by
  unfold fixPair
  split
  · rw [if_neg (by simp)]
  · rfl

/-- a pass that marks -/
theorem marking (l : List Nat) : ∀ (s : Arr × Bool), (l.foldl (fixPair false) s).2 = s.2 ∧
    (∀ j, ((l.foldl (fixPair false) s).1 j).time = (s.1 j).time) ∧ (∀ j, (s.1 j).off = true → ((l.foldl (fixPair false) s).1 j).off = true) ∧
    ∀ i ∈ l, 1 ≤ i → (s.1 i).time < (s.1 (i - 1)).time →
      ((l.foldl (fixPair false) s).1 i).off = true ∧ ((l.foldl (fixPair false) s).1 (i - 1)).off = true := by
  induction l with
  | nil => intro s; simp
  | cons i l ih =>
    intro s
    obtain ⟨h1, h2, h3, h4⟩ := ih (fixPair false s i)
    rw [List.foldl_cons]
    refine ⟨by rw [h1, marking_snd], fun j => by rw [h2, marking_time], fun j hj => h3 j (marking_off s i j hj), fun j hj hj1 hlt => ?_⟩
    rcases List.mem_cons.1 hj with rfl | hj
    · have hm : ((fixPair false s j).1 j).off = true ∧ ((fixPair false s j).1 (j - 1)).off = true := by
        unfold fixPair
        rw [if_pos hlt, if_neg (by simp)]
        simp only [put]
        rw [if_neg (by omega : ¬ j = j - 1)]
        simp
      exact ⟨h3 _ hm.1, h3 _ hm.2⟩
    · exact h4 j hj hj1 (by rw [marking_time, marking_time]; exact hlt)

/-- Missing from the full claim: events that come next to each other only because the ones between them are left out. After the fix neighbours are in order,
or both are left out. -/
theorem C284_partial (n k : Nat) : ∀ (a : Arr) (i : Nat), 1 ≤ i → i < n →
    (order n (k + 1) a (i - 1)).time ≤ (order n (k + 1) a i).time ∨ ((order n (k + 1) a i).off = true ∧ (order n (k + 1) a (i - 1)).off = true) := by
  have hmem : ∀ i, 1 ≤ i → i < n → i ∈ List.range' 1 (n - 1) := by
    intro i h1 h2
    rw [List.mem_range'_1]
    omega
  have hmark : ∀ (a : Arr) (i : Nat), 1 ≤ i → i < n →
      ((tryOnce n false a).1 (i - 1)).time ≤ ((tryOnce n false a).1 i).time ∨
        (((tryOnce n false a).1 i).off = true ∧ ((tryOnce n false a).1 (i - 1)).off = true) := by
    intro a i h1 h2
    obtain ⟨-, ht, -, hm⟩ := marking (List.range' 1 (n - 1)) (a, false)
    by_cases hlt : (a i).time < (a (i - 1)).time
    · exact Or.inr (hm i (hmem i h1 h2) h1 hlt)
    · left
      unfold tryOnce
      rw [ht, ht]
      exact not_lt.1 hlt
  induction k with
  | zero =>
    intro a i h1 h2
    unfold order
    simp only [Nat.lt_irrefl, decide_false, Bool.false_and]
    have : (tryOnce n false a).2 = false := (marking (List.range' 1 (n - 1)) (a, false)).1
    rw [if_neg (by rw [this]; simp)]
    exact hmark a i h1 h2
  | succ k ih =>
    intro a i h1 h2
    unfold order
    simp only
    by_cases hn : 2 < n
    · have hfx : (decide (0 < k + 1) && decide (2 < n)) = true := by simp [hn]
      rw [hfx]
      by_cases hc : (tryOnce n true a).2 = true
      · rw [if_pos hc]
        exact ih _ i h1 h2
      · rw [if_neg hc]
        obtain ⟨e, ho⟩ := fixing_false (List.range' 1 (n - 1)) (a, false) (by simpa [tryOnce] using hc)
        left
        unfold tryOnce
        rw [e]
        exact ho i (hmem i h1 h2)
    · have hfx : (decide (0 < k + 1) && decide (2 < n)) = false := by simp [hn]
      rw [hfx]
      have : (tryOnce n false a).2 = false := (marking (List.range' 1 (n - 1)) (a, false)).1
      rw [if_neg (by rw [this]; simp)]
      exact hmark a i h1 h2

example : (order 6 5 tangledArr 1).time = 17 ∧ (order 6 5 tangledArr 2).off = true ∧ (order 6 5 tangledArr 4).time < 17 := by decide +kernel

/-- Two maxima that the corrections bring into the wrong order by `d` are set one minute apart around their mean time, and nothing is left out. -/
theorem C284_minute (n : Nat) (a : Arr) (i : Nat) (hi : 1 ≤ i) (hin : i < n) (hn : 2 < n) (hwrong : (a i).time < (a (i - 1)).time)
    (hothers : ∀ j, 1 ≤ j → j < n → j ≠ i → (a (j - 1)).time ≤ (a j).time)
    (hbefore : ∀ j, j < n → j + 1 < i → (a j).time ≤ ((a i).time + (a (i - 1)).time) / 2 - 1 / 120)
    (hafter : ∀ j, j < n → i < j → ((a i).time + (a (i - 1)).time) / 2 + 1 / 120 ≤ (a j).time) :
    (order n 5 a (i - 1)).time = ((a i).time + (a (i - 1)).time) / 2 - 1 / 120 ∧
      (order n 5 a i).time = ((a i).time + (a (i - 1)).time) / 2 + 1 / 120 ∧ (∀ j, j ≠ i → j ≠ i - 1 → order n 5 a j = a j) ∧
      ∀ j, (order n 5 a j).off = (a j).off := by
  set avg := ((a i).time + (a (i - 1)).time) / 2 with havg
  set b : Arr := put (put a (i - 1) { a (i - 1) with time := avg - 1 / 120 }) i { a i with time := avg + 1 / 120 } with hb
  have hbi : b i = { a i with time := avg + 1 / 120 } := by simp [hb, put]
  have hbp : b (i - 1) = { a (i - 1) with time := avg - 1 / 120 } := by
    rw [hb]
    simp only [put]
    rw [if_neg (by omega), if_pos trivial]
  have hbo : ∀ j, j ≠ i → j ≠ i - 1 → b j = a j := by
    intro j h1 h2
    rw [hb]
    simp only [put]
    rw [if_neg h1, if_neg h2]
  have hsorted : ∀ j, 1 ≤ j → j < n → (b (j - 1)).time ≤ (b j).time := by
    intro j h1 h2
    by_cases e1 : j = i
    · subst e1
      rw [hbi, hbp]
      simp only
      linarith
    · by_cases e2 : j - 1 = i
      · rw [e2, hbi, hbo j e1 (by omega)]
        exact hafter j h2 (by omega)
      · by_cases e3 : j = i - 1
        · subst e3
          rw [hbp, hbo _ (by omega) (by omega)]
          exact hbefore _ (by omega) (by omega)
        · rw [hbo j e1 e3, hbo (j - 1) e2 (by omega)]
          exact hothers j h1 h2 e1
  have htry : (tryOnce n true a) = (b, true) := by
    unfold tryOnce
    have hsplit : List.range' 1 (n - 1) = List.range' 1 (i - 1) ++ i :: List.range' (i + 1) (n - 1 - i) := by
      have : n - 1 = (i - 1) + ((n - 1 - i) + 1) := by omega
      rw [this, ← List.range'_append_1, List.range'_succ]
      congr 2
      · omega
      · congr 1 <;> omega
    have key1 : ∀ l : List Nat, (∀ j ∈ l, 1 ≤ j ∧ j < i) → l.foldl (fixPair true) (a, false) = (a, false) := by
      intro l
      induction l with
      | nil => intro _; rfl
      | cons j l ih =>
        intro hl
        have hj := hl j (by simp)
        have e : fixPair true (a, false) j = (a, false) := by
          unfold fixPair
          rw [if_neg (not_lt.2 (hothers j hj.1 (by omega) (by omega)))]
        rw [List.foldl_cons, e]
        exact ih (fun k hk => hl k (by simp [hk]))
    have key2 : ∀ l : List Nat, (∀ j ∈ l, 1 ≤ j ∧ j < n) → l.foldl (fixPair true) (b, true) = (b, true) := by
      intro l
      induction l with
      | nil => intro _; rfl
      | cons j l ih =>
        intro hl
        have hj := hl j (by simp)
        have e : fixPair true (b, true) j = (b, true) := by
          unfold fixPair
          rw [if_neg (not_lt.2 (hsorted j hj.1 hj.2))]
        rw [List.foldl_cons, e]
        exact ih (fun k hk => hl k (by simp [hk]))
    have step : fixPair true (a, false) i = (b, true) := by
      unfold fixPair
      rw [if_pos hwrong, if_pos rfl]
    rw [hsplit, List.foldl_append, key1, List.foldl_cons, step, key2]
    · intro j hj
      rw [List.mem_range'_1] at hj
      omega
    · intro j hj
      rw [List.mem_range'_1] at hj
      omega
  have hord : order n 5 a = b := by
    unfold order
    have hfx : (decide (0 < 4) && decide (2 < n)) = true := by simp [hn]
    simp only [hfx, htry]
    exact order_sorted n 4 b hsorted
  rw [hord]
  refine ⟨by rw [hbp], by rw [hbi], hbo, fun j => ?_⟩
  by_cases e1 : j = i
  · subst e1; rw [hbi]
  · by_cases e2 : j = i - 1
    · subst e2; rw [hbp]
    · rw [hbo j e1 e2]

/-- a slack water that comes after its ebb -/
def swapped : Arr := fun i => ([⟨103, 2, .maxFlood, false⟩, ⟨107, 0, .minEbb, false⟩, ⟨106, -3, .maxEbb, false⟩] : List Ev).getD i blank

example : (order 3 5 swapped 1).time = 213 / 2 - 1 / 120 ∧ (order 3 5 swapped 2).time = 213 / 2 + 1 / 120 := by
  have h := C284_minute 3 swapped 2 (by decide) (by decide) (by decide) (by decide +kernel)
    (fun j h1 h2 h3 => by rcases (by omega : j = 1) with rfl; decide +kernel)
    (fun j h1 h2 => by rcases (by omega : j = 0) with rfl; decide +kernel) (fun j h1 h2 => by omega)
  have e : (swapped 2).time + (swapped (2 - 1)).time = 213 := by decide +kernel
  rw [e] at h
  exact ⟨h.1, h.2.1⟩

/-- What the corrections of a station do: none at all without corrections; otherwise times are moved by the correction of the kind of the event, the
strengths of floods and ebbs multiplied, slack water that is moved is 0, and the kind of an event stays. -/
theorem C282_corrected (o : Offset) (e : Ev) :
    correct noOffset e = e ∧ (correct o e).kind = e.kind ∧ (correct o e).off = e.off ∧
    (e.kind = .maxFlood → (correct o e).time = e.time + o.maxFlood ∧ (correct o e).val = e.val * o.floodRatio) ∧
    (e.kind = .maxEbb → (correct o e).time = e.time + o.maxEbb ∧ (correct o e).val = e.val * o.ebbRatio) ∧
    (e.kind = .minFlood → (correct o e).time = e.time + o.minFlood ∧ ((correct o e).time ≠ e.time → (correct o e).val = 0) ∧
      ((correct o e).time = e.time → (correct o e).val = e.val)) ∧
    (e.kind = .minEbb → (correct o e).time = e.time + o.minEbb ∧ ((correct o e).time ≠ e.time → (correct o e).val = 0) ∧
      ((correct o e).time = e.time → (correct o e).val = e.val)) := by
  obtain ⟨t, v, k, f⟩ := e
  cases k <;> simp [correct, noOffset] <;> exact ⟨fun h h' => absurd h' h, fun h h' => absurd h h'⟩

/-- Where there is no room for the two extra events, the prediction ends with an error, and only then. -/
theorem C282_room (cap : Nat) (evs : List Ev) (zero last : Ev) : store cap evs zero last = none ↔ cap ≤ evs.length + 1 := by
  unfold store
  simp only
  split
  · simp; omega
  · simp; omega

/-- Between an extreme of the flood and one of the ebb with no slack on record the curve goes from one to the other and never beyond them. -/
theorem C283_extremes (tol : ℚ) (f : Four) (a b : Ev) (s : Shape) (t : ℚ) (ha : a.val ≠ 0) (hb : b.val ≠ 0)
    (hk : (a.kind = .maxFlood ∧ b.kind = .maxEbb) ∨ (a.kind = .maxEbb ∧ b.kind = .maxFlood)) (hs : shape a b = some s)
    (htol : tol ≤ f.t2 - f.t1) (h12 : f.t1 < f.t2) (h1 : f.t1 ≤ t) (h2 : t ≤ f.t2) :
    ∃ q, 0 ≤ q ∧ q ≤ 1 ∧ curve tol f s t = f.v1 + q * (f.v2 - f.v1) := by
  have hs' : s = .maxToMax := by
    unfold shape at hs
    rw [if_neg ha, if_neg hb] at hs
    rcases hk with ⟨h, h'⟩ | ⟨h, h'⟩ <;> rw [h, h'] at hs <;> simpa using hs.symm
  subst hs'
  have hx0 : 0 ≤ (t - f.t1) / (f.t2 - f.t1) := div_nonneg (by linarith) (by linarith)
  have hx1 : (t - f.t1) / (f.t2 - f.t1) ≤ 1 := by rw [div_le_one (by linarith)]; linarith
  refine ⟨3 * ((t - f.t1) / (f.t2 - f.t1)) ^ 2 - 2 * ((t - f.t1) / (f.t2 - f.t1)) ^ 3, ?_, ?_, ?_⟩
  · nlinarith [sq_nonneg ((t - f.t1) / (f.t2 - f.t1)), mul_nonneg (sq_nonneg ((t - f.t1) / (f.t2 - f.t1))) (sub_nonneg.2 hx1)]
  · nlinarith [sq_nonneg (1 - (t - f.t1) / (f.t2 - f.t1)), mul_nonneg (sq_nonneg (1 - (t - f.t1) / (f.t2 - f.t1))) hx0]
  · simp only [curve, hermite]
    rw [if_neg (show ¬ f.t2 - f.t1 < 0 by linarith), if_neg (by linarith)]
    ring

/-- Two floods, or two ebbs, one after the other: the curve need not be level at them. -/
theorem C283_alike (a b : Ev) (ha : a.val ≠ 0) (hb : b.val ≠ 0) (hk : a.kind = b.kind) (hm : a.kind = .maxFlood ∨ a.kind = .maxEbb) :
    shape a b = some .free := by
  unfold shape
  rw [if_neg ha, if_neg hb, ← hk]
  rcases hm with h | h <;> rw [h]

/-- No value is given for a time after the end: it is given at the end instead. -/
theorem C282_until (tol : ℚ) (L : Arr) (m : Nat) (start stop step : ℚ) (i : Nat) (ref : ℚ × ℚ) (h : ref.1 ≤ stop) :
    (sample tol L m start stop step i ref).1 ≤ stop ∧
      (∀ v, fit tol L m (min stop (start + i * step)) = some v → sample tol L m start stop step i ref = (min stop (start + i * step), v)) := by
  have ht : (if stop < start + i * step then stop else start + i * step) = min stop (start + i * step) := by
    split
    · rw [min_eq_left (by linarith)]
    · rw [min_eq_right (by linarith)]
  unfold sample
  simp only [ht]
  constructor
  · cases fit tol L m (min stop (start + i * step)) with
    | none => exact h
    | some v => exact min_le_left _ _
  · intro v hv
    rw [hv]

end Verif.Shio.StationCur
