import Verif.Output.Props
import Verif.Output.KmzModel

/-!
# C175, C176: files for Google Earth
-/
namespace Verif.Output

/-- A document: header, the steps `ns`, footer. -/
def document (ns : List Nat) : List Part := .header :: (ns.map .step ++ [.footer])

/-- The steps below `m` that are due. -/
def dueBelow (due : Nat → Bool) (m : Nat) : List Nat := (List.range m).filter due

theorem dueBelow_succ (due : Nat → Bool) (m : Nat) :
    dueBelow due (m + 1) = dueBelow due m ++ (if due m then [m] else []) := by
  unfold dueBelow
  rw [List.range_succ, List.filter_append]
  by_cases h : due m = true <;> simp [h]

/-- Steps before the last one only add to the text. -/
theorem steps_kml (due : Nat → Bool) (L : Nat) (s : Kmz) (n k : Nat) (h : n + k ≤ L) :
    Kmz.steps due L s n k = { s with kml := s.kml ++ (((List.range k).map (n + ·)).filter due).map .step } := by
  induction k generalizing s n with
  | zero => simp [Kmz.steps]
  | succ k ih =>
    rw [Kmz.steps, ih _ _ (by omega)]
    have hn : decide (n = L) = false := by simp; omega
    have e : (List.range (k + 1)).map (n + ·) = n :: (List.range k).map (n + 1 + ·) := by
      rw [List.range_succ_eq_map]
      simp only [List.map_cons, List.map_map, Nat.add_zero]
      congr 1
      apply List.map_congr_left
      intro a _
      simp only [Function.comp_apply]; omega
    rw [e]
    cases hd : due n <;> simp [Kmz.write, hn, hd]

theorem steps_append (due : Nat → Bool) (L : Nat) (s : Kmz) (n k : Nat) :
    Kmz.steps due L s n (k + 1) =
      (Kmz.steps due L s n k).write (n + k) (due (n + k)) (decide (n + k = L)) := by
  induction k generalizing s n with
  | zero => rfl
  | succ k ih =>
    rw [Kmz.steps, ih]
    rw [show Kmz.steps due L s n (k + 1) = Kmz.steps due L (s.write n (due n) (decide (n = L))) (n + 1) k from rfl]
    rw [show n + 1 + k = n + (k + 1) by omega]

theorem run_steps (due : Nat → Bool) (L m : Nat) (s : Kmz) (h : m ≤ L) :
    Kmz.steps due L s.rewind.prepare 0 m = ⟨.header :: (dueBelow due m).map .step, none, false⟩ := by
  rw [steps_kml due L _ 0 m (by omega)]
  simp [Kmz.rewind, Kmz.prepare, dueBelow]

/-- **C175**, as one would expect: whatever runs have been made, the file is one document with the steps that were due. -/
def C175_claim : Prop := ∀ (due : Nat → Bool) (L L' : Nat) (s : Kmz), L < L' →
  (Kmz.fullRun due L s).file = some (document (dueBelow due (L + 1))) ∧
  (∀ m, 1 ≤ m → m ≤ L → (Kmz.failedRun due L m s).file = some (document (dueBelow due m))) ∧
  (Kmz.continued due L L' s).file = some (document (dueBelow due (L' + 1)))

/-- A run that is continued: the steps after the first end stand behind the footer, and there is another footer. -/
theorem C175_counterexample : ¬ C175_claim := by
  intro h
  have := (h (fun _ => true) 1 3 ⟨[], none, false⟩ (by decide)).2.2
  revert this; decide

theorem C175_broken : (Kmz.continued (fun _ => true) 1 3 ⟨[], none, false⟩).file =
    some [.header, .step 0, .step 1, .footer, .step 2, .step 3, .footer] := by decide

/-- What holds: a full run, and a run that ends with an error at any step but the first, from any state before, leave one
document with exactly the steps that were due so far; being told twice of the end makes no difference. -/
theorem C175_partial (due : Nat → Bool) (L : Nat) (s : Kmz) :
    (Kmz.fullRun due L s).file = some (document (dueBelow due (L + 1))) ∧
    (∀ m, 1 ≤ m → m ≤ L → (Kmz.failedRun due L m s).file = some (document (dueBelow due m))) ∧
    (Kmz.fullRun due L s).post = Kmz.fullRun due L s := by
  have hfull : Kmz.fullRun due L s =
      ⟨document (dueBelow due (L + 1)), some (document (dueBelow due (L + 1))), true⟩ := by
    unfold Kmz.fullRun
    rw [steps_append, run_steps due L L s (Nat.le_refl _), Nat.zero_add, dueBelow_succ]
    cases hd : due L <;> simp [Kmz.write, Kmz.finish, Kmz.post, document]
  refine ⟨by rw [hfull], ?_, ?_⟩
  · intro m _ hm
    unfold Kmz.failedRun
    rw [run_steps due L m s hm]
    simp [Kmz.post, Kmz.finish, document]
  · rw [hfull]; simp [Kmz.post]

example : (Kmz.fullRun (fun n => decide (n % 2 = 0)) 4 ⟨[], none, true⟩).file =
    some [.header, .step 0, .step 2, .step 4, .footer] := by decide

/-- The file is complete as soon as the last step is written, before anybody is told of the end of the run. -/
theorem C175_last (due : Nat → Bool) (L : Nat) (s : Kmz) :
    (Kmz.steps due L s.rewind.prepare 0 (L + 1)).file = some (document (dueBelow due (L + 1))) ∧
    ∀ m, m ≤ L → (Kmz.steps due L s.rewind.prepare 0 m).file = none := by
  refine ⟨?_, fun m hm => by rw [run_steps due L m s hm]⟩
  rw [steps_append, run_steps due L L s (Nat.le_refl _), Nat.zero_add, dueBelow_succ]
  cases hd : due L <;> simp [Kmz.write, Kmz.finish, document]

/-! ## C176: the times at which steps are shown -/

/-- **C176**, as one would expect: a step is shown until the next step in the file. -/
def C176_claim : Prop := ∀ (c : Cfg) (t0 ts : Int) (L j k : Nat), j < k → k ≤ L → 0 < ts → c.on = true → c.single = false →
  c.ostart = none → (∀ p, c.ots = some p → 0 < p) →
  written c t0 ts L j = true → written c t0 ts L k = true → (∀ i, j < i → i < k → written c t0 ts L i = false) →
  spanEnd c.ots ts (t0 + j * ts) = t0 + k * ts

/-- Steps of one hour and an output interval of 90 minutes: at first nothing is shown for half an hour, later two steps at
once. -/
theorem C176_counterexample : ¬ C176_claim := by
  intro h
  have := h { ots := some 5400 } 0 3600 10 0 2 (by decide) (by decide) (by decide) rfl rfl rfl
    (by intro p hp; cases hp; decide) (by decide) (by decide)
    (by intro i h1 h2; obtain rfl : i = 1 := by omega
        decide)
  revert this; decide

theorem C176_overlap : written { ots := some 5400 } 0 3600 10 2 = true ∧ written { ots := some 5400 } 0 3600 10 3 = true ∧
    spanEnd (some 5400) 3600 7200 = 12600 := by decide

/-- What holds: the output interval is a multiple of the time step, and the last step is due or not asked for. -/
theorem C176_partial (c : Cfg) (t0 ts : Int) (m : Nat) (L j k : Nat) (hjk : j < k) (hkL : k ≤ L) (hts : 0 < ts) (hm : 0 < m)
    (hc : Plain c (m * ts)) (hz : c.zero = true) (hl : c.last = false ∨ L % m = 0)
    (hj : written c t0 ts L j = true) (hk : written c t0 ts L k = true)
    (hb : ∀ i, j < i → i < k → written c t0 ts L i = false) :
    spanEnd c.ots ts (t0 + j * ts) = t0 + k * ts := by
  have hP : (0 : Int) < m * ts := Int.mul_pos (by omega) hts
  have hw : ∀ i, i ≤ L → (written c t0 ts L i = true ↔ i % m = 0) := by
    intro i hi
    cases i with
    | zero =>
      have h1 : c.on = true := hc.1
      unfold written
      rw [stateAt]
      simp only [Nat.zero_mod, iff_true]
      cases hd : (decide (0 = L) && c.last) <;> simp [writeOutput, h1, hz, hd]
    | succ i =>
      rw [C27_forward_cadence c (m * ts) t0 ts L hc hP hts, intervals_div ts m i hm hts]
      have e : i % m + 1 = m ↔ (i + 1) % m = 0 := by
        have hlt := Nat.mod_lt i hm
        constructor
        · intro h
          rw [Nat.add_mod]
          by_cases h1 : m = 1
          · subst h1; omega
          · rw [Nat.mod_eq_of_lt (show 1 < m by omega), h]; exact Nat.mod_self m
        · intro h
          by_contra hne
          have : (i + 1) % m = i % m + 1 := by
            rw [Nat.add_mod]
            by_cases h1 : m = 1
            · subst h1; omega
            · rw [Nat.mod_eq_of_lt (show 1 < m by omega), Nat.mod_eq_of_lt (by omega)]
          omega
      constructor
      · rintro (h | ⟨h, h2⟩)
        · exact e.mp h
        · rcases hl with h3 | h3
          · rw [h3] at h2; exact absurd h2 (by decide)
          · rw [h]; exact h3
      · intro h; exact Or.inl (e.mpr h)
  have hj' := (hw j (by omega)).mp hj
  have hk' := (hw k hkL).mp hk
  have hkm : k = j + m := by
    have hd : m ∣ k - j := Nat.dvd_sub (Nat.dvd_of_mod_eq_zero hk') (Nat.dvd_of_mod_eq_zero hj')
    obtain ⟨q, hq⟩ := hd
    have hq0 : q ≠ 0 := by rintro rfl; omega
    by_contra hne
    have hlt : j + m < k := by
      have : m * 1 ≤ m * q := Nat.mul_le_mul_left m (by omega)
      omega
    have := hb (j + m) (by omega) hlt
    rw [← Bool.not_eq_true, hw (j + m) (by omega)] at this
    exact this (by rw [Nat.add_mod_right]; exact hj')
  have hots : c.ots = some (m * ts) := hc.2.2.2
  rw [hots, hkm]
  unfold spanEnd
  simp only []
  push_cast
  rw [Int.add_mul]; omega

/-- Without an output interval every step is written, and each is shown until the next one. -/
theorem C176_every (c : Cfg) (t0 ts : Int) (L k : Nat) (hon : c.on = true) (hs : c.single = false) (ho : c.ostart = none)
    (hz : c.zero = true) (hots : c.ots = none) :
    written c t0 ts L k = true ∧ spanEnd c.ots ts (t0 + k * ts) = t0 + (k + 1 : Nat) * ts := by
  refine ⟨?_, ?_⟩
  · have h : (stateAt c t0 ts L k).write = true := by
      induction k with
      | zero =>
        rw [stateAt]
        cases hd : (decide (0 = L) && c.last) <;> simp [writeOutput, hz, hd]
      | succ k ih =>
        rw [stateAt]
        have hp : (prepareStep c (stateAt c t0 ts L k) ts (t0 + k * ts)).write = true := by
          simp [prepareStep, hon, ho, cadence, hs, hots, ih]
        cases hd : (decide (k + 1 = L) && c.last) <;> simp [writeOutput, hd, hp]
    simp [written, hon, h]
  · rw [hots]
    unfold spanEnd
    simp only []
    push_cast
    rw [Int.add_mul]; omega

example : written {} 0 900 8 3 = true ∧ spanEnd none 900 2700 = 3600 := by decide

example : Plain { ots := some 3600 } (4 * 900) := ⟨rfl, rfl, rfl, rfl⟩
example : written { ots := some 3600 } 0 900 8 4 = true ∧ written { ots := some 3600 } 0 900 8 8 = true := by decide

end Verif.Output
