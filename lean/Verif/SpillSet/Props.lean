import Verif.SpillSet.Model
import Mathlib.Tactic.Linarith
import Mathlib.Tactic.FieldSimp
import Mathlib.Tactic.Ring
import Mathlib.Tactic.NormNum
import Mathlib.Tactic.Positivity

/-!
# C111-C113: what the settings of a release and of a spill mean
-/

namespace Verif.SpillSet

/-! ## C111: time zones -/

/-- A release between two times. -/
def Proper (r : Rel) : Prop := r.start ≤ r.endTime

/-- The claim: telling a release in which time zone the model is moves it as a whole, by the difference of the zones. -/
def C111_claim : Prop := ∀ (r : Rel) (old new : ℚ), Proper r → r.tz = some old →
  (setTz r (some new)).2 = false ∧ (setTz r (some new)).1.start = r.start + (new - old) * 3600 ∧
    (setTz r (some new)).1.endTime = r.endTime + (new - old) * 3600

/-- The claim: after an update the release is at the times the update gives. -/
def C111_claim_update : Prop := ∀ (r : Rel) (s e : ℚ) (tz : Option ℚ), s ≤ e → (update r s e tz).2 = false ∧
  (update r s e tz).1.start = s ∧ (update r s e tz).1.endTime = e

/-- An instantaneous release, as the constructor makes it, in UTC. -/
def instant : Rel := ⟨0, none, some 1000, none, 1, some 0⟩

/-- **C111** fails: an instantaneous release moved to a zone an hour to the east goes on for an hour. -/
theorem C111_counterexample_lasts : ¬ C111_claim := by
  intro h
  have := (h instant 0 1 (by norm_num [Proper, instant, Rel.endTime]) rfl).2.2
  norm_num [setTz, setEnd, instant, Rel.endTime] at this

/-- **C111** fails the other way too: moving it to the west is refused, when it has already been moved. -/
theorem C111_counterexample_refused : ¬ ∀ (r : Rel) (old new : ℚ), Proper r → r.tz = some old →
    (setTz r (some new)).2 = false ∨ (setTz r (some new)).1 = r := by
  intro h
  rcases h instant 0 (-8) (by norm_num [Proper, instant, Rel.endTime]) rfl with h | h
  · norm_num [setTz, setEnd, instant, Rel.endTime] at h
  · have := congrArg Rel.start h
    norm_num [setTz, setEnd, instant, Rel.endTime] at this

/-- **C111** for releases whose end has been set, as all that were loaded from a file. -/
theorem C111_partial (r : Rel) (old new e : ℚ) (hp : Proper r) (ht : r.tz = some old) (he : r.stop = some e) :
    (setTz r (some new)).2 = false ∧ (setTz r (some new)).1.start = r.start + (new - old) * 3600 ∧
      (setTz r (some new)).1.endTime = r.endTime + (new - old) * 3600 ∧ (setTz r (some new)).1.duration = r.duration ∧
      (setTz r (some new)).1.tz = some new ∧ (setTz r (some new)).1.num = r.num ∧ (setTz r (some new)).1.per = r.per ∧
      (setTz r (some new)).1.mass = r.mass := by
  have hr : r.endTime = e := by simp [Rel.endTime, he]
  unfold Proper at hp
  rw [hr] at hp
  have hc : ¬ (e + (new * 3600 - old * 3600) < r.start + (new * 3600 - old * 3600)) := by linarith
  have key : setTz r (some new) = ({ r with start := r.start + (new * 3600 - old * 3600), stop := some (e + (new * 3600 - old * 3600)), tz := some new }, false) := by
    unfold setTz
    rw [ht]
    simp only [setEnd, Rel.endTime, he, Option.getD_some, if_neg hc]
    rfl
  rw [key]
  refine ⟨rfl, ?_, ?_, ?_, rfl, rfl, rfl, rfl⟩
  · ring
  · rw [hr]; simp only [Rel.endTime, Option.getD_some]; ring
  · unfold Rel.duration; rw [hr]; simp only [Rel.endTime, Option.getD_some]; ring

/-- **C111**: there and back again. -/
theorem C111_back (r : Rel) (old new e : ℚ) (hp : Proper r) (ht : r.tz = some old) (he : r.stop = some e) :
    (setTz (setTz r (some new)).1 (some old)).1 = r := by
  have key : ∀ (r : Rel) (old new e : ℚ), r.start ≤ e → r.tz = some old → r.stop = some e →
      setTz r (some new) = ({ r with start := r.start + (new * 3600 - old * 3600), stop := some (e + (new * 3600 - old * 3600)), tz := some new }, false) := by
    intro r old new e h ht he
    have hc : ¬ (e + (new * 3600 - old * 3600) < r.start + (new * 3600 - old * 3600)) := by linarith
    unfold setTz
    rw [ht]
    simp only [setEnd, Rel.endTime, he, Option.getD_some, if_neg hc]
    rfl
  have hs : r.start ≤ e := by unfold Proper at hp; simpa [Rel.endTime, he] using hp
  rw [key r old new e hs ht he]
  rw [key _ new old (e + (new * 3600 - old * 3600)) (by simp only; linarith) rfl rfl]
  cases r
  simp only at ht he
  subst ht he
  simp only [Rel.mk.injEq, and_true, Option.some.injEq]
  exact ⟨by ring, by ring⟩

/-- **C111**: a release without a zone, or one that loses its zone, stays where it is. -/
theorem C111_no_zone (r : Rel) (tz : Option ℚ) (h : r.tz = none ∨ tz = none) : setTz r tz = ({ r with tz := tz }, false) := by
  unfold setTz
  rcases h with h | h
  · rw [h]
  · subst h; cases r.tz <;> rfl

/-- **C111** fails for updates: when the zone changes as well, the times given are moved. -/
theorem C111_counterexample_update : ¬ C111_claim_update := by
  intro h
  have := (h { instant with stop := some 0 } 100 200 (some 1) (by norm_num)).2.1
  norm_num [update, setTz, setEnd, setStart, instant, Rel.endTime] at this

/-- **C111** for updates that leave the zone alone, or of releases that had none. -/
theorem C111_update_partial (r : Rel) (s e : ℚ) (tz : Option ℚ) (hse : s ≤ e) (h : r.tz = none ∨ tz = none ∨ r.tz = tz) :
    (update r s e tz).2 = false ∧ (update r s e tz).1.start = s ∧ (update r s e tz).1.endTime = e := by
  have e1 : setEnd (setStart r s).1 (some e) = ({ r with start := s, stop := some e }, false) := by
    unfold setStart setEnd; exact if_neg (not_lt.mpr hse)
  unfold update
  simp only [e1, Bool.false_eq_true, if_false]
  rcases h with h | h | h
  · rw [C111_no_zone { r with start := s, stop := some e } _ (Or.inl h)]; exact ⟨rfl, rfl, rfl⟩
  · rw [C111_no_zone _ _ (Or.inr h)]; exact ⟨rfl, rfl, rfl⟩
  · cases htz : tz with
    | none => rw [C111_no_zone _ _ (Or.inr rfl)]; exact ⟨rfl, rfl, rfl⟩
    | some z =>
      have := C111_partial { r with start := s, stop := some e } z z e hse (by simp [h, htz]) rfl
      obtain ⟨h1, h2, h3, -⟩ := this
      refine ⟨h1, ?_, ?_⟩
      · rw [h2]; simp
      · rw [h3]; simp [Rel.endTime]

example : (setTz ⟨0, some 7200, some 10, none, 5, some 0⟩ (some (-8))).1 = ⟨-28800, some (-21600), some 10, none, 5, some (-8)⟩ := by
  norm_num [setTz, setEnd, Rel.endTime]

/-! ## C112: numbers and times stay consistent -/

/-- How many elements: in total, or in each step. -/
inductive Count where
  | total (n : Int)
  | each (n : Int)
deriving DecidableEq

/-- What the last of the assignments says. -/
def Count.next (c : Count) : Op → Count
  | .num (some n) => if n < 0 then c else .total n
  | .num none => match c with
    | .total _ => .each 1
    | .each n => .each n
  | .per (some n) => .each n
  | _ => c

/-- What the release holds. -/
def Holds (r : Rel) : Count → Prop
  | .total n => r.num = some n ∧ r.per = none
  | .each n => r.num = none ∧ r.per = some n

/-- The claim: after any assignments exactly one of the two numbers is set, the one set last. -/
def C112_claim_count : Prop := ∀ (r : Rel) (c : Count) (l : List Op), Holds r c → Holds (run r l) (l.foldl Count.next c)

/-- The claim: the end of a release is never before its beginning. -/
def C112_claim_times : Prop := ∀ (r : Rel) (l : List Op), Proper r → Proper (run r l)

/-- **C112** fails: assigning `None` to the number in each step raises, but takes the number away; none is left. -/
theorem C112_counterexample_count : ¬ C112_claim_count := by
  intro h
  have := h ⟨0, none, none, some 5, 0, none⟩ (.each 5) [.per none] ⟨rfl, rfl⟩
  have h2 := this.2
  simp [run, apply, setPer] at h2

/-- **C112** fails: the beginning can be moved behind the end. -/
theorem C112_counterexample_times : ¬ C112_claim_times := by
  intro h
  have := h ⟨0, some 10, some 5, none, 0, none⟩ [.start 20] (by norm_num [Proper, Rel.endTime])
  norm_num [run, apply, setStart, Proper, Rel.endTime] at this

/-- C112. A start of the release is never refused, even one after the end. -/
theorem C112_start (r : Rel) (v : ℚ) : apply r (.start v) = ({ r with start := v }, false) := rfl

theorem setTz_counts (r : Rel) (tz : Option ℚ) : (setTz r tz).1.num = r.num ∧ (setTz r tz).1.per = r.per ∧ (setTz r tz).1.mass = r.mass := by
  have hE : ∀ (r : Rel) (v : Option ℚ), (setEnd r v).1.num = r.num ∧ (setEnd r v).1.per = r.per ∧ (setEnd r v).1.mass = r.mass := by
    intro r v; unfold setEnd; split
    · exact ⟨rfl, rfl, rfl⟩
    · split <;> exact ⟨rfl, rfl, rfl⟩
  unfold setTz
  split
  · dsimp only
    split
    · exact hE _ _
    · exact hE _ _
  · exact ⟨rfl, rfl, rfl⟩

theorem apply_count (r : Rel) (c : Count) (o : Op) (h : Holds r c) (ho : o ≠ .per none) : Holds (apply r o).1 (c.next o) := by
  cases o with
  | start v => cases c <;> exact h
  | mass v => cases c <;> exact h
  | stop v =>
    have h1 : (setEnd r v).1.num = r.num ∧ (setEnd r v).1.per = r.per := by
      unfold setEnd; split
      · exact ⟨rfl, rfl⟩
      · split <;> exact ⟨rfl, rfl⟩
    cases c <;> exact ⟨h1.1.trans h.1, h1.2.trans h.2⟩
  | tz v =>
    have h1 := setTz_counts r v
    cases c <;> exact ⟨h1.1.trans h.1, h1.2.1.trans h.2⟩
  | per v =>
    cases v with
    | none => exact absurd rfl ho
    | some n => exact ⟨rfl, rfl⟩
  | num v =>
    cases v with
    | none =>
      cases c with
      | total n => refine ⟨rfl, ?_⟩; simp only [apply, setNum]; rw [if_pos h.2]
      | each n => refine ⟨rfl, ?_⟩; simp only [apply, setNum]; rw [h.2, if_neg (by simp)]
    | some n =>
      by_cases hn : n < 0
      · simp only [apply, setNum, Count.next, if_pos hn]; exact h
      · simp only [apply, setNum, Count.next, if_neg hn]; exact ⟨rfl, rfl⟩

/-- **C112**: exactly one number is set, the one assigned last, whatever else is assigned, as long as `None` is not assigned to the number
in each step. -/
theorem C112_count_partial (r : Rel) (c : Count) (l : List Op) (h : Holds r c) (hl : Op.per none ∉ l) :
    Holds (run r l) (l.foldl Count.next c) := by
  induction l generalizing r c with
  | nil => exact h
  | cons o l ih =>
    rw [List.mem_cons, not_or] at hl
    exact ih _ _ (apply_count r c o h (Ne.symm hl.1)) hl.2

theorem setEnd_proper (r : Rel) (v : Option ℚ) (h : Proper r) : Proper (setEnd r v).1 := by
  unfold setEnd
  split
  · exact le_refl r.start
  · split
    · exact h
    · rename_i e he; exact le_of_not_gt he

theorem apply_times (r : Rel) (o : Op) (h : Proper r) (ho : ∀ v, o ≠ .start v)
    (hz : r.stop = none → r.tz = none ∨ ∀ v, o ≠ .tz v) : Proper (apply r o).1 := by
  cases o with
  | start v => exact absurd rfl (ho v)
  | stop v => exact setEnd_proper r v h
  | num v =>
    simp only [apply, setNum]
    split
    · exact h
    · split <;> exact h
  | per v =>
    simp only [apply, setPer]
    split <;> exact h
  | mass v => exact h
  | tz v =>
    cases hv : v with
    | none => simp only [apply]; rw [C111_no_zone _ _ (Or.inr rfl)]; exact h
    | some new =>
      cases ht : r.tz with
      | none => simp only [apply]; rw [C111_no_zone _ _ (Or.inl ht)]; exact h
      | some old =>
        cases hs : r.stop with
        | none =>
          rcases hz hs with h1 | h1
          · rw [ht] at h1; cases h1
          · exact absurd rfl (h1 v)
        | some e =>
          obtain ⟨-, h2, h3, -⟩ := C111_partial r old new e h ht hs
          unfold Proper at h ⊢
          simp only [apply]
          rw [h2, h3]
          linarith

/-- **C112**: the end is never before the beginning as long as the beginning is not assigned and there is no zone to change. -/
theorem C112_times_partial (r : Rel) (l : List Op) (h : Proper r) (hl : ∀ o ∈ l, (∀ v, o ≠ .start v) ∧ ∀ v, o ≠ .tz v) :
    Proper (run r l) := by
  induction l generalizing r with
  | nil => exact h
  | cons o l ih =>
    have ho := hl o (List.mem_cons_self ..)
    exact ih _ (apply_times r o h ho.1 fun _ => Or.inr ho.2) fun x hx => hl x (List.mem_cons_of_mem _ hx)

/-- **C112**: what the constructor accepts is consistent: one number, a thousand by default, the end not before the beginning, the mass
the one given, a negative one being none. -/
theorem C112_new (start : ℚ) (stop : Option ℚ) (num per : Option Int) (mass : ℚ) (tz : Option ℚ) (r : Rel)
    (h : newRel start stop num per mass tz = some r) :
    Proper r ∧ r.mass = max 0 mass ∧ r.start = start ∧ r.stop = stop ∧ r.tz = tz ∧ (num = none ∨ per = none) ∧
      Holds r (match num, per with
        | some n, _ => .total n
        | none, some n => .each n
        | none, none => .total 1000) := by
  have hm : ∀ r : Rel, ∀ m, (setMass r m).1.mass = max 0 m := by
    intro r m; simp only [setMass]; split
    · rename_i h; exact (max_eq_left (le_of_lt h)).symm
    · rename_i h; exact (max_eq_right (le_of_not_gt h)).symm
  have hset : ∀ (r0 : Rel), Proper r0 → r0.start = start → r0.tz = tz → (setEnd r0 stop).2 = false →
      Proper (setMass (setEnd r0 stop).1 mass).1 ∧ (setMass (setEnd r0 stop).1 mass).1.start = start ∧
        (setMass (setEnd r0 stop).1 mass).1.stop = stop ∧ (setMass (setEnd r0 stop).1 mass).1.tz = tz ∧
        (setMass (setEnd r0 stop).1 mass).1.num = r0.num ∧ (setMass (setEnd r0 stop).1 mass).1.per = r0.per := by
    intro r0 h0 h1 h2 h3
    refine ⟨setEnd_proper r0 stop h0, ?_, ?_, ?_, ?_, ?_⟩ <;>
    · unfold setEnd at h3 ⊢
      cases stop with
      | none => simp [setMass, h1, h2]
      | some e =>
        simp only at h3 ⊢
        split
        · rename_i he; rw [if_pos he] at h3; simp at h3
        · simp [setMass, h1, h2]
  unfold newRel at h
  cases num with
  | none =>
    cases per with
    | none =>
      simp only [and_self, if_true, ne_eq, reduceCtorEq, not_false_eq_true, not_true_eq_false, and_false, if_false, setNum] at h
      norm_num at h
      obtain ⟨h1, h2⟩ := h
      subst h2
      obtain ⟨a, b, c, d, e, f⟩ := hset ⟨start, none, some 1000, none, 0, tz⟩ (le_refl start) rfl rfl h1
      exact ⟨a, hm _ _, b, c, d, Or.inl rfl, e, f⟩
    | some n =>
      simp [setNum] at h
      obtain ⟨h1, h2⟩ := h
      subst h2
      obtain ⟨a, b, c, d, e, f⟩ := hset ⟨start, none, none, some n, 0, tz⟩ (le_refl start) rfl rfl h1
      exact ⟨a, hm _ _, b, c, d, Or.inl rfl, e, f⟩
  | some k =>
    cases per with
    | some n => simp at h
    | none =>
      simp only [reduceCtorEq, and_true, if_false, ne_eq, not_true_eq_false, and_false, setNum] at h
      by_cases hk : k < 0
      · simp [hk] at h
      · simp [hk] at h
        obtain ⟨h1, h2⟩ := h
        subst h2
        obtain ⟨a, b, c, d, e, f⟩ := hset ⟨start, none, some k, none, 0, tz⟩ (le_refl start) rfl rfl h1
        exact ⟨a, hm _ _, b, c, d, Or.inr rfl, e, f⟩

/-- **C112**: the constructor refuses two numbers, a negative total, and an end before the beginning. -/
theorem C112_refuses (start : ℚ) (stop : Option ℚ) (num per : Option Int) (mass : ℚ) (tz : Option ℚ)
    (h : (num ≠ none ∧ per ≠ none) ∨ (∃ n, num = some n ∧ n < 0) ∨ ∃ e, stop = some e ∧ e < start) :
    newRel start stop num per mass tz = none := by
  cases hq : newRel start stop num per mass tz with
  | none => rfl
  | some r =>
    exfalso
    rcases h with ⟨h1, h2⟩ | ⟨n, h1, h2⟩ | ⟨e, h1, h2⟩
    · rcases (C112_new _ _ _ _ _ _ _ hq).2.2.2.2.2.1 with h | h
      · exact h1 h
      · exact h2 h
    · subst h1
      unfold newRel at hq
      simp only [reduceCtorEq, false_and, if_false, setNum, if_pos h2] at hq
      split at hq
      · cases hq
      · simp at hq
    · have hn := C112_new _ _ _ _ _ _ _ hq
      have h3 := hn.1
      unfold Proper Rel.endTime at h3
      rw [hn.2.2.2.1, h1, hn.2.2.1] at h3
      exact absurd h2 (not_lt.mpr h3)

example : Holds (run ⟨0, some 10, some 5, none, 0, some 0⟩ [.per (some 3), .tz (some 1), .num (some (-1)), .stop none])
    (.each 3) := C112_count_partial _ (.total 5) _ ⟨rfl, rfl⟩ (by decide)

/-! ## C113: the amount of a spill -/

/-- The mass of an amount in given units. -/
def kilograms (u : Units) (density a : ℚ) : ℚ := match u with
  | .mass kg => a * kg
  | .volume m3 => a * m3 * density

def Units.Pos : Units → Prop
  | .mass kg => 0 < kg
  | .volume m3 => 0 < m3

theorem kilograms_nonneg {u : Units} {d a : ℚ} (hu : u.Pos) (hd : 0 < d) (ha : 0 ≤ a) : 0 ≤ kilograms u d a := by
  cases u with
  | mass kg => exact mul_nonneg ha (le_of_lt hu)
  | volume m3 => exact mul_nonneg (mul_nonneg ha (le_of_lt hu)) hd.le

theorem setAmount_eq {s : Spill} {a : ℚ} (hu : s.units.Pos) (hd : 0 < s.density) (ha : 0 ≤ a) :
    setAmount s a = ({ s with mass := kilograms s.units s.density a }, false) := by
  unfold setAmount
  rw [if_neg (not_lt.mpr ha)]
  have hk := kilograms_nonneg hu hd ha
  unfold kilograms at hk ⊢
  cases h : s.units with
  | mass kg => rw [h] at hk; simp only; rw [if_neg (not_lt.mpr hk)]
  | volume m3 => rw [h] at hk; simp only; rw [if_neg (not_lt.mpr hk)]

/-- **C113**: the amount assigned is the amount shown, and the mass released is that of the amount; negative ones are refused and leave
the spill as it is. -/
theorem C113_set (s : Spill) (a : ℚ) (hu : s.units.Pos) (hd : 0 < s.density) :
    (0 ≤ a → (setAmount s a).2 = false ∧ (setAmount s a).1.amount = a ∧ (setAmount s a).1.mass = kilograms s.units s.density a ∧
      (setAmount s a).1.units = s.units) ∧
    (a < 0 → setAmount s a = (s, true)) := by
  constructor
  · intro ha
    rw [setAmount_eq hu hd ha]
    refine ⟨rfl, ?_, rfl, rfl⟩
    unfold Spill.amount kilograms
    cases h : s.units with
    | mass kg =>
      have : kg ≠ 0 := by rw [h] at hu; exact ne_of_gt hu
      simp only; field_simp
    | volume m3 =>
      have h1 : m3 ≠ 0 := by rw [h] at hu; exact ne_of_gt hu
      have h2 := hd.ne'
      simp only; field_simp
  · intro ha; unfold setAmount; rw [if_pos ha]

theorem amount_spec (s : Spill) (hu : s.units.Pos) (hd : 0 < s.density) : kilograms s.units s.density s.amount = s.mass := by
  unfold Spill.amount kilograms
  cases h : s.units with
  | mass kg =>
    have : kg ≠ 0 := by rw [h] at hu; exact ne_of_gt hu
    simp only; field_simp
  | volume m3 =>
    have h1 : m3 ≠ 0 := by rw [h] at hu; exact ne_of_gt hu
    have h2 := hd.ne'
    simp only; field_simp

theorem amount_nonneg (s : Spill) (hu : s.units.Pos) (hd : 0 < s.density) (hm : 0 ≤ s.mass) : 0 ≤ s.amount := by
  unfold Spill.amount
  cases h : s.units with
  | mass kg => have : 0 < kg := by rw [h] at hu; exact hu
               simp only; positivity
  | volume m3 => have : 0 < m3 := by rw [h] at hu; exact hu
                 simp only; positivity

/-- **C113**: assigning the amount shown changes nothing. -/
theorem C113_same (s : Spill) (hu : s.units.Pos) (hd : 0 < s.density) (hm : 0 ≤ s.mass) : setAmount s s.amount = (s, false) := by
  rw [setAmount_eq hu hd (amount_nonneg s hu hd hm), amount_spec s hu hd]

/-- **C113**: other units show the same mass: the amount in the new units has the mass of the amount in the old ones. -/
theorem C113_units (s : Spill) (u : Units) (hu : s.units.Pos) (hu' : u.Pos) (hd : 0 < s.density) :
    (setUnits s u).mass = s.mass ∧
      kilograms u s.density (setUnits s u).amount = kilograms s.units s.density s.amount := by
  refine ⟨rfl, ?_⟩
  rw [amount_spec s hu hd]
  exact amount_spec (setUnits s u) hu' hd

/-- The claim: another substance leaves the amount that was given. -/
def C113_claim_substance : Prop := ∀ (s : Spill) (d : ℚ), s.units.Pos → 0 < s.density → 0 < d → (setSubstance s d).amount = s.amount

/-- The claim: a spill made of a release puts out the mass of the release. -/
def C113_claim_release : Prop := ∀ (m d : ℚ) (u : Units) (sc : ℚ), u.Pos → 0 < d → 0 ≤ m → (newSpill m d none u sc).1.mass = m

/-- **C113** fails: ten cubic metres of an oil become less of a denser one. -/
theorem C113_counterexample_substance : ¬ C113_claim_substance := by
  intro h
  have := h ⟨.volume 1, 800, 8000, 0⟩ 1000 (by norm_num [Units.Pos]) (by norm_num) (by norm_num)
  norm_num [setSubstance, Spill.amount] at this

/-- **C113** fails: the mass the release was made with is replaced by the default amount, nothing. -/
theorem C113_counterexample_release : ¬ C113_claim_release := by
  intro h
  have := h 500 1000 (.mass 1) 0 (by norm_num [Units.Pos]) (by norm_num) (by norm_num)
  norm_num [newSpill, setAmount] at this

/-- **C113** for amounts in units of mass, or when the amount is given again. -/
theorem C113_substance_partial (s : Spill) (d : ℚ) (hu : s.units.Pos) (hs : 0 < s.density) (hd : 0 < d) (hm : 0 ≤ s.mass) :
    ((∃ kg, s.units = .mass kg) → (setSubstance s d).amount = s.amount) ∧
      (setAmount (setSubstance s d) s.amount).1.amount = s.amount := by
  constructor
  · rintro ⟨kg, h⟩
    simp [Spill.amount, setSubstance, h]
  · exact ((C113_set (setSubstance s d) s.amount hu hd).1 (amount_nonneg s hu hs hm)).2.1

/-- **C113**: a spill made with an amount has the mass of the amount. -/
theorem C113_release_partial (m d a sc : ℚ) (u : Units) (hu : u.Pos) (hd : 0 < d) (ha : 0 ≤ a) :
    (newSpill m d (some a) u sc).1.mass = kilograms u d a ∧ (newSpill m d (some a) u sc).1.amount = a := by
  have := (C113_set ⟨u, d, m, sc⟩ a hu hd).1 ha
  exact ⟨this.2.2.1, this.2.1⟩

/-- **C113**: uncertainty of the amount multiplies it by at most 5/3 and at least 1/3, and only when it is on and a direction is given. -/
theorem C113_uncertainty (s : Spill) (dir : Option Bool) (hu : s.units.Pos) (hd : 0 < s.density) (hm : 0 ≤ s.mass) :
    ((amountUncertainty s dir).2 = true ↔ 0 < s.scale ∧ s.scale ≤ 1 ∧ dir ≠ none) ∧
      ((amountUncertainty s dir).2 = false → (amountUncertainty s dir).1 = s) ∧
      ((amountUncertainty s dir).2 = true →
        (amountUncertainty s dir).1.amount = s.amount * (if dir = some true then 1 + 2 / 3 * s.scale else 1 - 2 / 3 * s.scale)) ∧
      1 / 3 * s.amount ≤ (amountUncertainty s dir).1.amount ∧ (amountUncertainty s dir).1.amount ≤ 5 / 3 * s.amount := by
  have ha := amount_nonneg s hu hd hm
  unfold amountUncertainty
  by_cases hs : s.scale ≤ 0 ∨ s.scale > 1
  · rw [if_pos hs]
    refine ⟨⟨fun h => (by cases h), fun h => ?_⟩, fun _ => rfl, fun h => (by cases h), ?_, ?_⟩
    · rcases hs with h1 | h1 <;> linarith [h.1, h.2.1]
    · simp only; linarith
    · simp only; linarith
  · rw [if_neg hs]
    push Not at hs
    obtain ⟨h1, h2⟩ := hs
    have up : (setAmount s (s.amount * (1 + 2 / 3 * s.scale))).1.amount = s.amount * (1 + 2 / 3 * s.scale) :=
      ((C113_set s _ hu hd).1 (mul_nonneg ha (by linarith))).2.1
    have down : (setAmount s (s.amount * (1 - 2 / 3 * s.scale))).1.amount = s.amount * (1 - 2 / 3 * s.scale) :=
      ((C113_set s _ hu hd).1 (mul_nonneg ha (by linarith))).2.1
    have b1 : 0 ≤ s.amount * s.scale := mul_nonneg ha h1.le
    have b2 : s.amount * s.scale ≤ s.amount := by
      calc s.amount * s.scale ≤ s.amount * 1 := mul_le_mul_of_nonneg_left h2 ha
        _ = s.amount := mul_one _
    match dir with
    | none =>
      refine ⟨⟨fun h => (by cases h), fun h => absurd rfl h.2.2⟩, fun _ => rfl, fun h => (by cases h), ?_, ?_⟩
      · simp only; linarith
      · simp only; linarith
    | some true =>
      refine ⟨⟨fun _ => ⟨h1, h2, by simp⟩, fun _ => rfl⟩, fun h => (by cases h), fun _ => up, ?_, ?_⟩
      · simp only; rw [up]; linarith
      · simp only; rw [up]; linarith
    | some false =>
      refine ⟨⟨fun _ => ⟨h1, h2, by simp⟩, fun _ => rfl⟩, fun h => (by cases h), fun _ => ?_, ?_, ?_⟩
      · simp only; rw [down]; simp
      · simp only; rw [down]; linarith
      · simp only; rw [down]; linarith

/-- A hundred barrels of an oil. -/
example : (newSpill 0 900 (some 100) (.volume (159 / 1000)) 1).1.mass = 14310 := by
  have := (C113_release_partial 0 900 100 1 (.volume (159 / 1000)) (by norm_num [Units.Pos]) (by norm_num) (by norm_num)).1
  rw [this]; norm_num [kilograms]

end Verif.SpillSet
