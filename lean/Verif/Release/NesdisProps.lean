import Verif.Release.NesdisModel

/-!
# C249, C250: releases from satellite images
-/
namespace Verif.Release.Nesdis

/-- The character of a digit. -/
def chr (n : Nat) : Char := Char.ofNat (48 + n)

/-- `t` shows the digits `ds` in this order, with any other characters around and between them. -/
def Shows (t : List Char) (ds : List Nat) : Prop := t.filter Char.isDigit = ds.map chr

/-! ## C249: the time of day -/

/-- C249: a time of day written with the hour in one digit or two, and the minutes in two, is read as that time. -/
def C249_claim : Prop :=
  ∀ (d : Nat) (t : List Char) (oil : String) (hs : List Nat) (h m : Nat), h < 24 → m < 60 → (hs = [h / 10, h % 10] ∨ (h < 10 ∧ hs = [h])) →
    Shows t (hs ++ [m / 10, m % 10]) → stamp ⟨.day d, t, oil⟩ = some ((d * 86400 + h * 3600 + m * 60 : Nat) : Int)

theorem chr_toNat (n : Nat) (h : n < 10) : (chr n).toNat - 48 = n := by
  have : ∀ k : Fin 10, (chr k.1).toNat - 48 = k.1 := by decide
  exact this ⟨n, h⟩

theorem digits_of (t : List Char) (ds : List Nat) (h : Shows t ds) (hd : ∀ x ∈ ds, x < 10) : digits t = ds := by
  unfold digits
  rw [h]
  rw [List.map_map]
  conv_rhs => rw [← List.map_id ds]
  exact List.map_congr_left fun x hx => chr_toNat x (hd x hx)

theorem clock_four (h m : Nat) (hh : h < 24) (hm : m < 60) : clock [h / 10, h % 10, m / 10, m % 10] = some (h, m) := by
  have h1 : h / 10 = 2 ∧ h % 10 ≤ 3 ∨ h / 10 ≤ 1 := by omega
  have hm5 : m / 10 ≤ 5 := by omega
  have em : 10 * (m / 10) + m % 10 = m := by omega
  rcases h1 with ⟨a, b⟩ | a
  · have e : 20 + h % 10 = h := by omega
    simp [clock, firstMatch, hourWays, minuteWays, a, b, hm5, em, e]
  · have n2 : ¬ (h / 10 = 2 ∧ h % 10 ≤ 3) := by omega
    have e : 10 * (h / 10) + h % 10 = h := by omega
    have n2' : ¬ (h / 10 = 2) := by omega
    simp [clock, firstMatch, hourWays, minuteWays, a, n2', hm5, em, e]

/-- What is read when the hour has one digit: the digits are `h`, `a`, `b`. -/
theorem clock_three (h a b : Nat) : clock [h, a, b] =
    if h = 2 ∧ a ≤ 3 then some (20 + a, b) else if h ≤ 1 then some (10 * h + a, b) else if a ≤ 5 then some (h, 10 * a + b) else none := by
  by_cases h1 : h = 2 ∧ a ≤ 3
  · obtain ⟨rfl, h1⟩ := h1; simp [clock, firstMatch, hourWays, minuteWays, h1]; rfl
  · by_cases h2 : h ≤ 1
    · simp [clock, firstMatch, hourWays, minuteWays, h1, h2]; rfl
    · by_cases h3 : a ≤ 5 <;> simp [clock, firstMatch, hourWays, minuteWays, h1, h2, h3]

theorem notEmpty (t : List Char) (x : Nat) (ds : List Nat) (h : Shows t (x :: ds)) : t ≠ [] := by
  rintro rfl; simp [Shows] at h

/-- C249, as far as it goes: hours of two digits, hours 3 to 9 of one digit, and hour 2 with 40 minutes or more.
Missing: the other hours of one digit, see `C249_short`. -/
theorem C249_partial (d : Nat) (t : List Char) (oil : String) (hs : List Nat) (h m : Nat) (hh : h < 24) (hm : m < 60)
    (hw : hs = [h / 10, h % 10] ∨ (h < 10 ∧ hs = [h] ∧ (3 ≤ h ∨ (h = 2 ∧ 40 ≤ m)))) (ht : Shows t (hs ++ [m / 10, m % 10])) :
    stamp ⟨.day d, t, oil⟩ = some ((d * 86400 + h * 3600 + m * 60 : Nat) : Int) := by
  rcases hw with rfl | ⟨h10, rfl, hw⟩
  · have e := digits_of t _ ht (by intro x hx; simp at hx; omega)
    have ne := notEmpty _ _ _ ht
    simp [stamp, ne, e, clock_four h m hh hm]
  · have e := digits_of t _ ht (by intro x hx; simp at hx; omega)
    have ne := notEmpty _ _ _ ht
    have c : clock [h, m / 10, m % 10] = some (h, m) := by
      rw [clock_three, if_neg (by omega), if_neg (by omega), if_pos (by omega)]
      congr 2; omega
    simp [stamp, ne, e, c]

example : Shows "at 07:05 UTC".toList ([7 / 10, 7 % 10] ++ [5 / 10, 5 % 10]) := by unfold Shows; decide

/-- **C249, hours of one digit**: for 0 and 1, and 2 with less than 40 minutes, the hour takes the first digit of the minutes. -/
theorem C249_short (d : Nat) (t : List Char) (oil : String) (h m : Nat) (hm : m < 60) (hs : h ≤ 1 ∨ (h = 2 ∧ m < 40))
    (ht : Shows t [h, m / 10, m % 10]) : stamp ⟨.day d, t, oil⟩ = some ((d * 86400 + (10 * h + m / 10) * 3600 + m % 10 * 60 : Nat) : Int) := by
  have e := digits_of t _ ht (by intro x hx; simp at hx; omega)
  have ne := notEmpty _ _ _ ht
  have c : clock [h, m / 10, m % 10] = some (10 * h + m / 10, m % 10) := by
    rw [clock_three]
    by_cases h2 : h = 2 ∧ m / 10 ≤ 3
    · rw [if_pos h2, h2.1]
    · rw [if_neg h2, if_pos (by omega)]
  simp [stamp, ne, e, c]

/-- 1:45 is read as 14:05. -/
theorem C249_counterexample : ¬ C249_claim := by
  intro h
  have := h 0 "1:45".toList "" [1] 1 45 (by decide) (by decide) (Or.inr ⟨by decide, rfl⟩) (by unfold Shows; decide)
  exact absurd this (by decide)

theorem head_length (l : List Nat) (p : Nat × List Nat) (h : (minuteWays l).head? = some p) : l.length ≤ p.2.length + 2 := by
  match l with
  | [] => simp [minuteWays] at h
  | [a] => simp [minuteWays] at h; subst h; simp
  | a :: b :: r =>
    simp only [minuteWays] at h
    by_cases ha : a ≤ 5
    · simp [ha] at h; subst h; simp
    · simp [ha] at h; subst h; simp

theorem hour_length (l : List Nat) (p : Nat × List Nat) (h : p ∈ hourWays l) : l.length ≤ p.2.length + 2 := by
  match l with
  | [] => simp [hourWays] at h
  | [a] => simp [hourWays] at h; subst h; simp
  | a :: b :: r =>
    simp only [hourWays, List.mem_append] at h
    rcases h with h | h | h
    · split at h
      · simp at h; subst h; simp
      · simp at h
    · split at h
      · simp at h; subst h; simp
      · simp at h
    · simp at h; subst h; simp

/-- **C249, more digits**: a time of day with seconds, or with any other digits beyond four, is not read. -/
theorem C249_long (f : Feat) (h : 4 < (f.time.filter Char.isDigit).length) : stamp f = none := by
  have hl : 4 < (digits f.time).length := by simpa [digits] using h
  have hc : clock (digits f.time) = none := by
    unfold clock
    cases hf : firstMatch (digits f.time) with
    | none => rfl
    | some p =>
      obtain ⟨a, b, r⟩ := p
      unfold firstMatch at hf
      obtain ⟨q, hq, hf⟩ := List.exists_of_findSome?_eq_some hf
      obtain ⟨m, hm, e⟩ := Option.map_eq_some_iff.mp hf
      have h1 := hour_length _ _ hq
      have h2 := head_length _ _ hm
      have e3 : m.2 = r := by injection e with _ e; injection e
      cases r with
      | nil => rw [e3] at h2; simp at h2; omega
      | cons x y => rfl
  unfold stamp
  cases f.date with
  | missing => rfl
  | other => rfl
  | day d => simp [hc]

example : 4 < ("12:30:45".toList.filter Char.isDigit).length := by decide

/-! ## C250: the times of polygons and of the release -/

/-- The time of the last of these polygons whose time can be read, or another one. -/
def lastTime (other : Int) (fs : List Feat) : Int := ((fs.filterMap stamp).getLast?).getD other

theorem lastTime_cons (t : Int) (f : Feat) (r : List Feat) : lastTime ((stamp f).getD t) r = lastTime t (f :: r) := by
  unfold lastTime
  cases hs : stamp f with
  | none => simp [hs]
  | some x =>
    simp only [Option.getD_some, List.filterMap_cons_some hs]
    rw [List.getLast?_cons]
    simp

/-- **C250, polygons**: each polygon has the time of the last polygon up to and including it whose time can be read; without such a polygon, the time given, or
else the present. It is 50 micrometers thick when its oil is called thick, in capitals or not, and 5 otherwise. -/
theorem C250_polygons (now : Int) (given : Option Int) (fs : List Feat) (i : Nat) (f : Feat) (hf : fs[i]? = some f) :
    (loadNesdis now given fs)[i]? = some ⟨lastTime (given.getD now) (fs.take (i + 1)), if f.oil.toLower = "thick" then 50 else 5⟩ := by
  unfold loadNesdis
  generalize given.getD now = t
  induction fs generalizing t i with
  | nil => simp at hf
  | cons a r ih =>
    rw [loop]
    cases i with
    | zero =>
      simp only [List.getElem?_cons_zero, Option.some.injEq] at hf
      subst hf
      have := lastTime_cons t a []
      simp only [List.getElem?_cons_zero, Nat.zero_add, List.take_succ_cons, List.take_zero, ← this]
      rfl
    | succ i =>
      rw [List.getElem?_cons_succ] at hf ⊢
      rw [ih i hf, List.take_succ_cons, ← lastTime_cons]

theorem loop_length (t : Int) (fs : List Feat) : (loop t fs).length = fs.length := by
  induction fs generalizing t with
  | nil => rfl
  | cons a r ih => simp [loop, ih]

/-- **C250, the release**: it begins and ends at the time of its first polygon, whatever the times of the others are; the time given counts only when that of the
first polygon cannot be read. Without polygons there is no release. -/
theorem C250_release (now : Int) (given : Option Int) (fs : List Feat) :
    (fs = [] → fromFile now given fs = none) ∧
    ∀ f r, fs = f :: r → ∃ ps, fromFile now given fs = some ((stamp f).getD (given.getD now), (stamp f).getD (given.getD now), ps) ∧
      ps = loadNesdis now given fs ∧ ps.length = fs.length := by
  refine ⟨?_, ?_⟩
  · rintro rfl; rfl
  · rintro f r rfl
    exact ⟨loadNesdis now given (f :: r), rfl, rfl, loop_length _ (f :: r)⟩

/-- A polygon at 12:30 and one at 18:30 of the same day are both released at 12:30. -/
example : (fromFile 0 none [⟨.day 1, "1230".toList, "Thick"⟩, ⟨.day 1, "18:30".toList, "thin"⟩, ⟨.missing, [], ""⟩]) =
    some (131400, 131400, [⟨131400, 50⟩, ⟨153000, 5⟩, ⟨153000, 5⟩]) := by decide +kernel

/-- C250, as one would have it: a polygon with no time of its own has the time given. -/
def C250_claim : Prop :=
  ∀ (now g : Int) (fs : List Feat) (i : Nat) (f : Feat) (p : Loaded), fs[i]? = some f → stamp f = none →
    (loadNesdis now (some g) fs)[i]? = some p → p.time = g

theorem C250_counterexample : ¬ C250_claim := by
  intro h
  have := h 0 7 [⟨.day 1, "1230".toList, ""⟩, ⟨.missing, [], ""⟩] 1 ⟨.missing, [], ""⟩ ⟨131400, 5⟩ rfl rfl (by decide +kernel)
  exact absurd this (by decide)

/-- C250, the same up to the first polygon whose time can be read. Missing: the polygons after it, see `C250_polygons`. -/
theorem C250_partial (now g : Int) (fs : List Feat) (i : Nat) (f : Feat) (p : Loaded) (hf : fs[i]? = some f) (hn : ∀ x ∈ fs.take (i + 1), stamp x = none)
    (hp : (loadNesdis now (some g) fs)[i]? = some p) : p.time = g := by
  rw [C250_polygons now (some g) fs i f hf, Option.some.injEq] at hp
  subst hp
  have : (fs.take (i + 1)).filterMap stamp = [] := by
    rw [List.filterMap_eq_nil_iff]
    exact hn
  simp [lastTime, this]

example : ∀ x ∈ ([⟨.missing, [], ""⟩, ⟨.other, "1230".toList, ""⟩, ⟨.day 1, "1230".toList, ""⟩] : List Feat).take 2, stamp x = none := by decide

end Verif.Release.Nesdis
