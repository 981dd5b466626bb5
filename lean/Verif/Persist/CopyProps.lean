import Verif.Persist.CopyModel
import Mathlib.Tactic.NormNum

/-!
# C346: copies of compiled objects
-/

namespace Verif.Persist.Copy

/-- A random mover after any history of settings. -/
def randomAfter (coef factor : Rat) (ops : List RandomOp) : Option Random := (randomInit coef factor).map fun x => ops.foldl randomSet x

theorem randomSet_ok (ops : List RandomOp) : ∀ (x : Random), 0 ≤ x.coef → 1 ≤ x.factor → 0 ≤ (ops.foldl randomSet x).coef ∧ 1 ≤ (ops.foldl randomSet x).factor := by
  induction ops with
  | nil => intro x h1 h2; exact ⟨h1, h2⟩
  | cons o ops ih =>
      intro x h1 h2
      refine ih _ ?_ ?_
      · cases o with
        | coef v =>
            simp only [randomSet]
            split
            · exact h1
            · next h => exact not_lt.mp h
        | factor v =>
            simp only [randomSet]
            split <;> exact h1
      · cases o with
        | coef v =>
            simp only [randomSet]
            split <;> exact h2
        | factor v =>
            simp only [randomSet]
            split
            · exact h2
            · next h => exact not_lt.mp h

/-- Spec: a copy has every setting of the original. -/
def Faithful {α : Type} (copy : α → Option α) (x : α) : Prop := copy x = some x

/-- The claim for current movers: copies of movers with their pattern are movers of the same class with the same settings, pattern and tide. -/
def C346_claim : Prop := (∀ x : Cats, Faithful (fun y => some (catsCopy y)) x) ∧ ∀ k, copyClass k = k

/-- The claim for time series and tides, as long as their files are as they were. -/
def C346_claim_times : Prop :=
  (∀ read (f : Nat) format values scale ex x, seriesInit read (some f) format values scale ex = some x → Faithful (seriesCopy read) x) ∧
  ∀ read f scale d y ex x, shioInit read f scale d y = some x → Faithful (shioCopy read) { x with extrapolate := ex }

/-- A random mover can be copied after any history, and the copy is as the original. -/
theorem C346_random {coef factor : Rat} {ops : List RandomOp} {x : Random} (h : randomAfter coef factor ops = some x) : Faithful randomCopy x := by
  unfold randomAfter randomInit at h
  split at h
  · cases h
  · next h1 =>
      split at h
      · cases h
      · next h2 =>
          obtain ⟨h3, h4⟩ := randomSet_ok ops ⟨coef, factor⟩ (not_lt.mp h1) (not_lt.mp h2)
          cases h
          unfold Faithful randomCopy randomInit
          rw [if_neg (not_lt.mpr h3), if_neg (not_lt.mpr h4)]

/-- The copy of a CATS mover has its scale, eddy diffusion, reference point, duration, delay and the intervals of uncertainty; left and right are exchanged, and there again in the copy of the copy. -/
theorem C346_cats_partial (x : Cats) :
    (catsCopy x).scaleType = x.scaleType ∧ (catsCopy x).scaleValue = x.scaleValue ∧ (catsCopy x).eddy = x.eddy ∧ (catsCopy x).ref = x.ref ∧
    (catsCopy x).cur.duration = x.cur.duration ∧ (catsCopy x).cur.delay = x.cur.delay ∧
    (catsCopy x).cur.up = x.cur.up ∧ (catsCopy x).cur.down = x.cur.down ∧ (catsCopy x).cur.left = x.cur.right ∧ (catsCopy x).cur.right = x.cur.left ∧
    (catsCopy (catsCopy x)).cur = x.cur := ⟨rfl, rfl, rfl, rfl, rfl, rfl, rfl, rfl, rfl, rfl, rfl⟩

/-- Though left and right are exchanged, the numbers drawn are from the same intervals. -/
theorem C346_draws (x : Cats) : (catsCopy x).cur.across = x.cur.across ∧ (catsCopy x).cur.along = x.cur.along := by
  refine ⟨?_, rfl⟩
  change (if x.cur.right < x.cur.left then (x.cur.right, x.cur.left) else (x.cur.left, x.cur.right)) = if x.cur.left < x.cur.right then (x.cur.left, x.cur.right) else (x.cur.right, x.cur.left)
  rcases lt_trichotomy x.cur.left x.cur.right with h | h | h
  · rw [if_neg (not_lt.mpr (le_of_lt h)), if_pos h]
  · rw [h]
  · rw [if_pos h, if_neg (not_lt.mpr (le_of_lt h))]

/-- The pattern and the tide of a CATS mover are never in its copy, and `uncertain_eddy_v0` is 0.1 again. -/
theorem C346_lost (x : Cats) : (catsCopy x).pattern = none ∧ (catsCopy x).tide = none ∧ (catsCopy x).eddyV0 = 1 / 10 := ⟨rfl, rfl, rfl⟩

/-- The copy is the mover exactly if there is no pattern and no tide, left and right are alike, and `uncertain_eddy_v0` is 0.1. -/
theorem C346_exact (x : Cats) : catsCopy x = x ↔ x.pattern = none ∧ x.tide = none ∧ x.cur.left = x.cur.right ∧ x.eddyV0 = 1 / 10 := by
  constructor
  · intro h
    refine ⟨?_, ?_, ?_, ?_⟩
    · rw [← h]; rfl
    · rw [← h]; rfl
    · have := congrArg (fun y => y.cur.left) h
      exact this.symm
    · rw [← h]; rfl
  · rintro ⟨h1, h2, h3, h4⟩
    obtain ⟨a, b, c, d, e, ⟨f, g, h, i, j, k⟩, l, m⟩ := x
    simp only at h1 h2 h3 h4
    subst h1 h2 h3 h4
    rfl

theorem C346_counterexample : ¬ C346_claim := by
  intro h
  have := h.1 ⟨1, 1, 0, 1 / 10, none, ⟨172800, 0, 3 / 10, -3 / 10, 1 / 10, -1 / 10⟩, some 1, none⟩
  exact absurd (Option.some.inj this) (by decide +kernel)

/-- The copy of a component mover is of another class. -/
theorem C346_counterexample_class : copyClass .component ≠ .component := by decide

/-- A copy of a time series can always be made and has its values, scale and extrapolation, also if the file is gone. -/
theorem C346_series_partial (read : Nat → Nat → Option (List (Int × Rat × Rat) × Int)) (x : Series) :
    ∃ y, seriesCopy read x = some y ∧ y.values = x.values ∧ y.scale = x.scale ∧ y.extrapolate = x.extrapolate ∧
      y.file = none ∧ y.units = -1 ∧ y.format = 0 := ⟨_, rfl, rfl, rfl, rfl, rfl, rfl, rfl⟩

/-- A series that was made from values is copied as it is. -/
theorem C346_series {read : Nat → Nat → Option (List (Int × Rat × Rat) × Int)} {format : Nat} {values : Option (List (Int × Rat × Rat))} {scale : Rat} {ex : Bool} {x : Series}
    (h : seriesInit read none format values scale ex = some x) : Faithful (seriesCopy read) x := by
  cases h
  rfl

/-- A tide has the settings that it was made with, and the station of its file; without a station in the file it is refused. -/
theorem C346_tide_made (read : Nat → Option Nat) (f y : Nat) (scale : Rat) (d : Bool) :
    (∀ st, read f = some st → shioInit read f scale d y = some ⟨f, st, scale, d, y, false⟩) ∧ (read f = none → shioInit read f scale d y = none) := by
  constructor
  · intro st h
    simp [shioInit, h]
  · intro h
    simp [shioInit, h]

/-- A tide is copied with all but extrapolation as long as its file is as it was. -/
theorem C346_tide_partial {read : Nat → Option Nat} {f y : Nat} {scale : Rat} {d ex : Bool} {x : Shio} (h : shioInit read f scale d y = some x) :
    shioCopy read { x with extrapolate := ex } = some { x with extrapolate := false } := by
  unfold shioInit at h
  cases hr : read f with
  | none => rw [hr] at h; cases h
  | some st =>
      rw [hr] at h
      cases h
      simp [shioCopy, shioInit, hr]

theorem C346_counterexample_times : ¬ C346_claim_times := by
  intro h
  have := h.2 (fun _ => some 1) 0 1 false 0 true _ rfl
  exact absurd (Option.some.inj this) (by decide)

/-- The file and the units of a series that was read from a file are not in its copy. -/
theorem C346_counterexample_units : ¬ ∀ read (f : Nat) format values scale ex x, seriesInit read (some f) format values scale ex = some x → Faithful (seriesCopy read) x := by
  intro h
  have := h (fun _ _ => some ([], 1)) 0 0 none 1 false _ rfl
  exact absurd (Option.some.inj this) (by decide)

/-- Cases: a random mover whose factor was refused, and the usual CATS mover. -/
example : randomAfter 100000 2 [.factor 0, .coef 5] = some ⟨5, 2⟩ ∧
    (catsCopy ⟨1, 2, 0, 1 / 10, some (1, 2, 0), ⟨172800, 0, 3 / 10, -3 / 10, 1 / 10, -1 / 10⟩, some 1, some 2⟩).cur.left = 1 / 10 := by
  constructor
  · norm_num [randomAfter, randomInit, randomSet]
  · rfl

end Verif.Persist.Copy
