import Verif.Shio.YearModel
import Mathlib.Data.List.Induction

/-!
# C340: tides use the year data of their folder, and have values in the period that they tell
-/
namespace Verif.Shio.Year

/-! ## Specification -/

/-- A tide answers with the file of its folder. -/
def own (files : Files) (p : String) (t : T) : Option Data := (files p (beginYear t)).map (·.take 128)

/-- C340: whatever was asked before, of whichever tides -/
def C340_claim : Prop := ∀ (files : Files) (rs : List (String × T)), answers files [] rs = rs.map fun r => own files r.1 r.2

/-! ## Proofs -/

/-- What is kept is that of the folder. -/
def Good (files : Files) (p : String) (k : Kept) : Prop := ∀ y d, kept k y = some d → (files p y).map (·.take 128) = some d

theorem kept_cons (y z : Int) (d : Data) (k : Kept) : kept ((y, d) :: k) z = if y = z then some d else kept k z := by
  unfold kept
  rw [List.find?_cons]
  by_cases h : y = z <;> simp [h]

theorem read_one (files : Files) (p : String) (k : Kept) (hg : Good files p k) (y : Int) :
    (readYear files k p y).1 = (files p y).map (·.take 128) ∧ Good files p (readYear files k p y).2 := by
  unfold readYear
  split
  · rename_i d h
    split at h
    · exact ⟨(hg y d h).symm, hg⟩
    · cases h
  · split
    · rename_i h
      exact ⟨by rw [h]; rfl, hg⟩
    · rename_i d h
      refine ⟨by rw [h]; rfl, ?_⟩
      simp only
      split
      · intro z e hz
        rw [kept_cons] at hz
        split at hz
        · rename_i hyz
          subst hyz
          rw [h, ← hz]
          rfl
        · exact hg z e hz
      · exact hg

theorem answers_one (files : Files) (p : String) (rs : List (String × T)) (hr : ∀ r ∈ rs, r.1 = p) (k : Kept) (hg : Good files p k) :
    answers files k rs = rs.map fun r => own files r.1 r.2 := by
  induction rs generalizing k with
  | nil => rfl
  | cons r rs ih =>
    obtain ⟨q, t⟩ := r
    have hq : q = p := hr (q, t) List.mem_cons_self
    subst hq
    obtain ⟨h1, h2⟩ := read_one files q k hg (beginYear t)
    rw [answers, List.map_cons, ih (fun r hr' => hr r (List.mem_cons_of_mem _ hr')) (answer files k q t).2 h2]
    rw [show (answer files k q t).1 = _ from h1]
    rfl

/-- C340: when all tides of the process have the same folder -/
theorem C340_partial (files : Files) (p : String) (rs : List (String × T)) (hr : ∀ r ∈ rs, r.1 = p) :
    answers files [] rs = rs.map fun r => own files r.1 r.2 :=
  answers_one files p rs hr [] (fun y d h => by simp [kept] at h)

/-- C340: and with any folders, when the years are not among those that are kept -/
theorem C340_late (files : Files) (k : Kept) (p : String) (t : T) (h : beginYear t < 1990 ∨ 2020 ≤ beginYear t) :
    (answer files k p t).1 = own files p t ∧ (answer files k p t).2 = k := by
  have hk : keeps (beginYear t) = false := by
    unfold keeps
    rw [Bool.and_eq_false_iff]
    simp only [decide_eq_false_iff_not]
    omega
  unfold answer readYear own
  rw [hk]
  simp only [Bool.false_eq_true, if_false]
  split
  · rename_i h
    rw [h]
    exact ⟨rfl, rfl⟩
  · rename_i d h
    rw [h]
    exact ⟨rfl, rfl⟩

/-- Two folders with a file for 2010 -/
def two : Files := fun p y => if y = 2010 then (if p = "a" then some [(1, 2)] else some [(3, 4)]) else none

/-- The second tide gets the year data of the first. -/
theorem C340_counterexample : ¬ C340_claim := by
  intro h
  exact absurd (h two [("a", ⟨2010, 100000⟩), ("b", ⟨2010, 100000⟩)]) (by decide +kernel)

/-! ### The period -/

theorem foldl_min_le (ys : List Int) (y : Int) : ys.foldl min y ≤ y ∧ ∀ z ∈ ys, ys.foldl min y ≤ z := by
  induction ys generalizing y with
  | nil => simp
  | cons a ys ih =>
    rw [List.foldl_cons]
    obtain ⟨h1, h2⟩ := ih (min y a)
    refine ⟨by omega, ?_⟩
    intro z hz
    rcases List.mem_cons.1 hz with rfl | hz
    · omega
    · exact h2 z hz

theorem le_foldl_max (ys : List Int) (y : Int) : y ≤ ys.foldl max y ∧ ∀ z ∈ ys, z ≤ ys.foldl max y := by
  induction ys generalizing y with
  | nil => simp
  | cons a ys ih =>
    rw [List.foldl_cons]
    obtain ⟨h1, h2⟩ := ih (max y a)
    refine ⟨by omega, ?_⟩
    intro z hz
    rcases List.mem_cons.1 hz with rfl | hz
    · omega
    · exact h2 z hz

/-- A tide has values from its `data_start` to its `data_stop`, when there is a file for every year between. -/
def C340_claim_period : Prop := ∀ (files : Files) (p : String) (y : Int) (ys : List Int) (secs : Int → Nat) (t : T),
  (∀ z, (dataStart ys y).year ≤ z → z ≤ (dataStop ys y secs).year → files p z ≠ none) →
  (dataStart ys y).le t → t.le (dataStop ys y secs) → own files p t ≠ none

/-- C340: from six hours after its `data_start` -/
theorem C340_period_partial (files : Files) (p : String) (y : Int) (ys : List Int) (secs : Int → Nat) (t : T)
    (hf : ∀ z, (dataStart ys y).year ≤ z → z ≤ (dataStop ys y secs).year → files p z ≠ none)
    (h1 : (⟨(dataStart ys y).year, 6 * 3600⟩ : T).le t) (h2 : t.le (dataStop ys y secs)) : own files p t ≠ none := by
  unfold own
  have hy : (dataStart ys y).year ≤ beginYear t ∧ beginYear t ≤ (dataStop ys y secs).year := by
    unfold beginYear
    simp only [T.le] at h1 h2
    split <;> omega
  have := hf _ hy.1 hy.2
  cases h : files p (beginYear t) with
  | none => exact absurd h this
  | some d => simp

/-- At three in the morning of the first day there is none: the file of the year before is asked for. -/
theorem C340_counterexample_period : ¬ C340_claim_period := by
  intro h
  refine absurd (h (fun _ z => if z = 1980 then some [] else none) "a" 1980 [] (fun _ => 366 * 86400) ⟨1980, 3 * 3600⟩ ?_ ?_ ?_) ?_
  · intro z h1 h2
    have : z = 1980 := by
      simp only [dataStart, dataStop, List.foldl_nil] at h1 h2
      omega
    simp [this]
  · right
    exact ⟨rfl, by simp [dataStart]⟩
  · right
    exact ⟨rfl, by decide⟩
  · decide +kernel

/-- C340: the years that a tide tells are the first and last of the files. -/
theorem C340_limits (y : Int) (ys : List Int) (secs : Int → Nat) :
    (∀ z ∈ y :: ys, (dataStart ys y).year ≤ z ∧ z ≤ (dataStop ys y secs).year) ∧
    (dataStart ys y).year ∈ y :: ys ∧ (dataStop ys y secs).year ∈ y :: ys := by
  refine ⟨?_, ?_, ?_⟩
  · intro z hz
    rcases List.mem_cons.1 hz with rfl | hz
    · exact ⟨(foldl_min_le ys z).1, (le_foldl_max ys z).1⟩
    · exact ⟨(foldl_min_le ys y).2 z hz, (le_foldl_max ys y).2 z hz⟩
  · change ys.foldl min y ∈ y :: ys
    induction ys generalizing y with
    | nil => simp
    | cons a ys ih =>
      rw [List.foldl_cons]
      have := ih (min y a)
      rcases List.mem_cons.1 this with h | h
      · rw [h]
        rcases min_choice y a with h' | h' <;> rw [h'] <;> simp
      · simp [h]
  · change ys.foldl max y ∈ y :: ys
    induction ys generalizing y with
    | nil => simp
    | cons a ys ih =>
      rw [List.foldl_cons]
      have := ih (max y a)
      rcases List.mem_cons.1 this with h | h
      · rw [h]
        rcases max_choice y a with h' | h' <;> rw [h'] <;> simp
      · simp [h]

/-! ## Cases that meet the hypotheses -/

/-- Two requests for 2010 of tides with one folder -/
example : answers two [] [("a", ⟨2010, 100000⟩), ("a", ⟨2011, 10⟩), ("a", ⟨2011, 100000⟩)] = [some [(1, 2)], some [(1, 2)], none] := by
  rw [C340_partial two "a" _ (by simp)]
  decide +kernel

example : (⟨1980, 6 * 3600⟩ : T).le ⟨1980, 100000⟩ := Or.inr ⟨rfl, by decide⟩

end Verif.Shio.Year
