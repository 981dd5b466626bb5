import Verif.Release.FromFileModel
import Verif.Place.GridProps
import Mathlib.Data.List.Count
import Mathlib.Tactic.Linarith

/-!
# C251, C252: releases from files of splots, from NetCDF output and from plumes
-/
namespace Verif.Release.FromFile
open Verif.Place

/-! ## C251: splots -/

/-- The number of elements that a file of splots asks for at a place: the sum over its lines. -/
def asked (rows : List (ℚ × ℚ × ℚ)) (x : Pos) : Nat := ((rows.filter fun r => ((r.1, r.2.1, 0) : Pos) = x).map fun r => (whole r.2.2).toNat).sum

/-- C251: the release of a file of splots has at each place as many elements as the file says, whatever random numbers are drawn. -/
def C251_claim : Prop :=
  ∀ (time : Int) (rows : List (ℚ × ℚ × ℚ)) (r : Rel) (t : Int) (draws : List Nat) (x : Pos), fromSplots time rows = .ok r → time ≤ t →
    Draws r.positions r.num draws → (step r t draws ⟨0, []⟩).2 = none → (step r t draws ⟨0, []⟩).1.elems.count x = asked rows x

theorem positions_count (rows : List (ℚ × ℚ × ℚ)) (x : Pos) :
    (rows.flatMap fun r => List.replicate (whole r.2.2).toNat ((r.1, r.2.1, 0) : Pos)).count x = asked rows x := by
  unfold asked
  induction rows with
  | nil => rfl
  | cons a l ih =>
    rw [List.flatMap_cons, List.count_append, ih, List.filter_cons, List.count_replicate]
    by_cases h : ((a.1, a.2.1, 0) : Pos) = x
    · simp [h]
    · simp [h]

theorem splots_ok (time : Int) (rows : List (ℚ × ℚ × ℚ)) (r : Rel) (h : fromSplots time rows = .ok r) :
    r.time = time ∧ r.num = 1000 ∧ 2 ≤ rows.length ∧ ∀ x, r.positions.count x = asked rows x := by
  unfold fromSplots at h
  split at h
  · cases h
  · rename_i hl
    split at h
    · cases h
    · injection h with h
      subst h
      exact ⟨rfl, rfl, by omega, fun x => positions_count rows x⟩

/-- **C251, any file**: 1000 elements are released, whatever the file says; each place has its number times 1000 over the total, rounded down, and at most the
rest more, by chance. -/
theorem C251_share (time : Int) (rows : List (ℚ × ℚ × ℚ)) (r : Rel) (t : Int) (draws : List Nat) (h : fromSplots time rows = .ok r) (ht : time ≤ t)
    (hp : r.positions ≠ []) (hd : Draws r.positions r.num draws) :
    (step r t draws ⟨0, []⟩).2 = none ∧ (step r t draws ⟨0, []⟩).1.elems.length = 1000 ∧
    ∀ x, 1000 / r.positions.length * asked rows x ≤ (step r t draws ⟨0, []⟩).1.elems.count x ∧
      (step r t draws ⟨0, []⟩).1.elems.count x ≤ 1000 / r.positions.length * asked rows x + 1000 % r.positions.length := by
  obtain ⟨e1, e2, -, e3⟩ := splots_ok time rows r h
  rw [e2] at hd
  obtain ⟨l, a1, a2, -⟩ := C115_all r.positions 1000 draws hp hd
  have hs : step r t draws ⟨0, []⟩ = (⟨1000, l⟩, none) := by
    unfold step
    rw [e1, e2]
    simp [not_lt.mpr ht, a1]
  rw [hs]
  refine ⟨rfl, a2, fun x => ?_⟩
  obtain ⟨l', b1, b2, b3⟩ := C115_share r.positions 1000 draws hp hd x
  rw [a1, Option.some.injEq] at b1
  subst b1
  rw [← e3 x]
  rw [show (instBEqOfDecidableEq : BEq Pos) = instBEqProd from lawful_beq_subsingleton _ _] at b2 b3
  exact ⟨b2, b3⟩

/-- C251, when the file asks for 1000 elements in all (a divisor of 1000 gives a multiple everywhere, see `C251_share`). Missing: any other total. -/
theorem C251_partial (time : Int) (rows : List (ℚ × ℚ × ℚ)) (r : Rel) (t : Int) (draws : List Nat) (x : Pos) (h : fromSplots time rows = .ok r) (ht : time ≤ t)
    (hn : r.positions.length = 1000) (hd : Draws r.positions r.num draws) : (step r t draws ⟨0, []⟩).1.elems.count x = asked rows x := by
  obtain ⟨-, -, h3⟩ := C251_share time rows r t draws h ht (by intro e; rw [e] at hn; simp at hn) hd
  have := h3 x
  rw [hn] at this
  omega

/-- **C251, totals**: the number of positions is the sum of the numbers in the file. -/
theorem C251_total (time : Int) (rows : List (ℚ × ℚ × ℚ)) (r : Rel) (h : fromSplots time rows = .ok r) :
    r.positions.length = (rows.map fun p => (whole p.2.2).toNat).sum := by
  unfold fromSplots at h
  split at h
  · cases h
  · split at h
    · cases h
    · injection h with h
      subst h
      simp [List.length_flatMap]

/-- A file of two lines, of 600 and 400 elements. -/
example : ∃ r, fromSplots 0 [(1, 2, 600), (3, 4, 400)] = .ok r ∧ r.positions.length = 1000 := by
  refine ⟨_, rfl, ?_⟩
  simp [whole]
  decide +kernel

/-- Two lines of 1 element each: 500 elements are released at each. -/
theorem C251_counterexample : ¬ C251_claim := by
  intro h
  have hs : fromSplots 0 [(1, 2, 1), (3, 4, 1)] = .ok ⟨0, 1000, [(1, 2, 0), (3, 4, 0)]⟩ := by
    have : whole 1 = 1 := by decide +kernel
    simp [fromSplots, this]
  have hd : Draws ([(1, 2, 0), (3, 4, 0)] : List Pos) 1000 [] := ⟨by decide, by simp⟩
  obtain ⟨a, -, b⟩ := C251_share 0 _ _ 0 [] hs (le_refl _) (by simp) hd
  have c := h 0 _ _ 0 [] (1, 2, 0) hs (le_refl _) hd a
  have b' := (b (1, 2, 0)).1
  rw [c] at b'
  have : asked [(1, 2, 1), (3, 4, 1)] (1, 2, 0) = 1 := by decide +kernel
  rw [this] at b'
  simp at b'

/-- **C251, short files**: a file of one line cannot be used. -/
theorem C251_one (time : Int) (row : ℚ × ℚ × ℚ) : fromSplots time [row] = .error .index := rfl

/-- **C251, large files**: when the file asks for more than 1000 elements, a place may stay without any, however many it asks for below the total: all the
elements may be at one other place. -/
theorem C251_large (time : Int) (rows : List (ℚ × ℚ × ℚ)) (r : Rel) (t : Int) (h : fromSplots time rows = .ok r) (ht : time ≤ t)
    (hl : 1000 < r.positions.length) (x : Pos) (hx : x ∈ r.positions) :
    ∃ draws, Draws r.positions r.num draws ∧ ∀ y, y ≠ x → y ∉ (step r t draws ⟨0, []⟩).1.elems := by
  obtain ⟨e1, e2, -, -⟩ := splots_ok time rows r h
  obtain ⟨i, hi, e⟩ := List.getElem_of_mem hx
  have hp : r.positions ≠ [] := by intro e; rw [e] at hl; simp at hl
  refine ⟨List.replicate 1000 i, ⟨?_, ?_⟩, ?_⟩
  · rw [e2, List.length_replicate, Nat.mod_eq_of_lt hl]
  · intro j hj; rw [List.eq_of_mem_replicate hj]; exact hi
  · intro y hy hm
    have hc : customPositions r.positions 1000 (List.replicate 1000 i) = some (List.replicate 1000 x) := by
      unfold customPositions
      rw [if_neg hp, Nat.div_eq_of_lt hl]
      congr 1
      simp only [List.replicate_zero, List.flatten_nil, List.nil_append]
      rw [List.filterMap_replicate_of_some (b := x)]
      rw [List.getElem?_eq_getElem hi, e]
    have hs : step r t (List.replicate 1000 i) ⟨0, []⟩ = (⟨1000, List.replicate 1000 x⟩, none) := by
      unfold step
      rw [e1, e2]
      simp only [not_lt.mpr ht, if_false, Nat.sub_zero, hc, Nat.zero_add, List.nil_append]
      rw [if_neg (by omega)]
    rw [hs] at hm
    exact hy (List.eq_of_mem_replicate hm)

/-! ## C252: releases from NetCDF output and from plumes -/

/-- C252: a release from a record of a NetCDF file releases, at its time, elements at the positions in the file. -/
def C252_claim : Prop :=
  ∀ (time : Int) (elems : List Pos) (t : Int) (draws : List Nat), time ≤ t → step (fromNetCDF time elems) t draws ⟨0, []⟩ = (⟨elems.length, elems⟩, none)

/-- A release without positions. -/
theorem step_none (r : Rel) (hr : r.positions = []) (t : Int) (draws : List Nat) (ht : r.time ≤ t) (hn : r.num ≠ 0) :
    step r t draws ⟨0, []⟩ = (⟨r.num, List.replicate r.num (0, 0, 0)⟩, some .value) := by
  unfold step customPositions
  simp [not_lt.mpr ht, hn, hr]

/-- **C252, never**: a release from a NetCDF file with elements raises an error at the first step that reaches its time, and its elements are at (0, 0, 0). -/
theorem C252_never (time : Int) (elems : List Pos) (he : elems ≠ []) (t : Int) (ht : time ≤ t) (draws : List Nat) :
    step (fromNetCDF time elems) t draws ⟨0, []⟩ = (⟨elems.length, List.replicate elems.length (0, 0, 0)⟩, some .value) :=
  step_none _ rfl t draws ht (by simpa [fromNetCDF] using he)

/-- **C252, plumes**: the same for a release from a plume, whatever the plume is like. -/
theorem C252_plume (time : Int) (num : Option Nat) (hn : num ≠ some 0) (t : Int) (ht : time ≤ t) (draws : List Nat) :
    (step (fromPlume time num) t draws ⟨0, []⟩).2 = some .value := by
  rw [step_none _ rfl t draws ht]
  cases num with
  | none => simp [fromPlume]
  | some n => simp only [fromPlume, Option.getD_some]; intro e; exact hn (by rw [e])

theorem C252_counterexample : ¬ C252_claim := by
  intro h
  have := h 0 [(1, 2, 0)] 0 [] (le_refl _)
  rw [C252_never 0 _ (by simp) 0 (le_refl _)] at this
  injection this with _ h2
  cases h2

/-- C252, before the time of the release, and for a record without elements: no elements, no error. Missing: all the other steps, see `C252_never`. -/
theorem C252_partial (time : Int) (elems : List Pos) (t : Int) (draws : List Nat) (h : t < time ∨ elems = []) :
    step (fromNetCDF time elems) t draws ⟨0, []⟩ = (⟨0, []⟩, none) := by
  unfold step fromNetCDF
  rcases h with h | rfl
  · simp [h]
  · simp

/-- **C252, afterwards**: when the run goes on after the error, it is not raised again and no elements are added: they stay as they are. -/
theorem C252_after (time : Int) (elems : List Pos) (he : elems ≠ []) (t t' : Int) (ht : time ≤ t) (draws draws' : List Nat) :
    step (fromNetCDF time elems) t' draws' (step (fromNetCDF time elems) t draws ⟨0, []⟩).1 = ((step (fromNetCDF time elems) t draws ⟨0, []⟩).1, none) := by
  rw [C252_never time elems he t ht]
  unfold step fromNetCDF
  by_cases h : t' < time <;> simp [h]

example : ([(1, 2, 0), (3, 4, 5)] : List Pos) ≠ [] ∧ (0 : Int) ≤ 3600 := by simp

end Verif.Release.FromFile
