import Verif.NcOut.Model
import Mathlib.Tactic.Linarith
import Mathlib.Data.List.Range
/-!
# C131 what is read from a netCDF file is what was written; C132 which arrays are written
-/
namespace Verif.NcOut

variable {V : Type}

/-- spec: the data of a container -/
def IsData (arrays : List String) (d : Data V) (s : Snap V) : Prop :=
  d.time = s.time ∧ ∀ n ∈ arrays, d.vals n = s.rows.map (fun r => some (r n))

/-- number of elements in the records before `i` -/
def offset (l : List (Snap V)) (i : Nat) : Nat := ((l.take i).map (fun s => s.rows.length)).sum

theorem offset_append_lt (l : List (Snap V)) (s : Snap V) {i : Nat} (h : i ≤ l.length) : offset (l ++ [s]) i = offset l i := by
  unfold offset
  rw [List.take_append_of_le_length h]

theorem offset_succ_le (l : List (Snap V)) {i : Nat} (h : i < l.length) : offset l i + l[i].rows.length ≤ offset l l.length := by
  unfold offset
  have e : l.take l.length = l.take i ++ l[i] :: l.drop (i + 1) := by
    rw [List.take_length, ← List.drop_eq_getElem_cons h, List.take_append_drop]
  rw [e, List.map_append, List.sum_append, List.map_cons, List.sum_cons]
  omega

theorem offset_snoc (l : List (Snap V)) (s : Snap V) :
    offset (l ++ [s]) (l ++ [s]).length = offset l l.length + s.rows.length := by
  unfold offset
  rw [List.take_length, List.take_length, List.map_append, List.sum_append]
  rfl

/-- a file that holds the containers `l`, each where it is looked for -/
structure Holds (arrays : List String) (f : File V) (l : List (Snap V)) : Prop where
  times : f.times = l.map Snap.time
  counts : f.counts = l.map (fun s => s.rows.length)
  size : arrays ≠ [] → offset l l.length ≤ f.size
  var : ∀ n ∈ arrays, ∀ (i : Nat) (hi : i < l.length) (k : Nat) (hk : k < l[i].rows.length),
    f.var n (offset l i + k) = some (l[i].rows[k] n)

theorem holds_nil (arrays : List String) : Holds arrays ({} : File V) [] :=
  ⟨rfl, rfl, fun _ => Nat.le_refl _, fun _ _ i hi => absurd hi (Nat.not_lt_zero i)⟩

/-- writing at the end of what is there -/
theorem holds_write {arrays : List String} {f : File V} {l : List (Snap V)} (h : Holds arrays f l) (s : Snap V) :
    Holds arrays (writeOne arrays (offset l l.length) f s) (l ++ [s]) := by
  have hoff := offset_snoc l s
  refine ⟨by simp [writeOne, h.times], by simp [writeOne, h.counts], ?_, ?_⟩
  · intro ha
    rw [hoff]
    have := h.size ha
    simp only [writeOne, ha, or_false]
    split
    · rename_i e
      rw [e]
      simpa using this
    · exact le_max_right _ _
  · intro n hn i hi k hk
    simp only [writeOne, hn, if_true]
    rw [List.length_append, List.length_singleton] at hi
    by_cases hl : i < l.length
    · have e : (l ++ [s])[i] = l[i] := List.getElem_append_left hl
      have hk' : k < l[i].rows.length := by rw [← e]; exact hk
      rw [offset_append_lt l s hl.le]
      have := offset_succ_le l hl
      unfold putVar
      rw [if_neg (by omega), h.var n hn i hl k hk']
      have : ∀ s' : Snap V, s' = l[i] → ∀ h' : k < s'.rows.length, l[i].rows[k] n = s'.rows[k] n := by
        rintro _ rfl _
        rfl
      exact congrArg some (this _ e hk)
    · have hi' : i = l.length := by omega
      subst hi'
      have e : (l ++ [s])[l.length] = s := by simp
      have hk' : k < s.rows.length := by rw [← e]; exact hk
      rw [offset_append_lt l s (le_refl _)]
      unfold putVar
      rw [if_pos (by simp; omega)]
      have : ∀ s' : Snap V, s' = s → ∀ h' : k < s'.rows.length, s.rows[k] n = s'.rows[k] n := by
        rintro _ rfl _
        rfl
      simp [hk', this _ e hk]

theorem map_slice {α β : Type} (g : Nat → β) (rows : List α) (h : α → β) (a : Nat) (hg : ∀ (k : Nat) (hk : k < rows.length), g (a + k) = h rows[k]) :
    (List.range' a rows.length).map g = rows.map h := by
  apply List.ext_getElem
  · simp
  · intro k h1 h2
    simp only [List.length_map] at h2
    simp [hg k h2]

/-- a held record is read back -/
theorem read_holds {arrays : List String} (ha : arrays ≠ []) {f : File V} {l : List (Snap V)} (h : Holds arrays f l) {i : Nat}
    (hi : i < l.length) : ∃ d, readAt f (i : Int) = some d ∧ IsData arrays d l[i] := by
  have c : pyGet f.counts (i : Int) = some l[i].rows.length := by
    simp [pyGet, h.counts, hi]
  have t : pyGet f.times (i : Int) = some l[i].time := by
    simp [pyGet, h.times, hi]
  have o : (f.counts.take i).sum = offset l i := by
    unfold offset
    rw [h.counts, List.map_take]
  refine ⟨⟨l[i].time, fun n => slice f n (offset l i) (offset l i + l[i].rows.length)⟩, ?_, rfl, ?_⟩
  · unfold readAt
    simp only [c, t, Int.toNat_natCast, o]
  intro n hn
  simp only [slice]
  have h1 := offset_succ_le l hi
  have h2 := h.size ha
  rw [Nat.min_eq_left (by omega), Nat.add_sub_cancel_left]
  exact map_slice _ _ (fun r => some (r n)) _ (fun k hk => h.var n hn i hi k hk)

/-- the containers written into the two files -/
def foreOf (l : List (Snap V × Option (Snap V))) : List (Snap V) := l.map Prod.fst
def uncOf (l : List (Snap V × Option (Snap V))) : List (Snap V) := l.filterMap Prod.snd

theorem run_append (arrays : List String) (l : List (Snap V × Option (Snap V))) (p : Snap V × Option (Snap V)) :
    run arrays (l ++ [p]) = write arrays (run arrays l) p := by
  simp [run, List.foldl_append]

theorem run_single (arrays : List String) (l : List (Snap V × Option (Snap V))) (h : ∀ p ∈ l, p.2 = none) :
    Holds arrays (run arrays l).fore (foreOf l) ∧ (run arrays l).start = offset (foreOf l) (foreOf l).length := by
  induction l using List.reverseRecOn with
  | nil => exact ⟨holds_nil arrays, rfl⟩
  | append_singleton l p ih =>
    obtain ⟨i1, i2⟩ := ih (fun q hq => h q (by simp [hq]))
    have hp := h p (by simp)
    rw [run_append]
    have e : foreOf (l ++ [p]) = foreOf l ++ [p.1] := by simp [foreOf]
    rw [e]
    unfold write
    rw [hp]
    simp only [i2]
    exact ⟨holds_write i1 p.1, (offset_snoc _ _).symm⟩

theorem run_unc (arrays : List String) (l : List (Snap V × Option (Snap V))) (h : ∀ p ∈ l, p.2.isSome) :
    Holds arrays (run arrays l).unc (uncOf l) ∧ (run arrays l).start = offset (uncOf l) (uncOf l).length := by
  induction l using List.reverseRecOn with
  | nil => exact ⟨holds_nil arrays, rfl⟩
  | append_singleton l p ih =>
    obtain ⟨i1, i2⟩ := ih (fun q hq => h q (by simp [hq]))
    obtain ⟨u, hu⟩ := Option.isSome_iff_exists.1 (h p (by simp))
    rw [run_append]
    have e : uncOf (l ++ [p]) = uncOf l ++ [u] := by simp [uncOf, hu]
    rw [e]
    unfold write
    rw [hu]
    simp only [i2]
    exact ⟨holds_write i1 u, (offset_snoc _ _).symm⟩

/-- Both containers have the same number of elements in every step written. -/
def SameCounts (l : List (Snap V × Option (Snap V))) : Prop := ∀ p ∈ l, ∀ u, p.2 = some u → u.rows.length = p.1.rows.length

theorem run_pair (arrays : List String) (l : List (Snap V × Option (Snap V))) (h : SameCounts l) :
    Holds arrays (run arrays l).fore (foreOf l) ∧ (run arrays l).start = offset (foreOf l) (foreOf l).length := by
  induction l using List.reverseRecOn with
  | nil => exact ⟨holds_nil arrays, rfl⟩
  | append_singleton l p ih =>
    obtain ⟨i1, i2⟩ := ih (fun q hq => h q (by simp [hq]))
    have hp := h p (by simp)
    rw [run_append]
    have e : foreOf (l ++ [p]) = foreOf l ++ [p.1] := by simp [foreOf]
    rw [e]
    obtain ⟨a, b⟩ := p
    unfold write
    cases b with
    | none =>
      simp only [i2]
      exact ⟨holds_write i1 a, (offset_snoc _ _).symm⟩
    | some u =>
      simp only [i2]
      refine ⟨holds_write i1 a, ?_⟩
      rw [hp u rfl]
      exact (offset_snoc _ _).symm

/-! ### C131 -/

/-- Without uncertainty, every record of the file is the container written, for all variables. -/
theorem C131_forecast {arrays : List String} (ha : arrays ≠ []) (l : List (Snap V × Option (Snap V))) (h : ∀ p ∈ l, p.2 = none)
    {i : Nat} (hi : i < l.length) : ∃ d, read (run arrays l).fore (.index i) = some d ∧ IsData arrays d l[i].1 := by
  have hh := (run_single arrays l h).1
  have hi' : i < (foreOf l).length := by simpa [foreOf] using hi
  obtain ⟨d, h1, h2⟩ := read_holds ha hh hi'
  refine ⟨d, ?_, by simpa [foreOf] using h2⟩
  unfold read
  simp only
  rw [if_neg (by omega)]
  exact h1

/-- With uncertainty, the same for the uncertain file. -/
theorem C131_uncertain {arrays : List String} (ha : arrays ≠ []) (l : List (Snap V × Snap V)) {i : Nat} (hi : i < l.length) :
    ∃ d, read (run arrays (l.map (fun p => (p.1, some p.2)))).unc (.index i) = some d ∧ IsData arrays d l[i].2 := by
  have hh := (run_unc arrays (l.map (fun p => (p.1, some p.2))) (by intro p hp; simp at hp; obtain ⟨a, b, _, rfl⟩ := hp; rfl)).1
  have e : uncOf (l.map (fun p => (p.1, some p.2))) = l.map Prod.snd := by
    unfold uncOf
    rw [List.filterMap_map]
    induction l with
    | nil => rfl
    | cons a l ih => simp
  rw [e] at hh
  have hi' : i < (l.map Prod.snd).length := by simpa using hi
  obtain ⟨d, h1, h2⟩ := read_holds ha hh hi'
  refine ⟨d, ?_, by simpa using h2⟩
  unfold read
  simp only
  rw [if_neg (by omega)]
  exact h1

/-- the full claim for the forecast file, with or without uncertainty -/
def C131_claim : Prop := ∀ (arrays : List String), arrays ≠ [] → ∀ (l : List (Snap Nat × Option (Snap Nat))) (i : Nat)
  (hi : i < l.length), ∃ d, read (run arrays l).fore (.index i) = some d ∧ IsData arrays d l[i].1

/-- Holds as long as forecast and uncertain container have the same number of elements. -/
theorem C131_partial {arrays : List String} (ha : arrays ≠ []) (l : List (Snap V × Option (Snap V))) (h : SameCounts l)
    {i : Nat} (hi : i < l.length) : ∃ d, read (run arrays l).fore (.index i) = some d ∧ IsData arrays d l[i].1 := by
  have hh := (run_pair arrays l h).1
  have hi' : i < (foreOf l).length := by simpa [foreOf] using hi
  obtain ⟨d, h1, h2⟩ := read_holds ha hh hi'
  refine ⟨d, ?_, by simpa [foreOf] using h2⟩
  unfold read
  simp only
  rw [if_neg (by omega)]
  exact h1

def snap (t : Int) (xs : List Nat) : Snap Nat := ⟨t, xs.map (fun x _ => x), []⟩

/-- False: an element of the uncertain container leaves the model (or one more stays), and from the next record on the forecast file is
read from the wrong place. -/
theorem C131_counterexample : ¬ C131_claim := by
  intro h
  obtain ⟨d, h1, h2⟩ := h ["mass"] (by simp) [(snap 0 [1, 2], some (snap 0 [1])), (snap 1 [3, 4], some (snap 1 [3]))] 1 (by decide)
  have h3 := h2.2 "mass" (by simp)
  have e : read (run ["mass"] [(snap 0 [1, 2], some (snap 0 [1])), (snap 1 [3, 4], some (snap 1 [3]))]).fore (.index (1 : Nat)) =
      some d := h1
  have e' := congrArg (Option.map (fun d => d.vals "mass")) e
  rw [Option.map_some, h3] at e'
  revert e'
  decide

/-- Records can be asked for from the end. -/
theorem C131_from_end (f : File V) {k : Nat} (h1 : 1 ≤ k) (h2 : k ≤ f.times.length) :
    read f (.index (-(k : Int))) = read f (.index ((f.times.length - k : Nat) : Int)) := by
  unfold read
  simp only
  rw [if_pos (by omega), if_neg (by omega)]
  congr 1
  omega

/-- Asking for no record in particular works exactly if there is one record. -/
theorem C131_nothing {arrays : List String} (ha : arrays ≠ []) {f : File V} {l : List (Snap V)} (h : Holds arrays f l) :
    (∀ s, l = [s] → ∃ d, read f .nothing = some d ∧ IsData arrays d s) ∧ (l.length ≠ 1 → read f .nothing = none) := by
  constructor
  · intro s e
    subst e
    unfold read
    rw [if_neg (by simp [h.times])]
    exact read_holds ha h (i := 0) (by simp)
  · intro hl
    unfold read
    have : f.times.length = l.length := by rw [h.times, List.length_map]
    by_cases h1 : 1 < f.times.length
    · rw [if_pos h1]
    · rw [if_neg h1]
      have : l = [] := List.length_eq_zero_iff.1 (by omega)
      subst this
      simp [readAt, pyGet, h.counts, h.times]

theorem argmin_spec (t : Int) : ∀ (l : List Int), l ≠ [] → argmin t l < l.length ∧
    (∀ (j : Nat) (h : j < l.length), (l[argmin t l]?.getD 0 - t).natAbs ≤ (l[j] - t).natAbs) ∧
    (∀ (j : Nat) (h : j < l.length), j < argmin t l → (l[argmin t l]?.getD 0 - t).natAbs < (l[j] - t).natAbs) := by
  intro l
  induction l with
  | nil => intro h; exact absurd rfl h
  | cons x l ih =>
    intro _
    cases l with
    | nil =>
      refine ⟨by simp [argmin], ?_, ?_⟩
      · intro j h
        simp at h
        subst h
        simp [argmin]
      · intro j h hj
        simp [argmin] at hj
    | cons y l =>
      obtain ⟨i1, i2, i3⟩ := ih (by simp)
      rw [argmin]
      split
      · rename_i hx
        refine ⟨by simp, ?_, ?_⟩
        · intro j h
          cases j with
          | zero => simp
          | succ j =>
            have := i2 j (by simpa using h)
            simp only [List.getElem?_cons_zero, Option.getD_some, List.getElem_cons_succ]
            exact hx.trans this
        · intro j h hj
          exact absurd hj (Nat.not_lt_zero j)
      · rename_i hx
        refine ⟨by simpa using i1, ?_, ?_⟩
        · intro j h
          cases j with
          | zero =>
            simp only [List.getElem?_cons_succ, List.getElem_cons_zero]
            omega
          | succ j =>
            simp only [List.getElem?_cons_succ, List.getElem_cons_succ]
            exact i2 j (by simpa using h)
        · intro j h hj
          cases j with
          | zero =>
            simp only [List.getElem?_cons_succ, List.getElem_cons_zero]
            omega
          | succ j =>
            simp only [List.getElem?_cons_succ, List.getElem_cons_succ]
            exact i3 j (by simpa using h) (by omega)

/-- Asking for a time gives a record whose time is nearest to it, the earliest such record, and the first one for times before the
beginning. -/
theorem C131_time {arrays : List String} (ha : arrays ≠ []) {f : File V} {l : List (Snap V)} (h : Holds arrays f l) (hl : l ≠ [])
    (t : Int) : ∃ (i : Nat) (hi : i < l.length) (d : Data V), read f (.time t) = some d ∧ IsData arrays d l[i] ∧
      (t < 0 → i = 0) ∧ (0 ≤ t → (∀ (j : Nat) (hj : j < l.length), (l[i].time - t).natAbs ≤ (l[j].time - t).natAbs) ∧
      ∀ (j : Nat) (hj : j < l.length), j < i → (l[i].time - t).natAbs < (l[j].time - t).natAbs) := by
  have hpos : 0 < l.length := List.length_pos_iff.2 hl
  have hft : f.times ≠ [] := by rw [h.times]; simpa using hl
  unfold read
  simp only
  by_cases ht : t < 0
  · obtain ⟨d, h1, h2⟩ := read_holds ha h hpos
    refine ⟨0, hpos, d, ?_, h2, fun _ => rfl, fun h0 => absurd ht (by omega)⟩
    rw [if_pos ht]
    exact h1
  · obtain ⟨s1, s2, s3⟩ := argmin_spec t f.times hft
    have hlen : f.times.length = l.length := by rw [h.times, List.length_map]
    have hi : argmin t f.times < l.length := by omega
    obtain ⟨d, h1, h2⟩ := read_holds ha h hi
    have e : f.times[argmin t f.times]?.getD 0 = l[argmin t f.times].time := by
      rw [List.getElem?_eq_getElem s1]
      simp [h.times]
    rw [e] at s2 s3
    refine ⟨argmin t f.times, hi, d, ?_, h2, fun h0 => absurd h0 ht, fun _ => ⟨?_, ?_⟩⟩
    · rw [if_neg ht, if_neg hft]
      exact h1
    · intro j hj
      have := s2 j (by omega)
      simpa [h.times] using this
    · intro j hj hji
      have := s3 j (by omega) hji
      simpa [h.times] using this

/-- Asking for the time of a record gives that record, if no other has that time. -/
theorem C131_its_time {arrays : List String} (ha : arrays ≠ []) {f : File V} {l : List (Snap V)} (h : Holds arrays f l)
    (hd : (l.map Snap.time).Nodup) {i : Nat} (hi : i < l.length) (h0 : 0 ≤ l[i].time) :
    ∃ d, read f (.time l[i].time) = some d ∧ IsData arrays d l[i] := by
  obtain ⟨k, hk, d, h1, h2, _, h4⟩ := C131_time ha h (by rintro rfl; simp at hi) l[i].time
  have h5 := (h4 h0).1 i hi
  have h6 : l[k].time = l[i].time := by omega
  have h7 : k = i := by
    exact (List.getElem_inj (h₀ := by simpa using hk) (h₁ := by simpa using hi) hd).1 (by simpa using h6)
  subst h7
  exact ⟨d, h1, h2⟩

/-- An index of a record is needed. -/
theorem C131_beyond {arrays : List String} {f : File V} {l : List (Snap V)} (h : Holds arrays f l) (i : Nat) (hi : l.length ≤ i) :
    read f (.index i) = none := by
  unfold read readAt
  simp only
  rw [if_neg (by omega)]
  have c : pyGet f.counts (i : Int) = none := by
    simp [pyGet, h.counts, hi]
  simp only [c]

/-- the full claim for indices before the first record -/
def C131_claim_before : Prop := ∀ (f : File Nat) (l : List (Snap Nat)), Holds ["mass"] f l → ∀ i : Int, i < -(l.length : Int) →
  read f (.index i) = none

/-- Holds beyond twice the number of records. -/
theorem C131_before_partial {arrays : List String} {f : File V} {l : List (Snap V)} (h : Holds arrays f l) (i : Int)
    (hi : i < -(2 * l.length : Int)) : read f (.index i) = none := by
  unfold read readAt
  simp only
  have hlt : f.times.length = l.length := by rw [h.times, List.length_map]
  have hlc : f.counts.length = l.length := by rw [h.counts, List.length_map]
  have c : pyGet f.counts ((f.times.length : Int) + i) = none := by
    unfold pyGet
    rw [if_neg (by omega), if_neg (by omega)]
  rw [if_pos (by omega), c]

/-- False: -3 of two records gives the time of the second with elements of the first. -/
theorem C131_counterexample_before : ¬ C131_claim_before := by
  intro h
  have hh := (run_single ["mass"] [(snap 0 [1], none), (snap 1 [3], none)] (by simp)).1
  have := h _ _ hh (-3) (by decide)
  have e := congrArg (Option.map (fun d => (d.time, d.vals "mass"))) this
  revert e
  decide

/-- The mass balance read from a record is the one written for it. -/
theorem C131_balance (arrays : List String) (l : List (Snap V × Option (Snap V))) (i : Nat) (hi : i < l.length) (k : String)
    (v : V) (hv : l[i].1.bal.lookup k = some v) : (run arrays l).fore.bal k i = some v := by
  have key : ∀ l : List (Snap V × Option (Snap V)), (run arrays l).fore.times.length = l.length ∧
      ∀ (i : Nat) (hi : i < l.length) (v : V), l[i].1.bal.lookup k = some v → (run arrays l).fore.bal k i = some v := by
    intro l
    induction l using List.reverseRecOn with
    | nil => exact ⟨rfl, fun i hi => absurd hi (Nat.not_lt_zero i)⟩
    | append_singleton l p ih =>
      have e : (run arrays (l ++ [p])).fore = writeOne arrays (run arrays l).start (run arrays l).fore p.1 := by
        rw [run_append]
        unfold write
        cases p.2 <;> rfl
      rw [e]
      refine ⟨by simp [writeOne, ih.1], ?_⟩
      intro i hi v hv
      unfold writeOne
      simp only [ih.1]
      split
      · rename_i e1
        subst e1
        have : (l ++ [p])[l.length] = p := by simp
        rw [this] at hv
        rw [hv]
        rfl
      · have hl : i < l.length := by simp at hi; omega
        rw [List.getElem_append_left hl] at hv
        exact ih.2 i hl v hv
  exact (key l).2 i hi v hv

/-! ### C132 -/

/-- spec: what `which_data` says -/
def Wanted (w : Which) (names : List String) (n : String) : Prop :=
  (n ∈ names ∨ n ∈ special) ∧
  match w with
  | .standard => n ∈ standard
  | .most => (n ∈ standard ∨ n ≠ "positions") ∧ n ∉ skipped
  | .all => n ∈ standard ∨ n ≠ "positions"

theorem special_std {n : String} (h : n ∈ special) : n ∈ standard := by
  simp only [special, List.mem_cons, List.not_mem_nil, or_false] at h
  rcases h with rfl | rfl | rfl <;> decide

/-- A new outputter writes what `which_data` says. -/
theorem C132_first (w : Which) (names : List String) (n : String) : runs [(w, names)] n = true ↔ Wanted w names n := by
  have hs : n ∈ special → n ∈ standard := special_std
  unfold runs Wanted update initial
  simp only [List.foldl_cons, List.foldl_nil]
  cases w <;> simp <;> grind

/-- the full claim: the same in every run -/
def C132_claim : Prop := ∀ (l : List (Which × List String)) (w : Which) (names : List String) (n : String),
  runs (l ++ [(w, names)]) n = true ↔ Wanted w names n

/-- Holds for 'all' and 'most' as far as the standard arrays that were missing before are concerned: all arrays of the container that are
wanted are written. -/
theorem C132_all_partial (l : List (Which × List String)) (w : Which) (hw : w ≠ .standard) (names : List String) (n : String)
    (hn : n ∈ names) (hp : n ≠ "positions") : runs (l ++ [(w, names)]) n = true ↔ Wanted w names n := by
  have e : runs (l ++ [(w, names)]) = update w (runs l) names := by simp [runs, List.foldl_append]
  rw [e]
  unfold Wanted update
  cases w
  · exact absurd rfl hw
  · simp [hn, hp]
  · simp [hn, hp]

/-- and nothing is written that the container does not have -/
theorem C132_there (l : List (Which × List String)) (w : Which) (names : List String) (n : String)
    (h : runs (l ++ [(w, names)]) n = true) : n ∈ names ∨ n ∈ special := by
  have e : runs (l ++ [(w, names)]) = update w (runs l) names := by simp [runs, List.foldl_append]
  rw [e] at h
  unfold update at h
  simp only [Bool.and_eq_true, Bool.or_eq_true, decide_eq_true_eq] at h
  exact h.2

/-- The positions are always written. -/
theorem C132_positions (l : List (Which × List String)) (n : String) (h : n ∈ special) : runs l n = true := by
  have hs := special_std h
  have hk : n ∉ skipped := by
    simp only [special, List.mem_cons, List.not_mem_nil, or_false] at h
    rcases h with rfl | rfl | rfl <;> decide
  induction l using List.reverseRecOn with
  | nil => simp [runs, initial, hs]
  | append_singleton l p ih =>
    have e : runs (l ++ [p]) = update p.1 (runs l) p.2 := by simp [runs, List.foldl_append]
    rw [e]
    unfold update
    obtain ⟨w, names⟩ := p
    cases w <;> simp [ih, h, hk]

/-- False: arrays missing in one run, such as the density of a spill without oil, are not written in any later run. -/
theorem C132_counterexample_lost : ¬ C132_claim := by
  intro h
  have := (h [(.standard, ["mass"])] .standard ["mass", "density"] "density").2 ⟨Or.inl (by simp), by decide⟩
  revert this
  decide

/-- False as well: after a run with 'all' another with 'standard' writes all. -/
theorem C132_counterexample_kept : ¬ C132_claim := by
  intro h
  have := (h [(.all, ["mass", "windages"])] .standard ["mass", "windages"] "windages").1 (by decide)
  have h2 := this.2
  revert h2
  decide

/-! concrete cases -/
example : ∃ d, read (run ["mass"] [(snap 0 [1, 2], none), (snap 900 [3, 4, 5], none)]).fore (.index (1 : Nat)) = some d ∧
    IsData ["mass"] d (snap 900 [3, 4, 5]) :=
  C131_forecast (by simp) [(snap 0 [1, 2], none), (snap 900 [3, 4, 5], none)] (by simp) (i := 1) (by decide)
example : SameCounts [(snap 0 [1, 2], some (snap 0 [7, 8])), (snap 900 [3], some (snap 900 [9]))] := by
  intro p hp u hu
  simp at hp
  rcases hp with rfl | rfl <;> cases hu <;> rfl

end Verif.NcOut
