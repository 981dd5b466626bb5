import Verif.TGrid.Model
import Mathlib.Tactic.Linarith
import Mathlib.Tactic.FieldSimp
import Mathlib.Tactic.Ring
/-!
# Lemmas on the records of a list of files
-/
namespace Verif.TGrid

/-- The files have records, and the times increase within each file and from file to file. -/
structure Ordered (fs : List File) : Prop where
  some_file : fs ≠ []
  some_rec : ∀ f ∈ fs, f ≠ []
  sorted : (fs.flatten.map Prod.fst).Pairwise (· < ·)

/-- record `a` of file `i` is `r` -/
def At (fs : List File) (i a : Nat) (r : Rec) : Prop := (fileAt fs i)[a]? = some r

theorem At.lt {fs : List File} {i a : Nat} {r : Rec} (h : At fs i a r) : a < (fileAt fs i).length := by
  unfold At at h
  rw [List.getElem?_eq_some_iff] at h
  exact h.1

theorem At.lt_files {fs : List File} {i a : Nat} {r : Rec} (h : At fs i a r) : i < fs.length := by
  by_contra hc
  have : fileAt fs i = [] := by unfold fileAt; rw [List.getElem?_eq_none (by omega)]; rfl
  have h2 := h.lt
  rw [this] at h2
  simp at h2

theorem At.file {fs : List File} {i : Nat} (h : i < fs.length) : fileAt fs i = fs[i] := by
  unfold fileAt; rw [List.getElem?_eq_getElem h]; rfl

theorem At.mem {fs : List File} {i a : Nat} {r : Rec} (h : At fs i a r) : r ∈ fs.flatten := by
  have hi := h.lt_files
  have hr : r ∈ fileAt fs i := List.mem_of_getElem? h
  rw [At.file hi] at hr
  exact List.mem_flatten.mpr ⟨fs[i], List.getElem_mem hi, hr⟩

theorem At.unique {fs : List File} {i a : Nat} {r s : Rec} (h : At fs i a r) (h2 : At fs i a s) : r = s := by
  unfold At at h h2; rw [h] at h2; exact Option.some.inj h2

theorem At.time {fs : List File} {i a : Nat} {r : Rec} (h : At fs i a r) : timeAt (fileAt fs i) a = some r.1 := by
  unfold timeAt; rw [h]; rfl

theorem At.data {fs : List File} {i a : Nat} {r : Rec} (h : At fs i a r) : dataAt (fileAt fs i) a = some r.2 := by
  unfold dataAt; rw [h]; rfl

theorem At.of_time {fs : List File} {i a : Nat} {x : Int} (h : timeAt (fileAt fs i) a = some x) : ∃ r, At fs i a r ∧ r.1 = x := by
  unfold timeAt at h
  obtain ⟨r, hr, hx⟩ := Option.map_eq_some_iff.mp h
  exact ⟨r, hr, hx⟩

theorem At.exists_lt {fs : List File} {i a : Nat} (h : a < (fileAt fs i).length) : ∃ r, At fs i a r :=
  ⟨(fileAt fs i)[a], List.getElem?_eq_getElem h⟩

variable {fs : List File}

theorem Ordered.len (h : Ordered fs) {i : Nat} (hi : i < fs.length) : 0 < (fileAt fs i).length := by
  rw [At.file hi]
  exact List.length_pos_iff.mpr (h.some_rec _ (List.getElem_mem hi))

theorem Ordered.pos (h : Ordered fs) : 0 < fs.length := List.length_pos_iff.mpr h.some_file

theorem Ordered.first (h : Ordered fs) {i : Nat} (hi : i < fs.length) : ∃ r, At fs i 0 r := At.exists_lt (h.len hi)

theorem Ordered.last (h : Ordered fs) {i : Nat} (hi : i < fs.length) : ∃ r, At fs i ((fileAt fs i).length - 1) r :=
  At.exists_lt (by have := h.len hi; omega)

/-- splitting the records at a file -/
theorem flatten_split {i : Nat} (hi : i < fs.length) : fs.flatten = (fs.take i).flatten ++ (fs[i] ++ (fs.drop (i + 1)).flatten) := by
  have h1 : fs = fs.take i ++ (fs[i] :: fs.drop (i + 1)) := by
    rw [List.getElem_cons_drop, List.take_append_drop]
  conv_lhs => rw [h1]
  rw [List.flatten_append, List.flatten_cons]

theorem sublist_of_index {α : Type} {l : List α} {a b : Nat} {x y : α} (hab : a < b) (hx : l[a]? = some x) (hy : l[b]? = some y) :
    [x, y].Sublist l := by
  obtain ⟨ha, rfl⟩ := List.getElem?_eq_some_iff.mp hx
  obtain ⟨hb, rfl⟩ := List.getElem?_eq_some_iff.mp hy
  have h1 : l = l.take (a + 1) ++ l.drop (a + 1) := (List.take_append_drop _ _).symm
  have hxs : [l[a]].Sublist (l.take (a + 1)) := by
    rw [List.singleton_sublist]
    exact List.mem_take_iff_getElem.mpr ⟨a, by omega, rfl⟩
  have hys : [l[b]].Sublist (l.drop (a + 1)) := by
    rw [List.singleton_sublist]
    exact List.mem_drop_iff_getElem.mpr ⟨b - (a + 1), by omega, by congr 1; omega⟩
  have := hxs.append hys
  rw [List.take_append_drop] at this
  exact this

/-- times are in the order of files and of records -/
theorem Ordered.lt (h : Ordered fs) {i j a b : Nat} {r s : Rec} (hr : At fs i a r) (hs : At fs j b s) (hij : i < j ∨ (i = j ∧ a < b)) :
    r.1 < s.1 := by
  have key : [r, s].Sublist fs.flatten := by
    rcases hij with hij | ⟨rfl, hab⟩
    · have hj := hs.lt_files
      have hi := hr.lt_files
      have hr' : [r].Sublist fs[i] := by
        rw [List.singleton_sublist, ← At.file hi]; exact List.mem_of_getElem? hr
      have hs' : [s].Sublist (fs.drop (i + 1)).flatten := by
        rw [List.singleton_sublist, List.mem_flatten]
        refine ⟨fs[j], List.mem_drop_iff_getElem.mpr ⟨j - (i + 1), by omega, by congr 1; omega⟩, ?_⟩
        rw [← At.file hj]; exact List.mem_of_getElem? hs
      rw [flatten_split hi]
      exact (hr'.append hs').trans (List.sublist_append_right _ _)
    · have hi := hr.lt_files
      have h1 := sublist_of_index hab hr hs
      have h2 : (fileAt fs i).Sublist fs.flatten := by
        rw [At.file hi]
        exact List.sublist_flatten_of_mem (List.getElem_mem hi)
      exact h1.trans h2
  have hp := h.sorted.sublist (key.map Prod.fst)
  simp only [List.map_cons, List.map_nil, List.pairwise_cons, List.mem_singleton, forall_eq] at hp
  exact hp.1

theorem Ordered.le (h : Ordered fs) {i j a b : Nat} {r s : Rec} (hr : At fs i a r) (hs : At fs j b s) (hij : i < j ∨ (i = j ∧ a ≤ b)) :
    r.1 ≤ s.1 := by
  by_cases he : i = j ∧ a = b
  · obtain ⟨rfl, rfl⟩ := he
    rw [hr.unique hs]
  · exact (h.lt hr hs (by omega)).le

theorem Ordered.place (h : Ordered fs) {i j a b : Nat} {r s : Rec} (hr : At fs i a r) (hs : At fs j b s) (he : r.1 = s.1) : i = j ∧ a = b := by
  by_contra hc
  rcases Nat.lt_trichotomy i j with hlt | rfl | hgt
  · have := h.lt hr hs (Or.inl hlt); omega
  · rcases Nat.lt_trichotomy a b with hlt | rfl | hgt
    · have := h.lt hr hs (Or.inr ⟨rfl, hlt⟩); omega
    · exact hc ⟨rfl, rfl⟩
    · have := h.lt hs hr (Or.inr ⟨rfl, hgt⟩); omega
  · have := h.lt hs hr (Or.inl hgt); omega

theorem infix_of_index {α : Type} {l : List α} {a : Nat} {x y : α} (hx : l[a]? = some x) (hy : l[a + 1]? = some y) : [x, y] <:+: l := by
  obtain ⟨ha, rfl⟩ := List.getElem?_eq_some_iff.mp hx
  obtain ⟨hb, rfl⟩ := List.getElem?_eq_some_iff.mp hy
  refine ⟨l.take a, l.drop (a + 2), ?_⟩
  have h1 : l.drop a = l[a] :: l.drop (a + 1) := List.drop_eq_getElem_cons ha
  have h2 : l.drop (a + 1) = l[a + 1] :: l.drop (a + 1 + 1) := List.drop_eq_getElem_cons hb
  conv_rhs => rw [← List.take_append_drop a l, h1, h2]
  simp

/-- two records that follow each other in a file do so among all records -/
theorem infix_in {i a : Nat} {r s : Rec} (hr : At fs i a r) (hs : At fs i (a + 1) s) : [r, s] <:+: fs.flatten := by
  have hi := hr.lt_files
  have h1 : [r, s] <:+: fileAt fs i := infix_of_index hr hs
  rw [At.file hi] at h1
  rw [flatten_split hi]
  exact h1.trans ⟨(fs.take i).flatten, (fs.drop (i + 1)).flatten, by simp⟩

/-- as do the last record of a file and the first of the next -/
theorem infix_gap {i : Nat} {r s : Rec} (hr : At fs i ((fileAt fs i).length - 1) r) (hs : At fs (i + 1) 0 s) : [r, s] <:+: fs.flatten := by
  have hi := hr.lt_files
  have hj := hs.lt_files
  have hr' : fs[i].getLast? = some r := by
    rw [List.getLast?_eq_getElem?, ← At.file hi]; exact hr
  have hs' : fs[i + 1].head? = some s := by
    rw [List.head?_eq_getElem?, ← At.file hj]; exact hs
  obtain ⟨x, hx⟩ := List.getLast?_eq_some_iff.mp hr'
  obtain ⟨y, hy⟩ := List.head?_eq_some_iff.mp hs'
  rw [flatten_split hi]
  have h1 : fs.drop (i + 1) = fs[i + 1] :: fs.drop (i + 1 + 1) := List.drop_eq_getElem_cons hj
  rw [h1, List.flatten_cons, hx, hy]
  exact ⟨(fs.take i).flatten ++ x, y ++ (fs.drop (i + 1 + 1)).flatten, by simp⟩

theorem head_of (h : Ordered fs) {r : Rec} (hr : At fs 0 0 r) : fs.flatten.head? = some r := by
  have h0 := h.pos
  rw [flatten_split h0]
  have hr' : fs[0].head? = some r := by
    rw [List.head?_eq_getElem?, ← At.file h0]; exact hr
  obtain ⟨y, hy⟩ := List.head?_eq_some_iff.mp hr'
  rw [hy]; simp

theorem last_of (h : Ordered fs) {r : Rec} (hr : At fs (fs.length - 1) ((fileAt fs (fs.length - 1)).length - 1) r) :
    fs.flatten.getLast? = some r := by
  have h0 := h.pos
  have hi : fs.length - 1 < fs.length := by omega
  rw [flatten_split hi]
  have hr' : fs[fs.length - 1].getLast? = some r := by
    rw [List.getLast?_eq_getElem?, ← At.file hi]; exact hr
  obtain ⟨y, hy⟩ := List.getLast?_eq_some_iff.mp hr'
  have hd : fs.drop (fs.length - 1 + 1) = [] := List.drop_eq_nil_of_le (by omega)
  rw [hd, hy]; simp

theorem le?_iff {a b : Option Int} : le? a b = true ↔ ∃ x y, a = some x ∧ b = some y ∧ x ≤ y := by
  unfold le?
  cases a <;> cases b <;> simp

theorem lt?_iff {a b : Option Int} : lt? a b = true ↔ ∃ x y, a = some x ∧ b = some y ∧ x < y := by
  unfold lt?
  cases a <;> cases b <;> simp

theorem eq?_iff {a b : Option Int} : eq? a b = true ↔ ∃ x, a = some x ∧ b = some x := by
  unfold eq?
  cases a <;> cases b <;> simp [eq_comm]

@[simp] theorem le?_some (x y : Int) : le? (some x) (some y) = decide (x ≤ y) := rfl
@[simp] theorem lt?_some (x y : Int) : lt? (some x) (some y) = decide (x < y) := rfl
@[simp] theorem eq?_some (x y : Int) : eq? (some x) (some y) = decide (x = y) := rfl
@[simp] theorem lt?_none_left (x : Option Int) : lt? none x = false := rfl
@[simp] theorem lt?_none_right (x : Option Int) : lt? x none = false := by cases x <;> rfl

/-- the interval found is one that the time is in -/
theorem findIv_some {c : Nat} {t : Int} {i : Nat} (h : findIv (fileAt fs c) t = some i) :
    ∃ r s, At fs c i r ∧ At fs c (i + 1) s ∧ r.1 ≤ t ∧ t ≤ s.1 := by
  have h1 := List.find?_some h
  simp only [Bool.and_eq_true] at h1
  obtain ⟨x, y, hx, hy, hxy⟩ := le?_iff.mp h1.1
  obtain ⟨x', y', hx', hy', hxy'⟩ := le?_iff.mp h1.2
  obtain ⟨r, hr, rfl⟩ := At.of_time hx
  obtain ⟨s, hs, rfl⟩ := At.of_time hy'
  cases hy; cases hx'
  exact ⟨r, s, hr, hs, hxy, hxy'⟩

/-- if none is found the time is outside, or the file has one record -/
theorem findIv_none {c : Nat} {t : Int} (h : findIv (fileAt fs c) t = none) {r s : Rec} (hr : At fs c 0 r)
    (hs : At fs c ((fileAt fs c).length - 1) s) : t < r.1 ∨ s.1 < t ∨ (fileAt fs c).length = 1 := by
  by_contra hc
  push Not at hc
  obtain ⟨h1, h2, h3⟩ := hc
  have hn := hr.lt
  have step : ∀ k, k ≤ (fileAt fs c).length - 1 → ∀ x, At fs c k x → x.1 ≤ t := by
    intro k
    induction k with
    | zero => intro _ x hx; rw [hx.unique hr]; exact h1
    | succ k ih =>
      intro hk x hx
      obtain ⟨y, hy⟩ : ∃ y, At fs c k y := At.exists_lt (by omega)
      have hle := ih (by omega) y hy
      by_contra hgt
      have hnone := List.find?_eq_none.mp h k (List.mem_range.mpr (by omega))
      apply hnone
      rw [hy.time, hx.time]
      simp only [le?_some, Bool.and_eq_true, decide_eq_true_eq]
      exact ⟨hle, by omega⟩
  obtain ⟨y, hy⟩ : ∃ y, At fs c ((fileAt fs c).length - 2) y := At.exists_lt (by omega)
  have hle := step _ (by omega) y hy
  have hnone := List.find?_eq_none.mp h ((fileAt fs c).length - 2) (List.mem_range.mpr (by omega))
  apply hnone
  have e : (fileAt fs c).length - 2 + 1 = (fileAt fs c).length - 1 := by omega
  rw [e, hy.time, hs.time]
  simp only [le?_some, Bool.and_eq_true, decide_eq_true_eq]
  exact ⟨hle, h2⟩

theorem start_eq {i : Nat} {r : Rec} (h : At fs i 0 r) : startTime fs i = some r.1 := h.time
theorem end_eq {i : Nat} {r : Rec} (h : At fs i ((fileAt fs i).length - 1) r) : endTime fs i = some r.1 := h.time

end Verif.TGrid
