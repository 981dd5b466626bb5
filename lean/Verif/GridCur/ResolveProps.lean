import Mathlib.Data.List.Basic
import Verif.GridCur.ResolveModel

/-!
# A file that a list names relative to the list is found there

-/
namespace Verif.GridCur.Resolve

open Verif.TSeries.TideFile (Str trim isSpace)

/-- The name of a directory or file in a path. -/
def Part (s : Str) : Prop := s ≠ [] ∧ ∀ c ∈ s, c ≠ '/' ∧ c ≠ '\\'

private theorem Part.sep {s : Str} (h : Part s) : ∀ c ∈ s, isSep c = false := fun c hc => by
  obtain ⟨h1, h2⟩ := h.2 c hc
  simp [isSep, h1, h2]

/-- The parts of a relative path. -/
def Relative (l : List Str) : Prop := l ≠ [] ∧ ∀ s ∈ l, Part s

/-- The parts of a path; an absolute one begins with an empty part. -/
def Path (l : List Str) : Prop := Relative l ∨ ∃ r, l = [] :: r ∧ Relative r

/-- No white space at the ends. -/
def Neat (s : Str) : Prop := trim s = s

/-- A list in a directory names a file of the directory, by the way from there: this is the file that is used. -/
def C325_claim : Prop :=
  ∀ (there : Str → Bool) (dir name : List Str) (f : Str), Path dir → Relative name → Part f → Neat (join dir) → Neat (join name) →
    there (join dir) = true → there (join (dir ++ name)) = true →
    resolve there (join (dir ++ [f])) (join name) = join (dir ++ name)

private theorem parts_append (acc s r : Str) (h : ∀ c ∈ s, isSep c = false) : parts acc (s ++ r) = parts (acc ++ s) r := by
  induction s generalizing acc with
  | nil => simp
  | cons c s ih =>
    simp only [List.cons_append, parts, h c (by simp), Bool.false_eq_true, if_false]
    rw [ih _ (fun x hx => h x (by simp [hx]))]
    simp

private theorem parts_join (l : List Str) (h : ∀ s ∈ l, Part s) : parts [] (join l) = l := by
  induction l with
  | nil => rfl
  | cons a l ih =>
    have ha := h a (by simp)
    cases l with
    | nil =>
      have := parts_append [] a [] ha.sep
      simp only [List.append_nil, List.nil_append] at this
      rw [join, this]
      simp [parts, ha.1]
    | cons b r =>
      rw [join, parts_append _ _ _ ha.sep, List.nil_append]
      rw [parts, if_pos (by decide), if_neg ha.1, ih (fun s hs => h s (by simp [hs]))]

theorem split_relative (l : List Str) (h : Relative l) : split (join l) = l := by
  have hp := parts_join l h.2
  obtain ⟨hne, h⟩ := h
  cases l with
  | nil => exact absurd rfl hne
  | cons a l =>
    have ha := h a (by simp)
    cases a with
    | nil => exact absurd rfl ha.1
    | cons c a =>
      have hc : isSep c = false := ha.sep c (by simp)
      have : ∃ t, join ((c :: a) :: l) = c :: t := by
        cases l with
        | nil => exact ⟨_, rfl⟩
        | cons b r => exact ⟨_, rfl⟩
      obtain ⟨t, ht⟩ := this
      rw [ht] at hp ⊢
      simp only [split, hc, Bool.false_eq_true, if_false]
      simpa [parts, hc] using hp

theorem split_path (l : List Str) (h : Path l) : split (join l) = l := by
  rcases h with h | ⟨r, rfl, h⟩
  · exact split_relative l h
  · obtain ⟨hne, h⟩ := h
    cases r with
    | nil => exact absurd rfl hne
    | cons b r =>
      simp only [join, List.nil_append, split]
      rw [if_pos (by decide), parts_join _ h]

private theorem join_snoc (l : List Str) (hl : l ≠ []) (f : Str) : join (l ++ [f]) = join l ++ '/' :: f := by
  induction l with
  | nil => exact absurd rfl hl
  | cons a l ih =>
    cases l with
    | nil => rfl
    | cons b r =>
      have := ih (by simp)
      simp only [List.cons_append, join] at this ⊢
      rw [this]; simp

theorem path_ne {l : List Str} (h : Path l) : l ≠ [] ∧ join l ≠ [] := by
  rcases h with ⟨hne, h⟩ | ⟨r, rfl, hne, h⟩
  · refine ⟨hne, ?_⟩
    cases l with
    | nil => exact absurd rfl hne
    | cons a l =>
      have := (h a (by simp)).1
      cases l <;> simp [join, this]
  · refine ⟨by simp, ?_⟩
    cases r with
    | nil => exact absurd rfl hne
    | cons b r => simp [join]

theorem base_of (dir : List Str) (f : Str) (hd : Path dir) (hf : Part f) (hn : Neat (join dir)) : baseDir (join (dir ++ [f])) = join dir := by
  have h1 : dirOf (join (dir ++ [f])) = join dir := by
    rw [join_snoc _ (path_ne hd).1]
    unfold dirOf
    rw [List.reverse_append, List.reverse_cons, List.append_assoc, List.dropWhile_append_of_pos (by simpa using hf.sep)]
    simp [isSep]
  unfold baseDir
  rw [h1, if_neg (path_ne hd).2]
  exact hn

/-- So it is, unless there is a file of that name where the program runs. -/
theorem C325_partial (there : Str → Bool) (dir name : List Str) (f : Str) (hd : Path dir) (hr : Relative name) (hf : Part f)
    (hn : Neat (join dir)) (hn' : Neat (join name)) (h1 : there (join dir) = true) (h2 : there (join (dir ++ name)) = true)
    (h0 : there (join name) = false) : resolve there (join (dir ++ [f])) (join name) = join (dir ++ name) := by
  unfold resolve
  rw [if_neg (path_ne (.inl hr)).2, hn', h0, base_of dir f hd hf hn, h1, split_path dir hd, split_relative name hr]
  obtain ⟨hne, _⟩ := hr
  cases name with
  | nil => exact absurd rfl hne
  | cons a r => simp [search, h2]

/-- The same name as it is written on Windows. -/
def joinW : List Str → Str
  | [] => []
  | [a] => a
  | a :: b :: r => a ++ '\\' :: joinW (b :: r)

private theorem parts_joinW (l : List Str) (h : ∀ s ∈ l, Part s) : parts [] (joinW l) = l := by
  induction l with
  | nil => rfl
  | cons a l ih =>
    have ha := h a (by simp)
    cases l with
    | nil =>
      have := parts_append [] a [] ha.sep
      simp only [List.append_nil, List.nil_append] at this
      rw [joinW, this]
      simp [parts, ha.1]
    | cons b r =>
      rw [joinW, parts_append _ _ _ ha.sep, List.nil_append]
      rw [parts, if_pos (by decide), if_neg ha.1, ih (fun s hs => h s (by simp [hs]))]

private theorem split_relativeW (l : List Str) (h : Relative l) : split (joinW l) = l ∧ joinW l ≠ [] := by
  have hp := parts_joinW l h.2
  obtain ⟨hne, h⟩ := h
  cases l with
  | nil => exact absurd rfl hne
  | cons a l =>
    have ha := h a (by simp)
    cases a with
    | nil => exact absurd rfl ha.1
    | cons c a =>
      have hc : isSep c = false := ha.sep c (by simp)
      have : ∃ t, joinW ((c :: a) :: l) = c :: t := by
        cases l with
        | nil => exact ⟨_, rfl⟩
        | cons b r => exact ⟨_, rfl⟩
      obtain ⟨t, ht⟩ := this
      rw [ht] at hp ⊢
      simp only [split, hc, Bool.false_eq_true, if_false]
      exact ⟨by simpa [parts, hc] using hp, by simp⟩

/-- A list that was written on Windows: its relative names, with backslashes, are found as well. -/
theorem C325_windows (there : Str → Bool) (dir name : List Str) (f : Str) (hd : Path dir) (hr : Relative name) (hf : Part f)
    (hn : Neat (join dir)) (hn' : Neat (joinW name)) (h1 : there (join dir) = true) (h2 : there (join (dir ++ name)) = true)
    (h0 : there (joinW name) = false) : resolve there (join (dir ++ [f])) (joinW name) = join (dir ++ name) := by
  unfold resolve
  rw [if_neg (split_relativeW name hr).2, hn', h0, base_of dir f hd hf hn, h1, split_path dir hd, (split_relativeW name hr).1]
  obtain ⟨hne, _⟩ := hr
  cases name with
  | nil => exact absurd rfl hne
  | cons a r => simp [search, h2]

example : resolve (fun s => s = "d".toList || s = "d/e/a.nc".toList) "d/l".toList "e\\a.nc".toList = "d/e/a.nc".toList := by decide

/-- A file of that name where the program runs, or one that is there by its full name, is taken before all others. -/
theorem C325_first (there : Str → Bool) (list name : Str) (hn : Neat name) (h : there name = true) : resolve there list name = name := by
  unfold resolve
  rw [hn, if_pos h, ite_self]

private theorem search_some (there : Str → Bool) (base l : List Str) (q : Str) :
    search there base l = some q ↔
      ∃ k, k < l.length ∧ q = join (base ++ l.drop k) ∧ there q = true ∧ ∀ j < k, there (join (base ++ l.drop j)) = false := by
  induction l with
  | nil => simp [search]
  | cons a l ih =>
    unfold search
    split
    · rename_i h
      constructor
      · intro e
        cases e
        exact ⟨0, by simp, by simp, h, by omega⟩
      · rintro ⟨k, _, rfl, _, hj⟩
        cases k with
        | zero => rfl
        | succ k => exact absurd (hj 0 (by omega)) (by simp [h])
    · rename_i h
      rw [ih]
      constructor
      · rintro ⟨k, hk, rfl, ht, hj⟩
        refine ⟨k + 1, by simp; omega, rfl, ht, ?_⟩
        intro j hj'
        cases j with
        | zero => simpa using h
        | succ j => exact hj j (by omega)
      · rintro ⟨k, hk, rfl, ht, hj⟩
        cases k with
        | zero => exact absurd ht h
        | succ k => exact ⟨k, by simpa using hk, rfl, ht, fun j hj' => hj (j + 1) (by omega)⟩

/-- Of a name that is not there the longest end that is there beside the list is taken. -/
theorem C325_moved (there : Str → Bool) (dir name : List Str) (f : Str) (k : Nat) (hd : Path dir) (hr : Path name) (hf : Part f)
    (hn : Neat (join dir)) (hn' : Neat (join name)) (h1 : there (join dir) = true) (h0 : there (join name) = false)
    (hk : k < name.length) (h2 : there (join (dir ++ name.drop k)) = true) (h3 : ∀ j < k, there (join (dir ++ name.drop j)) = false) :
    resolve there (join (dir ++ [f])) (join name) = join (dir ++ name.drop k) := by
  unfold resolve
  rw [if_neg (path_ne hr).2, hn', h0, base_of dir f hd hf hn, h1, split_path dir hd, split_path name hr]
  rw [(search_some there dir name _).2 ⟨k, hk, rfl, h2, h3⟩]
  rfl

/-- The name that comes out is that of a file that is there, or the name that went in. -/
theorem C325_there (there : Str → Bool) (list name : Str) : there (resolve there list name) = true ∨ resolve there list name = name := by
  unfold resolve
  split
  · exact .inr rfl
  · split
    · exact .inl ‹_›
    · split
      · exact .inr rfl
      · cases h : search there (split (baseDir list)) (split (trim name)) with
        | none => exact .inr rfl
        | some q =>
          obtain ⟨_, _, _, h, _⟩ := (search_some _ _ _ _).1 h
          exact .inl h

/-- Two files `a.nc`, one beside the list `d/l` and one where the program runs. -/
def twice : Str → Bool := fun s => s = "d".toList || s = "d/a.nc".toList || s = "a.nc".toList

/-- The one where the program runs is used. -/
theorem C325_counterexample : ¬ C325_claim := by
  intro h
  have := h twice ["d".toList] ["a.nc".toList] "l".toList (.inl (by simp [Relative, Part])) (by simp [Relative, Part])
    (by simp [Part]) (show trim _ = _ by decide) (show trim _ = _ by decide) (by decide) (by decide)
  exact absurd this (by decide)

/-- For a list in the root directory the files are looked for where the program runs, not there. -/
theorem C325_root : resolve (fun s => s = "/".toList || s = "/a.nc".toList || s = ".".toList) "/l".toList "a.nc".toList = "a.nc".toList := by
  decide

/-- A list with its files was moved from `/x/y` to `d`. -/
example : resolve (fun s => s = "d".toList || s = "d/a.nc".toList) "d/l".toList "/x/y/a.nc".toList = "d/a.nc".toList := by decide
example : resolve (fun s => s = "/d".toList || s = "/d/e/a.nc".toList) "/d/l".toList "e/a.nc".toList = "/d/e/a.nc".toList := by decide
example : Path [[], "d".toList] := .inr ⟨_, rfl, by simp [Relative, Part]⟩

end Verif.GridCur.Resolve
