import Verif.Upd.LoadModel
import Verif.Upd.ExtractProps
import Mathlib.Data.List.TakeWhile
import Mathlib.Algebra.Order.BigOperators.Group.List

/-!
# C216, C217: loading by class, archives from the web
-/
namespace Verif.Upd.Load
open Verif.Py Verif.Upd

/-! ## C216 -/

/-- what a call promises: from a folder or an archive the named file, or the first json file of the class; from a json file its object; always one of the class -/
structure Promise (cls : Nat) (loc : Loc) (filename : Option Str) (r : Except Err Json) : Prop where
  ofClass : ∀ j, r = .ok j → j.cls = some cls
  folder : ∀ fs, (loc = .folder fs ∨ loc = .zip fs ∨ loc = .openZip fs) → ∀ j, r = .ok j → ∃ f ∈ fs, f.json = some j ∧ ∀ n, filename = some n → f.name = n
  found : ∀ fs, (loc = .folder fs ∨ loc = .zip fs ∨ loc = .openZip fs) → filename = none →
    (∀ f ∈ fs, globJson f.name = true → f.json ≠ none) → (∃ f ∈ fs, globJson f.name = true ∧ ∃ j, f.json = some j ∧ j.cls = some cls) → ∃ j, r = .ok j
  file : ∀ j, loc = .file (some j) → j.cls = some cls → r = .ok j

/-- **C216 in full** -/
def C216_claim : Prop := ∀ cls loc filename, Promise cls loc filename (load cls loc filename)

theorem search_ok (cls : Nat) (fs : List FileEntry) (j : Json) (h : search cls fs = .ok j) :
    j.cls = some cls ∧ ∃ f ∈ fs, f.json = some j ∧ globJson f.name = true := by
  induction fs with
  | nil => simp [search] at h
  | cons f fs ih =>
    unfold search at h
    by_cases hg : globJson f.name = true
    · rw [if_pos hg] at h
      cases hj : f.json with
      | none => simp [hj] at h
      | some j' =>
        simp only [hj] at h
        by_cases hc : j'.cls = some cls
        · rw [if_pos hc] at h
          cases h
          exact ⟨hc, f, by simp, hj, hg⟩
        · rw [if_neg hc] at h
          obtain ⟨h1, g, h2, h3⟩ := ih h
          exact ⟨h1, g, List.mem_cons_of_mem _ h2, h3⟩
    · rw [if_neg hg] at h
      obtain ⟨h1, g, h2, h3⟩ := ih h
      exact ⟨h1, g, List.mem_cons_of_mem _ h2, h3⟩

theorem search_found (cls : Nat) (fs : List FileEntry) (hj : ∀ f ∈ fs, globJson f.name = true → f.json ≠ none)
    (h : ∃ f ∈ fs, globJson f.name = true ∧ ∃ j, f.json = some j ∧ j.cls = some cls) : ∃ j, search cls fs = .ok j := by
  induction fs with
  | nil => obtain ⟨f, hf, _⟩ := h; cases hf
  | cons g fs ih =>
    unfold search
    by_cases hg : globJson g.name = true
    · rw [if_pos hg]
      cases hgj : g.json with
      | none => exact absurd hgj (hj g (by simp) hg)
      | some j =>
        by_cases hc : j.cls = some cls
        · exact ⟨j, by simp [hc]⟩
        · simp only [if_neg hc]
          apply ih (fun f hf => hj f (List.mem_cons_of_mem _ hf))
          obtain ⟨f, hf, h1, j', h2, h3⟩ := h
          rcases List.mem_cons.mp hf with rfl | hf
          · rw [hgj] at h2; cases h2; exact absurd h3 hc
          · exact ⟨f, hf, h1, j', h2, h3⟩
    · rw [if_neg hg]
      apply ih (fun f hf => hj f (List.mem_cons_of_mem _ hf))
      obtain ⟨f, hf, h1, j', h2, h3⟩ := h
      rcases List.mem_cons.mp hf with rfl | hf
      · exact absurd h1 hg
      · exact ⟨f, hf, h1, j', h2, h3⟩

/-- the first one, in the order of the folder -/
theorem C216_first (cls : Nat) (fs : List FileEntry) (j : Json) (h : search cls fs = .ok j) :
    ∃ pre f post, fs = pre ++ f :: post ∧ f.json = some j ∧ ∀ g ∈ pre, globJson g.name = true → ∃ k, g.json = some k ∧ k.cls ≠ some cls := by
  induction fs with
  | nil => simp [search] at h
  | cons f fs ih =>
    unfold search at h
    by_cases hg : globJson f.name = true
    · rw [if_pos hg] at h
      cases hj : f.json with
      | none => simp [hj] at h
      | some j' =>
        simp only [hj] at h
        by_cases hc : j'.cls = some cls
        · rw [if_pos hc] at h
          cases h
          exact ⟨[], f, fs, rfl, hj, by simp⟩
        · rw [if_neg hc] at h
          obtain ⟨pre, g, post, h1, h2, h3⟩ := ih h
          refine ⟨f :: pre, g, post, by rw [h1]; rfl, h2, ?_⟩
          intro x hx hgx
          rcases List.mem_cons.mp hx with rfl | hx
          · exact ⟨j', hj, hc⟩
          · exact h3 x hx hgx
    · rw [if_neg hg] at h
      obtain ⟨pre, g, post, h1, h2, h3⟩ := ih h
      refine ⟨f :: pre, g, post, by rw [h1]; rfl, h2, ?_⟩
      intro x hx hgx
      rcases List.mem_cons.mp hx with rfl | hx
      · exact absurd hgx hg
      · exact h3 x hx hgx

/-- a folder and an archive of the same files load alike -/
theorem C216_alike (cls : Nat) (fs : List FileEntry) (n : Option Str) :
    load cls (.zip fs) n = load cls (.folder fs) n ∧ load cls (.openZip fs) n = load cls (.folder fs) n := ⟨rfl, rfl⟩

/-- **C216 (partial)**: the claim holds without a name, except for json files given by themselves; with a name for files of the class.
Missing for the full claim: `C216_counterexample` (a json file), `C216_counterexample_name` (a name of a file of another class). -/
theorem C216_partial (cls : Nat) (loc : Loc) (filename : Option Str) (hl : ∀ j, loc ≠ .file (some j))
    (hn : ∀ fs n, (loc = .folder fs ∨ loc = .zip fs ∨ loc = .openZip fs) → filename = some n → ∀ f ∈ fs, f.name = n → ∀ j, f.json = some j → j.cls = some cls) :
    Promise cls loc filename (load cls loc filename) := by
  have hfold : ∀ fs, (loc = .folder fs ∨ loc = .zip fs ∨ loc = .openZip fs) → load cls loc filename = loadFolder cls fs filename := by
    rintro fs (rfl | rfl | rfl) <;> rfl
  have key : ∀ fs, (loc = .folder fs ∨ loc = .zip fs ∨ loc = .openZip fs) → ∀ j, loadFolder cls fs filename = .ok j →
      j.cls = some cls ∧ ∃ f ∈ fs, f.json = some j ∧ ∀ n, filename = some n → f.name = n := by
    intro fs hfs j h
    cases hf : filename with
    | none =>
      rw [hf] at h
      obtain ⟨h1, f, h2, h3, _⟩ := search_ok cls fs j h
      exact ⟨h1, f, h2, h3, by simp⟩
    | some n =>
      rw [hf] at h
      unfold loadFolder at h
      cases hfi : fs.find? (fun f => f.name = n) with
      | none => simp [hfi] at h
      | some f =>
        have hm := List.mem_of_find?_eq_some hfi
        have hname : f.name = n := by simpa using List.find?_some hfi
        cases hj : f.json with
        | none => simp [hfi, hj] at h
        | some j' =>
          simp only [hfi, hj] at h
          cases h
          exact ⟨hn fs n hfs hf f hm hname j hj, f, hm, hj, by rintro m ⟨⟩; exact hname⟩
  refine ⟨?_, ?_, ?_, ?_⟩
  · intro j h
    cases loc with
    | folder fs => exact (key fs (Or.inl rfl) j h).1
    | zip fs => exact (key fs (Or.inr (Or.inl rfl)) j h).1
    | openZip fs => exact (key fs (Or.inr (Or.inr rfl)) j h).1
    | file o =>
      cases o with
      | none => simp [load] at h
      | some j' => exact absurd rfl (hl j')
    | other => simp [load] at h
  · intro fs hfs j h
    rw [hfold fs hfs] at h
    exact (key fs hfs j h).2
  · intro fs hfs hn0 hj hex
    rw [hfold fs hfs, hn0]
    exact search_found cls fs hj hex
  · intro j hj
    exact absurd hj (hl j)

/-- what happens with a json file: it never loads -/
theorem C216_never (cls : Nat) (j : Json) (n : Option Str) : load cls (.file (some j)) n = .error .typeError := rfl

def modelJson : Str := ['M', '.', 'j', 's', 'o', 'n']
def windJson : Str := ['W', '.', 'j', 's', 'o', 'n']
def saved : List FileEntry := [⟨windJson, some ⟨some 2, 20⟩⟩, ⟨['t', '.', 't', 'x', 't'], none⟩, ⟨modelJson, some ⟨some 1, 10⟩⟩]

example : load 1 (.folder saved) none = .ok ⟨some 1, 10⟩ := by decide
example : load 2 (.zip saved) (some windJson) = .ok ⟨some 2, 20⟩ := by decide
example : load 3 (.zip saved) none = .error .noneOfClass := by decide

/-- a json file of the class does not load -/
theorem C216_counterexample : ¬ C216_claim := by
  intro h
  have := (h 1 (.file (some ⟨some 1, 10⟩)) none).file _ rfl rfl
  simp [load] at this

/-- by name an object of another class is loaded -/
theorem C216_counterexample_name : ∃ j, load 1 (.folder saved) (some windJson) = .ok j ∧ j.cls ≠ some 1 := ⟨⟨some 2, 20⟩, by decide, by decide⟩

/-! ## C217 -/

/-- the files that are unpacked from an archive under names that `load` reads as json -/
def readAsJson (e : Info) : Bool := !isFolder e.name && globJson (target e.name)

/-- **C217 in full**: of an archive that is accepted the checksums are right, what is read as json is not larger than the limit, nothing is more than so many times larger than
in the archive, and no name has two full stops; and an archive like this is accepted. -/
def C217_claim : Prop := ∀ (maxJson maxRatio : Nat) (a : Archive), valid maxJson maxRatio a = true ↔
  a.isZip = true ∧ a.test = .fine ∧ (∀ e ∈ a.entries, readAsJson e = true → e.size ≤ maxJson) ∧
  (∀ e ∈ a.entries, 0 < e.packed → e.size ≤ maxRatio * e.packed) ∧ ∀ e ∈ a.entries, ∀ p q, e.name ≠ p ++ ['.', '.'] ++ q

theorem twoDots_iff (n : Str) : twoDots n = true ↔ ∃ p q, n = p ++ ['.', '.'] ++ q := by
  induction n with
  | nil => simp [twoDots]
  | cons c cs ih =>
    unfold twoDots
    rw [Bool.or_eq_true, ih]
    constructor
    · rintro (h | ⟨p, q, rfl⟩)
      · simp only [Bool.and_eq_true, decide_eq_true_eq] at h
        obtain ⟨rfl, h⟩ := h
        cases cs with
        | nil => simp at h
        | cons d ds => simp at h; subst h; exact ⟨[], ds, rfl⟩
      · exact ⟨c :: p, q, rfl⟩
    · rintro ⟨p, q, h⟩
      cases p with
      | nil =>
        left
        simp at h
        obtain ⟨rfl, rfl⟩ := h
        simp
      | cons d ds =>
        right
        simp only [List.cons_append, List.cons.injEq] at h
        exact ⟨ds, q, h.2⟩

theorem entriesOk_iff (mj mr : Nat) (es : List Info) : entriesOk mj mr es = true ↔
    ∀ e ∈ es, (ext e.name = ['.', 'j', 's', 'o', 'n'] → e.size ≤ mj) ∧ (0 < e.packed → e.size ≤ mr * e.packed) ∧ ∀ p q, e.name ≠ p ++ ['.', '.'] ++ q := by
  induction es with
  | nil => simp [entriesOk]
  | cons e es ih =>
    unfold entriesOk
    rw [List.forall_mem_cons]
    by_cases h1 : ext e.name = ['.', 'j', 's', 'o', 'n'] ∧ e.size > mj
    · rw [if_pos h1]
      simp only [Bool.false_eq_true, false_iff]
      rintro ⟨⟨h, _⟩, _⟩
      exact absurd (h h1.1) (not_le.mpr h1.2)
    · rw [if_neg h1]
      by_cases h2 : e.packed > 0 ∧ e.size > mr * e.packed
      · rw [if_pos h2]
        simp only [Bool.false_eq_true, false_iff]
        rintro ⟨⟨_, h, _⟩, _⟩
        exact absurd (h h2.1) (not_le.mpr h2.2)
      · rw [if_neg h2]
        by_cases h3 : twoDots e.name = true
        · rw [if_pos h3]
          simp only [Bool.false_eq_true, false_iff]
          rintro ⟨⟨_, _, h⟩, _⟩
          obtain ⟨p, q, hpq⟩ := (twoDots_iff _).mp h3
          exact h p q hpq
        · rw [if_neg h3, ih]
          constructor
          · intro h
            refine ⟨⟨fun hx => ?_, fun hx => ?_, fun p q hpq => h3 ((twoDots_iff _).mpr ⟨p, q, hpq⟩)⟩, h⟩
            · by_contra hc; exact h1 ⟨hx, not_le.mp hc⟩
            · by_contra hc; exact h2 ⟨hx, not_le.mp hc⟩
          · exact fun h => h.2

theorem valid_iff (mj mr : Nat) (a : Archive) : valid mj mr a = true ↔ a.isZip = true ∧ a.test = .fine ∧ entriesOk mj mr a.entries = true := by
  unfold valid
  cases hz : a.isZip <;> cases ht : a.test <;> simp

/-- names with this extension, and names ending with it that are not hidden, are the same, where only names that have no folder or hidden part are looked at -/
theorem ext_of_glob (b : Str) (h : globJson b = true) : extOf b = ['.', 'j', 's', 'o', 'n'] := by
  unfold globJson endsJson at h
  simp only [Bool.and_eq_true, List.isSuffixOf_iff_suffix, bne_iff_ne, ne_eq] at h
  obtain ⟨⟨r, rfl⟩, hh⟩ := h
  have ht : ((r ++ ['.', 'j', 's', 'o', 'n']).reverse.takeWhile (· ≠ '.')).reverse = ['j', 's', 'o', 'n'] := by
    simp [List.takeWhile]
  unfold extOf
  simp only [ht]
  rw [if_pos]
  refine ⟨by simp, ?_⟩
  have : (r ++ ['.', 'j', 's', 'o', 'n']).take ((r ++ ['.', 'j', 's', 'o', 'n']).length - ['j', 's', 'o', 'n'].length - 1) = r := by
    rw [List.take_left']
    simp
  rw [this]
  cases r with
  | nil => simp at hh
  | cons c cs =>
    intro hall
    simp only [List.cons_append, List.head?_cons, Option.some.injEq] at hh
    have := List.all_eq_true.mp hall c (by simp)
    exact hh (by simpa using this)

/-- **C217 (partial)**: for archives whose names have no characters that unpacking removes: what is accepted is safe, and what is safe and has no json file that would not be read is accepted.
Missing for the full claim: `C217_counterexample`. -/
theorem C217_partial (mj mr : Nat) (a : Archive) (hn : ∀ e ∈ a.entries, ∀ c ∈ basename e.name, c ∉ forbidden) (h : valid mj mr a = true) :
    a.isZip = true ∧ a.test = .fine ∧ (∀ e ∈ a.entries, readAsJson e = true → e.size ≤ mj) ∧
    (∀ e ∈ a.entries, 0 < e.packed → e.size ≤ mr * e.packed) ∧ ∀ e ∈ a.entries, ∀ p q, e.name ≠ p ++ ['.', '.'] ++ q := by
  obtain ⟨h1, h2, h3⟩ := (valid_iff mj mr a).mp h
  rw [entriesOk_iff] at h3
  refine ⟨h1, h2, ?_, fun e he => (h3 e he).2.1, fun e he => (h3 e he).2.2⟩
  intro e he hr
  apply (h3 e he).1
  unfold readAsJson at hr
  rw [Bool.and_eq_true] at hr
  unfold target at hr
  rw [sanitize_plain _ (hn e he)] at hr
  exact ext_of_glob _ hr.2

/-- an archive is accepted if its checksums are right, its json files small, its files not too much larger than in the archive and its names without two full stops -/
theorem C217_accepts (mj mr : Nat) (a : Archive) (h1 : a.isZip = true) (h2 : a.test = .fine)
    (h3 : ∀ e ∈ a.entries, endsJson e.name = true → e.size ≤ mj) (h4 : ∀ e ∈ a.entries, 0 < e.packed → e.size ≤ mr * e.packed)
    (h5 : ∀ e ∈ a.entries, ∀ p q, e.name ≠ p ++ ['.', '.'] ++ q) : valid mj mr a = true := by
  rw [valid_iff, entriesOk_iff]
  refine ⟨h1, h2, fun e he => ⟨fun hx => h3 e he ?_, h4 e he, h5 e he⟩⟩
  unfold ext extOf at hx
  simp only at hx
  split_ifs at hx with hc
  simp only [List.cons.injEq, true_and] at hx
  have hs : (basename e.name) <:+ e.name := by
    unfold basename
    have := List.takeWhile_prefix (l := e.name.reverse) (· ≠ '/')
    have := List.reverse_suffix.mpr this
    rwa [List.reverse_reverse] at this
  have hd : '.' :: ['j', 's', 'o', 'n'] <:+ basename e.name := by
    have h6 := List.takeWhile_append_dropWhile (p := (· ≠ '.')) (l := (basename e.name).reverse)
    have h7 : (basename e.name).reverse.dropWhile (· ≠ '.') ≠ [] := by
      intro h0
      rw [List.dropWhile_eq_nil_iff] at h0
      have := h0 '.' (by simpa using hc.1)
      simp at this
    obtain ⟨c, cs, h8⟩ := List.exists_cons_of_ne_nil h7
    have h9 : c = '.' := by
      have := List.head_dropWhile_not (fun x : Char => decide (x ≠ '.')) (l := (basename e.name).reverse) (w := h7)
      simp only [h8, List.head_cons] at this
      simpa using this
    subst h9
    rw [h8] at h6
    have h10 := congrArg List.reverse h6
    rw [List.reverse_append, List.reverse_reverse, List.reverse_cons, hx] at h10
    exact ⟨cs.reverse, by rw [← h10]; simp⟩
  unfold endsJson
  rw [List.isSuffixOf_iff_suffix]
  exact hd.trans hs

/-- unpacking an accepted archive takes at most so many times its size, if empty entries are empty -/
theorem C217_expansion (mj mr : Nat) (a : Archive) (h : valid mj mr a = true) (h0 : ∀ e ∈ a.entries, e.packed = 0 → e.size = 0) :
    (a.entries.map (·.size)).sum ≤ mr * (a.entries.map (·.packed)).sum := by
  obtain ⟨_, _, h3⟩ := (valid_iff mj mr a).mp h
  rw [entriesOk_iff] at h3
  generalize a.entries = es at h0 h3
  induction es with
  | nil => simp
  | cons e es ih =>
    simp only [List.map_cons, List.sum_cons, Nat.mul_add]
    have h1 := ih (fun x hx => h0 x (List.mem_cons_of_mem _ hx)) (fun x hx => h3 x (List.mem_cons_of_mem _ hx))
    have h2 : e.size ≤ mr * e.packed := by
      rcases Nat.eq_zero_or_pos e.packed with hp | hp
      · rw [h0 e (by simp) hp]; exact Nat.zero_le _
      · exact (h3 e (by simp)).2.1 hp
    omega

example : valid 100 54 ⟨true, .fine, [⟨modelJson, 90, 30⟩, ⟨['t', '.', 't', 'x', 't'], 540, 10⟩]⟩ = true := by decide
example : valid 100 54 ⟨true, .fine, [⟨modelJson, 101, 30⟩]⟩ = false := by decide
example : ∀ c ∈ basename modelJson, c ∉ forbidden := by decide

/-- a name with a character that unpacking removes: what is read as json is as large as one likes -/
theorem C217_counterexample : ¬ C217_claim := by
  intro h
  have := ((h 100 54 ⟨true, .fine, [⟨['M', '.', 'j', 's', '?', 'o', 'n'], 5000, 1000⟩]⟩).mp (by decide)).2.2.1 _ (List.mem_singleton.mpr rfl) (by decide)
  simp at this

/-- a file of a model that was saved is not accepted for two full stops in its name -/
theorem C217_counterexample_dots : valid 100 54 ⟨true, .fine, [⟨modelJson, 90, 30⟩, ⟨['a', '.', '.', 'n', 'c'], 10, 10⟩]⟩ = false := by decide

end Verif.Upd.Load
