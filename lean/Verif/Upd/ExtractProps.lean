import Mathlib.Data.List.Basic
import Mathlib.Data.List.TakeWhile
import Verif.Upd.ExtractModel
import Verif.Persist.Model

/-!
# C177: unpacking a save file
-/
namespace Verif.Upd
open Verif.Py

theorem unpack_keys {C : Type} (p : Option Str) (z : List (Str × C)) (d : Dict Str C) (k : Str) (h : k ∈ (unpack p z d).map Prod.fst) :
    k ∈ d.map Prod.fst ∨ ∃ e ∈ z, ignored p e.1 = false ∧ k = target e.1 := by
  induction z generalizing d with
  | nil => exact Or.inl h
  | cons e z ih =>
    obtain ⟨n, c⟩ := e
    rw [unpack] at h
    split at h
    · rcases ih d h with h1 | ⟨e, he, h2⟩
      · exact Or.inl h1
      · exact Or.inr ⟨e, List.mem_cons_of_mem _ he, h2⟩
    · rename_i hi
      rcases ih _ h with h1 | ⟨e, he, h2⟩
      · have : k = target n ∨ k ∈ d.map Prod.fst := by
          clear h ih
          induction d with
          | nil => simpa [Dict.set] using h1
          | cons q d ih2 =>
            obtain ⟨a, b⟩ := q
            unfold Dict.set at h1
            split at h1
            · rename_i e; simp only [List.map_cons, List.mem_cons] at h1 ⊢
              rcases h1 with h1 | h1
              · exact Or.inl h1
              · exact Or.inr (Or.inr h1)
            · simp only [List.map_cons, List.mem_cons] at h1 ⊢
              rcases h1 with h1 | h1
              · exact Or.inr (Or.inl h1)
              · rcases ih2 h1 with h3 | h3
                · exact Or.inl h3
                · exact Or.inr (Or.inr h3)
        rcases this with h3 | h3
        · exact Or.inr ⟨(n, c), by simp, by simpa using hi, h3⟩
        · exact Or.inl h3
      · exact Or.inr ⟨e, List.mem_cons_of_mem _ he, h2⟩

/-- **C177**.  Whatever the names in the archive, everything is unpacked into the folder itself: no name contains a separator
or a character that is not allowed on Windows. -/
theorem C177 {C : Type} (z : List (Str × C)) (k : Str) (h : k ∈ (extract z).map Prod.fst) :
    ∀ c ∈ k, c ∉ ['\\', '/', '*', '?', ':', '"', '<', '>', '|'] := by
  rcases unpack_keys _ z [] k h with h1 | ⟨e, _, _, rfl⟩
  · simp at h1
  · intro c hc
    unfold target sanitize at hc
    rw [List.mem_filter] at hc
    have := hc.2
    unfold forbidden at this
    intro hm
    rw [List.contains_iff_mem.mpr hm] at this
    exact absurd this (by decide)

example : extract [("../../etc/x:y".toList, 1)] = [("xy".toList, 1)] := by decide

/-! ## C178: nothing is lost -/

/-- **C178**, as one would expect: every file of the archive is found in the folder, under its own name. -/
def C178_claim : Prop := ∀ (z : List (Str × Nat)), (z.map Prod.fst).Nodup → ∀ n c, (n, c) ∈ z → isFolder n = false →
  (extract z).get? (target n) = some c

/-- Two names that differ only in a character that is removed. -/
theorem C178_counterexample : ¬ C178_claim := by
  intro h
  have := h [("a?.json".toList, 1), ("a.json".toList, 2)] (by decide) "a?.json".toList 1 (by decide) (by decide)
  revert this; decide

/-- Two folders with a file of the same name. -/
theorem C178_counterexample_folders :
    (extract [("a/".toList, 0), ("b/".toList, 0), ("a/x.nc".toList, 1), ("b/x.nc".toList, 2)]).get? "x.nc".toList = some 2 := by
  decide

/-- A model at the top with one folder for its data: the model is left out. -/
theorem C178_counterexample_one :
    extract [("Model.json".toList, 1), ("data/".toList, 0), ("data/wind.nc".toList, 2)] = [("wind.nc".toList, 2)] := by
  decide

theorem unpack_get {C : Type} (p : Option Str) (z : List (Str × C)) (d : Dict Str C)
    (hd : (z.filter fun e => !ignored p e.1).map (fun e => target e.1) |>.Nodup) (n : Str) (c : C) (hm : (n, c) ∈ z)
    (hi : ignored p n = false) : (unpack p z d).get? (target n) = some c := by
  induction z generalizing d with
  | nil => simp at hm
  | cons e z ih =>
    obtain ⟨n', c'⟩ := e
    rw [unpack]
    by_cases h1 : ignored p n' = true
    · rw [if_pos h1]
      apply ih
      · simpa [List.filter_cons, h1] using hd
      · rcases List.mem_cons.mp hm with h2 | h2
        · cases h2; rw [hi] at h1; exact absurd h1 (by decide)
        · exact h2
    · rw [if_neg h1]
      simp only [List.filter_cons, h1, Bool.not_false, if_true, List.map_cons, List.nodup_cons] at hd
      rcases List.mem_cons.mp hm with h2 | h2
      · cases h2
        have key : ∀ (z : List (Str × C)) (d : Dict Str C) (k : Str),
            k ∉ (z.filter fun e => !ignored p e.1).map (fun e => target e.1) → (unpack p z d).get? k = d.get? k := by
          intro z
          induction z with
          | nil => intro d k _; rfl
          | cons e z ih2 =>
            intro d k hk
            obtain ⟨n2, c2⟩ := e
            rw [unpack]
            by_cases h3 : ignored p n2 = true
            · rw [if_pos h3]; apply ih2; simpa [List.filter_cons, h3] using hk
            · rw [if_neg h3]
              simp only [List.filter_cons, h3, Bool.not_false, if_true, List.map_cons, List.mem_cons, not_or] at hk
              rw [ih2 _ _ hk.2, Dict.get?_set, if_neg (fun e => hk.1 e.symm)]
        rw [key z _ _ hd.1, Dict.get?_set_self]
      · exact ih _ hd.2 h2

theorem basename_plain (s : Str) (h : '/' ∉ s) : basename s = s := by
  unfold basename
  rw [List.takeWhile_eq_self_iff.mpr, List.reverse_reverse]
  intro c hc
  rw [List.mem_reverse] at hc
  simp only [ne_eq, decide_eq_true_eq]
  exact fun e => h (e ▸ hc)

theorem sanitize_plain (s : Str) (h : ∀ c ∈ s, c ∉ forbidden) : sanitize s = s := by
  unfold sanitize
  rw [List.filter_eq_self]
  intro c hc
  have := h c hc
  simp [this]

/-- Without folders nothing is ignored. -/
theorem pref_none {C : Type} (z : List (Str × C)) (h : ∀ e ∈ z, isFolder e.1 = false) : pref z = none := by
  have : folders z = [] := by
    unfold folders
    rw [List.filter_eq_nil_iff]
    intro n hn
    obtain ⟨e, he, rfl⟩ := List.mem_map.mp hn
    simp [h e he]
  unfold pref
  rw [this]

/-- **C178** for what is in the single folder of an archive, or for an archive without folders, if the names stay different:
every file is found, with its own content. -/
theorem C178_partial {C : Type} (z : List (Str × C))
    (hd : (z.filter fun e => !ignored (pref z) e.1).map (fun e => target e.1) |>.Nodup) (n : Str) (c : C) (hm : (n, c) ∈ z)
    (hf : isFolder n = false) (hp : (∀ e ∈ z, isFolder e.1 = false) ∨ ∃ p, folders z = [p] ∧ p.isPrefixOf n = true) :
    (extract z).get? (target n) = some c := by
  apply unpack_get _ _ _ hd n c hm
  rcases hp with h | ⟨p, h, hpn⟩
  · rw [pref_none z h]; simp [ignored, hf]
  · have : pref z = some p := by unfold pref; rw [h]
    rw [this]; simp [ignored, hf, hpn]

/-- An archive made by `save` has no folders and names as made by `Persist.sanitize`: it is unpacked under the very names that
its objects refer to. -/
theorem C178_saved {C : Type} (z : List (Str × C)) (hs : ∀ e ∈ z, ∃ s, e.1 = Persist.sanitize s)
    (hd : (z.map Prod.fst).Nodup) (n : Str) (c : C) (hm : (n, c) ∈ z) : (extract z).get? n = some c := by
  have hch : ∀ e ∈ z, ∀ ch ∈ e.1, ch ∉ forbidden := by
    intro e he ch hc
    obtain ⟨s, hs⟩ := hs e he
    rw [hs] at hc
    unfold Persist.sanitize at hc
    obtain ⟨a, _, rfl⟩ := List.mem_map.mp hc
    split
    · decide
    · rename_i hn
      intro hf
      apply hn
      unfold forbidden at hf
      simp only [List.mem_cons, List.not_mem_nil, or_false] at hf ⊢
      tauto
  have hno : ∀ e ∈ z, '/' ∉ e.1 := fun e he h => hch e he '/' h (by decide)
  have ht : ∀ e ∈ z, target e.1 = e.1 := by
    intro e he
    unfold target
    rw [basename_plain _ (hno e he), sanitize_plain _ (hch e he)]
  have hfo : ∀ e ∈ z, isFolder e.1 = false := by
    intro e he
    unfold isFolder
    simp only [decide_eq_false_iff_not]
    intro h
    exact hno e he (List.mem_of_getLast? h)
  have := C178_partial z (by
    have hfil : (z.filter fun e => !ignored (pref z) e.1) = z := by
      rw [List.filter_eq_self, pref_none z hfo]
      intro e he
      simp [ignored, hfo e he]
    rw [hfil, List.map_congr_left (g := Prod.fst) ht]
    exact hd) n c hm (hfo _ hm) (Or.inl hfo)
  rwa [ht (n, c) hm] at this

example : (extract [("Model.json".toList, 1), ("Wind_1.json".toList, 2)]).get? "Wind_1.json".toList = some 2 := by decide

end Verif.Upd
