import Mathlib.Data.List.Basic
import Verif.Appear.Model

/-!
# C196: updating an appearance
-/
namespace Verif.Appear
open Verif.Py

/-- What an update should do: the given values, but those that are only read, are set and reported, the rest stays. -/
def Expected (s : Schema) (o : Obj) (d : Dict String Nat) (r : Obj × Bool) : Prop :=
  r.2 = false ∧ ∀ k,
    (k ∈ s.ro → r.1.attrs.get? k = o.attrs.get? k) ∧
    (k ∉ s.ro → ∀ v, d.get? k = some v → r.1.attrs.get? k = some v ∧ toDict s r.1 k = some (some v)) ∧
    (k ∉ s.ro → d.get? k = none → r.1.attrs.get? k = o.attrs.get? k ∧ (k ∈ r.1.keys ↔ k ∈ o.keys))

/-- **C196**, as one would expect. -/
def C196_claim : Prop := ∀ (s : Schema) (o : Obj) (d : Dict String Nat), d.WF → (∀ k ∈ s.upd, k ∉ s.ro) → s.upd.Nodup → s.ro.Nodup →
  Expected s o d (update s o d)

/-- Updating only a colour raises. -/
theorem C196_counterexample : ¬ C196_claim := by
  intro h
  have := (h ⟨["name"], ["id"]⟩ ⟨[], []⟩ [("color", 1)] (by simp [Dict.WF]) (by decide) (by decide) (by decide)).1
  revert this; decide

theorem baseUpdate_get (upd : List String) (d a : Dict String Nat) (k : String) :
    (baseUpdate upd d a).get? k = if k ∈ upd then (match d.get? k with | some v => some v | none => a.get? k) else a.get? k := by
  unfold baseUpdate
  induction upd generalizing a with
  | nil => simp
  | cons n ns ih =>
    rw [List.foldl_cons, ih]
    have hg : (baseUpdate.setOne d a n).get? k = if n = k then (match d.get? k with | some v => some v | none => a.get? k)
        else a.get? k := by
      unfold baseUpdate.setOne
      by_cases hk : n = k
      · subst hk
        rw [if_pos rfl]
        cases d.get? n with
        | none => rfl
        | some v => simp [Dict.get?_set]
      · rw [if_neg hk]
        cases d.get? n with
        | none => rfl
        | some v => simp only [Dict.get?_set]; rw [if_neg hk]
    rw [hg]
    by_cases hk : n = k
    · subst hk
      rw [if_pos rfl, if_pos List.mem_cons_self]
      cases d.get? n <;> simp
    · rw [if_neg hk]
      have hkn : k ∈ n :: ns ↔ k ∈ ns := by
        rw [List.mem_cons]
        exact ⟨fun h => h.resolve_left fun e => hk e.symm, Or.inr⟩
      simp only [hkn]

theorem popAll_some (ns : List String) (d : Dict String Nat) (hn : ns.Nodup) (h : ∀ n ∈ ns, d.has n = true) :
    popAll ns d = some (d.filter fun p => p.1 ∉ ns) := by
  induction ns generalizing d with
  | nil => simp [popAll]
  | cons n ns ih =>
    rw [List.nodup_cons] at hn
    rw [popAll, if_pos (h n List.mem_cons_self), ih (d.del n) hn.2]
    · congr 1
      unfold Dict.del
      rw [List.filter_filter]
      apply List.filter_congr
      intro p _
      simp only [List.mem_cons, not_or, ne_eq]
      by_cases h1 : p.1 = n <;> simp [h1]
    · intro m hm
      have h1 := h m (List.mem_cons_of_mem _ hm)
      rw [Dict.has] at h1 ⊢
      rw [Dict.get?_del, if_neg (by rintro rfl; exact hn.1 hm)]
      exact h1

theorem popAll_none (ns : List String) (d : Dict String Nat) (n : String) (hn : n ∈ ns) (h : d.has n = false) :
    popAll ns d = none := by
  induction ns generalizing d with
  | nil => simp at hn
  | cons m ms ih =>
    rw [popAll]
    split
    · rename_i hm
      rcases List.mem_cons.mp hn with rfl | hn
      · rw [h] at hm; simp at hm
      · apply ih _ hn
        rw [Dict.has] at h ⊢
        rw [Dict.get?_del]
        split
        · rfl
        · exact h
    · rfl

theorem setRest_get (o : Obj) (d : Dict String Nat) (hw : d.WF) (k : String) :
    (setRest o d).attrs.get? k = (match d.get? k with | some v => some v | none => o.attrs.get? k) ∧
    (k ∈ (setRest o d).keys ↔ k ∈ o.keys ∨ d.has k = true) := by
  unfold setRest
  induction d generalizing o with
  | nil => simp [Dict.has]
  | cons p d ih =>
    obtain ⟨n, v⟩ := p
    unfold Dict.WF at hw
    rw [List.map_cons, List.nodup_cons] at hw
    rw [List.foldl_cons]
    obtain ⟨h1, h2⟩ := ih ⟨o.attrs.set n v, if n ∈ o.keys then o.keys else o.keys ++ [n]⟩ hw.2
    rw [h1, h2]
    simp only [Dict.has, Dict.get?_cons]
    by_cases hk : n = k
    · subst hk
      have hd : Dict.get? d n = none := (Dict.get?_eq_none_iff d n).mpr hw.1
      rw [hd, if_pos rfl]
      simp only [Dict.get?_set, if_pos, true_and]
      constructor
      · simp
      · intro _
        left
        split
        · assumption
        · simp
    · rw [if_neg hk]
      constructor
      · cases hd : Dict.get? d k with
        | none => simp only [Dict.get?_set]; rw [if_neg hk]
        | some w => rfl
      · have : k ∈ (if n ∈ o.keys then o.keys else o.keys ++ [n]) ↔ k ∈ o.keys := by
          split
          · rfl
          · rw [List.mem_append, List.mem_singleton]
            exact ⟨fun h => h.resolve_right fun e => hk e.symm, Or.inl⟩
        rw [this]

theorem get?_filter (d : Dict String Nat) (ns : List String) (k : String) :
    Dict.get? (d.filter fun p => p.1 ∉ ns) k = if k ∈ ns then none else d.get? k := by
  induction d with
  | nil => simp
  | cons p d ih =>
    obtain ⟨n, v⟩ := p
    by_cases hn : n ∈ ns
    · rw [List.filter_cons_of_neg (by simpa using hn), ih, Dict.get?_cons]
      by_cases hk : n = k
      · subst hk; rw [if_pos hn, if_pos hn]
      · rw [if_neg hk]
    · rw [List.filter_cons_of_pos (by simpa using hn), Dict.get?_cons, ih, Dict.get?_cons]
      by_cases hk : n = k
      · subst hk; rw [if_pos rfl, if_neg hn, if_pos rfl]
      · rw [if_neg hk, if_neg hk]

/-- **C196** if all names of the schema are given. -/
theorem C196_partial (s : Schema) (o : Obj) (d : Dict String Nat) (hw : d.WF) (hd : ∀ k ∈ s.upd, k ∉ s.ro) (hu : s.upd.Nodup)
    (hr : s.ro.Nodup) (hall : ∀ k, k ∈ s.upd ∨ k ∈ s.ro → d.has k = true) : Expected s o d (update s o d) := by
  have hn : (s.upd ++ s.ro).Nodup := by
    rw [List.nodup_append]
    exact ⟨hu, hr, fun a ha b hb e => hd a ha (e ▸ hb)⟩
  have hp := popAll_some (s.upd ++ s.ro) d hn (fun n h => hall n (List.mem_append.mp h))
  have hwf : Dict.WF (d.filter fun p => p.1 ∉ s.upd ++ s.ro) := by
    unfold Dict.WF at hw ⊢
    exact hw.sublist (List.Sublist.map _ List.filter_sublist)
  unfold update
  simp only
  rw [hp]
  refine ⟨rfl, fun k => ?_⟩
  obtain ⟨h1, h2⟩ := setRest_get ⟨baseUpdate s.upd d o.attrs, o.keys⟩ _ hwf k
  simp only at h1 h2
  have hb := baseUpdate_get s.upd d o.attrs k
  rw [get?_filter] at h1
  rw [Dict.has, get?_filter] at h2
  refine ⟨?_, ?_, ?_⟩
  · intro hk
    simp only
    rw [h1, if_pos (List.mem_append_right _ hk)]
    simp only
    rw [hb, if_neg fun h => hd k h hk]
  · intro hk v hv
    by_cases hku : k ∈ s.upd
    · have he : (setRest ⟨baseUpdate s.upd d o.attrs, o.keys⟩ (d.filter fun p => p.1 ∉ s.upd ++ s.ro)).attrs.get? k = some v := by
        rw [h1, if_pos (List.mem_append_left _ hku)]
        simp only
        rw [hb, if_pos hku, hv]
      refine ⟨he, ?_⟩
      unfold toDict
      rw [if_pos (Or.inl hku), he]
    · have hm : k ∉ s.upd ++ s.ro := by simp [hku, hk]
      have he : (setRest ⟨baseUpdate s.upd d o.attrs, o.keys⟩ (d.filter fun p => p.1 ∉ s.upd ++ s.ro)).attrs.get? k = some v := by
        rw [h1, if_neg hm, hv]
      refine ⟨he, ?_⟩
      unfold toDict
      rw [if_pos (Or.inr (Or.inr (h2.mpr (Or.inr (by rw [if_neg hm, hv]; rfl))))), he]
  · intro hk hv
    have hku : k ∉ s.upd := by
      intro h
      have := hall k (Or.inl h)
      rw [Dict.has, hv] at this; simp at this
    have hm : k ∉ s.upd ++ s.ro := by simp [hku, hk]
    refine ⟨?_, ?_⟩
    · simp only
      rw [h1, if_neg hm, hv]
      simp only
      rw [hb, if_neg hku]
    · simp only
      rw [h2, if_neg hm, hv]
      simp

/-- If a name of the schema is missing KeyError is raised, and only the names of the schema have been set. -/
theorem C196_fails (s : Schema) (o : Obj) (d : Dict String Nat) (n : String) (hn : n ∈ s.upd ∨ n ∈ s.ro) (h : d.has n = false) :
    (update s o d).2 = true ∧ (update s o d).1.keys = o.keys ∧
    ∀ k, k ∉ s.upd → (update s o d).1.attrs.get? k = o.attrs.get? k := by
  unfold update
  simp only
  rw [popAll_none (s.upd ++ s.ro) d n (List.mem_append.mpr hn) h]
  refine ⟨rfl, rfl, fun k hk => ?_⟩
  simp only
  rw [baseUpdate_get, if_neg hk]

example : update ⟨["name"], ["id"]⟩ ⟨[("name", 1), ("id", 2)], []⟩ [("id", 7), ("color", 5), ("name", 3)] =
    (⟨[("name", 3), ("id", 2), ("color", 5)], ["color"]⟩, false) := by decide

end Verif.Appear
