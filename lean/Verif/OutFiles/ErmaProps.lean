import Verif.OutFiles.ErmaModel
import Mathlib.Data.List.Basic
import Mathlib.Data.List.Nodup

/-!
# C223-C226: the ERMA data package
-/
namespace Verif.OutFiles.Erma
open Verif.Py (Dict)

/-! ## C223: layers and their data -/

/-- The layers that were asked for: the data, and the time for layers of single time steps. -/
def Wanted (c : ECfg) (unc : Bool) (times : List Int) : Src → Option Int → Prop
  | .location, none => c.location = true
  | .cert, none => c.certP = true
  | .unc, none => c.uncP = true ∧ unc = true
  | .area, none => c.area = true ∧ c.hasArea = true
  | .land, none => c.land = true ∧ c.hasLand = true
  | .bounds, none => c.bounds = true ∧ c.hasBounds = true
  | .certB, none => c.certB = true
  | .certC, none => c.certC = true
  | .uncB, none => c.uncB = true ∧ unc = true
  | .cert, some t => c.each = true ∧ t ∈ times ∧ c.certP = true
  | .certB, some t => c.each = true ∧ t ∈ times ∧ c.certB = true
  | .certC, some t => c.each = true ∧ t ∈ times ∧ c.certC = true
  | .unc, some t => c.each = true ∧ t ∈ times ∧ c.uncP = true ∧ unc = true
  | .uncB, some t => c.each = true ∧ t ∈ times ∧ c.uncB = true ∧ unc = true
  | _, some _ => False

/-- The data under the name of a source file. -/
def contents (a : List (Entry × Stored)) (f : Name) : List Src :=
  a.filterMap fun e => match e with
    | (.source n, .data s) => if n = f then some s else none
    | _ => none

/-- The layer files with a number. -/
def filesAt (a : List (Entry × Stored)) (i : Nat) : List LFile :=
  a.filterMap fun e => match e with
    | (.layer j, .json l) => if j = i then some l else none
    | _ => none

/-- What one sees: the layer files with a number, each with its time and the data that it refers to. -/
def opened (a : List (Entry × Stored)) (i : Nat) : List (Option Int × List Src) :=
  (filesAt a i).map fun l => (l.time, contents a l.file)

/-- The package has one layer for each one that was asked for, with its own data, and no others. -/
def Faithful (c : ECfg) (unc : Bool) (times : List Int) (a : List (Entry × Stored)) : Prop :=
  (∀ s t, Wanted c unc times s t → ∃ i, opened a i = [(t, [s])] ∧ ∀ j, opened a j = [(t, [s])] → j = i) ∧
  ∀ i, opened a i = [] ∨ ∃ s t, Wanted c unc times s t ∧ opened a i = [(t, [s])]

/-- C223: this is so for every name of the package. -/
def C223_claim : Prop :=
  ∀ (c : ECfg) (unc : Bool) (times : List Int), c.name ≠ [] → times.Nodup →
    ∃ a, package c unc times = some a ∧ Faithful c unc times a

/-- The package `v1.2.zip`: the layer of the best estimate shows the boundary of the uncertain elements. -/
theorem C223_counterexample : ¬ C223_claim := by
  intro h
  obtain ⟨a, h1, h2, -⟩ := h { name := [['v', '1'], ['2'], zipX], location := false, uncP := false } true [] (by simp) (by simp)
  have hp : package { name := [['v', '1'], ['2'], zipX], location := false, uncP := false } true [] =
      some [(.source [['v', '1'], zipX], .data .uncB), (.layer 0, .json ⟨[['v', '1'], zipX], none⟩),
        (.layer 1, .json ⟨[['v', '1'], zipX], none⟩), (.readme, .other), (.attachment, .other), (.font, .other)] := by rfl
  rw [hp] at h1
  obtain rfl := Option.some.inj h1
  obtain ⟨i, hi, -⟩ := h2 .cert none rfl
  match i, hi with
  | 0, hi => exact absurd hi (by decide)
  | 1, hi => exact absurd hi (by decide)
  | i + 2, hi => simp [opened, filesAt] at hi

/-! ### The archive -/

theorem contents_zip (c : ECfg) (tmp : Dict Name Src) (f : Name) (ls : List (Src × Option Int)) (i : Nat) (done : List Name)
    (a : List (Entry × Stored)) (h : zipAll c tmp i ls done = some a) :
    contents a f = if f ∈ done ∨ f ∉ ls.map (fun l => fileOf c l.1) then [] else (tmp.get? f).toList := by
  induction ls generalizing i done a with
  | nil => simp [zipAll] at h; subst h; simp [contents]
  | cons l r ih =>
    simp only [zipAll] at h
    by_cases hd : fileOf c l.1 ∈ done
    · rw [if_pos hd] at h
      obtain ⟨a', h1, rfl⟩ := Option.map_eq_some_iff.mp h
      have := ih _ _ _ h1
      have h2 : contents ((Entry.layer i, Stored.json ⟨fileOf c l.1, l.2⟩) :: a') f = contents a' f := by simp [contents]
      rw [h2, this]
      by_cases hf : f ∈ done
      · simp [hf]
      · have hne : fileOf c l.1 ≠ f := fun e => hf (e ▸ hd)
        by_cases hin : f ∈ r.map (fun l => fileOf c l.1)
        · rw [if_neg (by simp [hf, hin]), if_neg (by rw [List.map_cons, List.mem_cons]; simp [hf, hin])]
        · rw [if_pos (.inr hin), if_pos (.inr (by rw [List.map_cons, List.mem_cons]; exact fun h => h.elim (fun h => hne h.symm) hin))]
    · rw [if_neg hd] at h
      cases ht : tmp.get? (fileOf c l.1) with
      | none => simp [ht] at h
      | some s =>
        rw [ht] at h
        obtain ⟨a', h1, rfl⟩ := Option.map_eq_some_iff.mp h
        have := ih _ _ _ h1
        have h2 : contents ((Entry.source (fileOf c l.1), Stored.data s) :: (Entry.layer i, Stored.json ⟨fileOf c l.1, l.2⟩) :: a') f =
            if fileOf c l.1 = f then s :: contents a' f else contents a' f := by
          by_cases e : fileOf c l.1 = f <;> simp [contents, e]
        rw [h2, this]
        by_cases e : fileOf c l.1 = f
        · subst e; simp [hd, ht]
        · rw [if_neg e]
          by_cases hf : f ∈ done
          · rw [if_pos (.inl (by simp [hf])), if_pos (.inl hf)]
          · by_cases hin : f ∈ r.map (fun l => fileOf c l.1)
            · rw [if_neg (by simp [hf, hin, Ne.symm e]), if_neg (by rw [List.map_cons, List.mem_cons]; simp [hf, hin])]
            · rw [if_pos (.inr hin), if_pos (.inr (by rw [List.map_cons, List.mem_cons]; exact fun h => h.elim (fun h => e h.symm) hin))]

theorem files_zip (c : ECfg) (tmp : Dict Name Src) (ls : List (Src × Option Int)) (i : Nat) (done : List Name)
    (a : List (Entry × Stored)) (h : zipAll c tmp i ls done = some a) (k : Nat) :
    filesAt a k = if k < i then [] else (ls[k - i]?).toList.map fun l => ⟨fileOf c l.1, l.2⟩ := by
  induction ls generalizing i done a with
  | nil => simp [zipAll] at h; subst h; simp [filesAt]
  | cons l r ih =>
    have key : ∀ a', filesAt a' k = (if k < i + 1 then [] else (r[k - (i + 1)]?).toList.map fun l => (⟨fileOf c l.1, l.2⟩ : LFile)) →
        (if i = k then (⟨fileOf c l.1, l.2⟩ : LFile) :: filesAt a' k else filesAt a' k) =
          if k < i then [] else ((l :: r)[k - i]?).toList.map fun l => ⟨fileOf c l.1, l.2⟩ := by
      intro a' e
      rw [e]
      by_cases h1 : k < i
      · simp [h1, Nat.lt_succ_of_lt h1, Nat.ne_of_gt h1]
      · by_cases h2 : i = k
        · subst h2; simp
        · have h3 : ¬ k < i + 1 := by omega
          have h4 : k - i = k - (i + 1) + 1 := by omega
          simp [h1, h2, h3, h4]
    simp only [zipAll] at h
    by_cases hd : fileOf c l.1 ∈ done
    · rw [if_pos hd] at h
      obtain ⟨a', h1, rfl⟩ := Option.map_eq_some_iff.mp h
      rw [← key a' (ih _ _ _ h1)]
      by_cases e : i = k <;> simp [filesAt, e]
    · rw [if_neg hd] at h
      cases ht : tmp.get? (fileOf c l.1) with
      | none => simp [ht] at h
      | some s =>
        rw [ht] at h
        obtain ⟨a', h1, rfl⟩ := Option.map_eq_some_iff.mp h
        rw [← key a' (ih _ _ _ h1)]
        by_cases e : i = k <;> simp [filesAt, e]

theorem zip_some (c : ECfg) (tmp : Dict Name Src) (ls : List (Src × Option Int)) (i : Nat) (done : List Name)
    (h : ∀ l ∈ ls, (tmp.get? (fileOf c l.1)).isSome) : ∃ a, zipAll c tmp i ls done = some a := by
  induction ls generalizing i done with
  | nil => exact ⟨[], rfl⟩
  | cons l r ih =>
    have hr : ∀ l ∈ r, (tmp.get? (fileOf c l.1)).isSome := fun x hx => h x (by simp [hx])
    simp only [zipAll]
    by_cases hd : fileOf c l.1 ∈ done
    · rw [if_pos hd]
      obtain ⟨a, ha⟩ := ih (i + 1) done hr
      exact ⟨_, by rw [ha]; rfl⟩
    · rw [if_neg hd]
      obtain ⟨s, hs⟩ := Option.isSome_iff_exists.mp (h l (by simp))
      rw [hs]
      obtain ⟨a, ha⟩ := ih (i + 1) (done ++ [fileOf c l.1]) hr
      exact ⟨_, by simp only [ha]; rfl⟩

/-! ### The temporary folder -/

theorem fold_isSome (c : ECfg) (ls : List Src) (d : Dict Name Src) (f : Name) (h : (d.get? f).isSome ∨ ∃ s ∈ ls, fileOf c s = f) :
    ((ls.foldl (fun d s => d.set (fileOf c s) s) d).get? f).isSome := by
  induction ls generalizing d with
  | nil => simpa using h
  | cons a r ih =>
    rw [List.foldl_cons]
    apply ih
    rw [Dict.get?_set]
    by_cases e : fileOf c a = f
    · left; simp [e]
    · simp only [e, if_false]
      rcases h with h | ⟨s, hs, hf⟩
      · exact .inl h
      · rcases List.mem_cons.mp hs with rfl | hs
        · exact absurd hf e
        · exact .inr ⟨s, hs, hf⟩

theorem fold_own (c : ECfg) (hinj : ∀ s s', fileOf c s = fileOf c s' → s = s') (ls : List Src) (d : Dict Name Src) (s : Src) :
    (ls.foldl (fun d s => d.set (fileOf c s) s) d).get? (fileOf c s) = if s ∈ ls then some s else d.get? (fileOf c s) := by
  induction ls generalizing d with
  | nil => simp
  | cons a r ih =>
    rw [List.foldl_cons, ih]
    by_cases hr : s ∈ r
    · simp [hr]
    · rw [if_neg hr, Dict.get?_set]
      by_cases e : s = a
      · subst e; simp
      · have : fileOf c a ≠ fileOf c s := fun h => e (hinj _ _ h).symm
        simp [this, e, hr]

theorem mem_tmp (c : ECfg) (unc : Bool) (times : List Int) (l : Src × Option Int) (hl : l ∈ layerList c unc times) :
    l.1 ∈ written c unc ++ ((layerList c unc times).map Prod.fst).filter Src.own := by
  by_cases ho : l.1.own = true
  · exact List.mem_append_right _ (List.mem_filter.mpr ⟨List.mem_map_of_mem hl, ho⟩)
  · apply List.mem_append_left
    obtain ⟨s, t⟩ := l
    simp only [layerList, List.mem_append, List.mem_map] at hl
    have key : (s ∈ wholeLayers c unc ∨ s ∈ stepLayers c unc) := by
      rcases hl with ⟨x, hx, e⟩ | hl
      · obtain ⟨rfl, -⟩ := Prod.mk.inj e; exact .inl hx
      · by_cases he : c.each = true
        · simp only [he, if_true, List.mem_flatMap, List.mem_map] at hl
          obtain ⟨t', -, x, hx, e⟩ := hl
          obtain ⟨rfl, -⟩ := Prod.mk.inj e; exact .inr hx
        · simp [he] at hl
    cases s <;> simp [Src.own] at ho <;> simp [wholeLayers, stepLayers, written] at key ⊢ <;> tauto

theorem package_some (c : ECfg) (unc : Bool) (times : List Int) :
    ∃ a, zipAll c (tmpDir c unc times) 0 (layerList c unc times) [] = some a ∧
      package c unc times = some (a ++ [(.readme, .other), (.attachment, .other), (.font, .other)]) := by
  obtain ⟨a, ha⟩ := zip_some c (tmpDir c unc times) (layerList c unc times) 0 [] (fun l hl =>
    fold_isSome c _ _ _ (.inr ⟨l.1, mem_tmp c unc times l hl, rfl⟩))
  exact ⟨a, ha, by simp [package, ha]⟩

theorem opened_eq (c : ECfg) (unc : Bool) (times : List Int) (a : List (Entry × Stored)) (h : package c unc times = some a) (i : Nat) :
    opened a i = ((layerList c unc times)[i]?).toList.map fun l => (l.2, ((tmpDir c unc times).get? (fileOf c l.1)).toList) := by
  obtain ⟨b, hb, hp⟩ := package_some c unc times
  rw [hp] at h
  obtain rfl := Option.some.inj h
  have hf : filesAt (b ++ [(.readme, .other), (.attachment, .other), (.font, .other)]) i = filesAt b i := by simp [filesAt]
  have hc : ∀ f, contents (b ++ [(.readme, .other), (.attachment, .other), (.font, .other)]) f = contents b f := by
    intro f; simp [contents]
  rw [opened, hf, files_zip c _ _ 0 [] b hb]
  cases hl : (layerList c unc times)[i]? with
  | none => simp
  | some l =>
    have hm : l ∈ layerList c unc times := List.mem_of_getElem? hl
    simp only [Nat.not_lt_zero, if_false, Option.toList_some, List.map_cons, List.map_nil, hc, contents_zip c _ _ _ 0 [] b hb]
    have : fileOf c l.1 ∈ (layerList c unc times).map (fun l => fileOf c l.1) := List.mem_map_of_mem (f := fun l => fileOf c l.1) hm
    simp [this]

/-! ### The list of layers -/

theorem mem_layers (c : ECfg) (unc : Bool) (times : List Int) (s : Src) (t : Option Int) :
    (s, t) ∈ layerList c unc times ↔ Wanted c unc times s t := by
  cases t with
  | none => cases s <;> cases he : c.each <;> simp [layerList, wholeLayers, Wanted, he]
  | some t => cases s <;> cases he : c.each <;> simp [layerList, stepLayers, Wanted, he]

theorem ite_sub (b : Bool) (x : Src) : List.Sublist (if b = true then [x] else []) [x] := by cases b <;> simp

theorem nodup_layers (c : ECfg) (unc : Bool) (times : List Int) (hn : times.Nodup) : (layerList c unc times).Nodup := by
  have h1 : (wholeLayers c unc).Nodup := by
    have hs : List.Sublist (wholeLayers c unc) [.location, .cert, .unc, .area, .land, .bounds, .certB, .certC, .uncB] :=
      (ite_sub _ _).append ((ite_sub _ _).append ((ite_sub _ _).append ((ite_sub _ _).append ((ite_sub _ _).append
        ((ite_sub _ _).append ((ite_sub _ _).append ((ite_sub _ _).append (ite_sub _ _))))))))
    exact hs.nodup (by decide)
  have h2 : (stepLayers c unc).Nodup := by
    have hs : List.Sublist (stepLayers c unc) [.cert, .certB, .certC, .unc, .uncB] :=
      (ite_sub _ _).append ((ite_sub _ _).append ((ite_sub _ _).append ((ite_sub _ _).append (ite_sub _ _))))
    exact hs.nodup (by decide)
  rw [layerList, List.nodup_append]
  refine ⟨h1.map (fun a b h => (Prod.mk.inj h).1), ?_, ?_⟩
  · split
    · rw [List.nodup_flatMap]
      refine ⟨fun t _ => h2.map (fun a b h => (Prod.mk.inj h).1), ?_⟩
      refine hn.imp ?_
      intro t t' hne x hx hx'
      obtain ⟨s, -, rfl⟩ := List.mem_map.mp hx
      obtain ⟨s', -, e⟩ := List.mem_map.mp hx'
      exact hne (Option.some.inj (Prod.mk.inj e).2).symm
    · exact List.nodup_nil
  · intro x hx y hy e
    subst e
    obtain ⟨s, -, rfl⟩ := List.mem_map.mp hx
    split at hy
    · obtain ⟨t, -, hy⟩ := List.mem_flatMap.mp hy
      obtain ⟨s', -, e⟩ := List.mem_map.mp hy
      exact absurd (Prod.mk.inj e).2 (by simp)
    · simp at hy

/-! ### Names -/

theorem builder_plain {c : ECfg} {s : List Char} (hs : stem c.name = [s]) (t : List Char) : builder c t = [s ++ t, zipX] := by
  simp only [builder, hs, addText, withSuffix]
  simp [stem]

theorem suffix_ne {s t n : List Char} (h : (t.reverse.isPrefixOf n.reverse) = false) : s ++ t ≠ n := by
  intro e
  subst e
  rw [List.reverse_append] at h
  have : t.reverse <+: t.reverse ++ s.reverse := List.prefix_append _ _
  rw [← List.isPrefixOf_iff_prefix] at this
  rw [this] at h
  exact absurd h (by simp)

/-- Names with at most one dot: every kind of data has its own source file. -/
theorem fileOf_inj {c : ECfg} (hn : c.name ≠ []) (hd : c.name.length ≤ 2) (s s' : Src) (h : fileOf c s = fileOf c s') : s = s' := by
  have : ∃ b, stem c.name = [b] := by
    match hc : c.name, hn, hd with
    | [a], _, _ => exact ⟨a, rfl⟩
    | [a, b], _, _ => exact ⟨a, rfl⟩
  obtain ⟨b, hb⟩ := this
  cases s <;> cases s' <;> first
    | rfl
    | (exfalso; revert h; simp only [fileOf, builder_plain hb, List.cons.injEq, and_true, List.append_cancel_left_eq]; decide)
    | (exfalso; revert h; simp only [fileOf, builder_plain hb, List.cons.injEq, and_true]; exact suffix_ne (by decide))
    | (exfalso; revert h; simp only [fileOf, builder_plain hb, List.cons.injEq, and_true]; exact fun h => suffix_ne (by decide) h.symm)

/-- C223: names with at most one dot. Missing: names with more dots (`C223_dots`). -/
theorem C223_partial (c : ECfg) (unc : Bool) (times : List Int) (hn : c.name ≠ []) (ht : times.Nodup) (hd : c.name.length ≤ 2) :
    ∃ a, package c unc times = some a ∧ Faithful c unc times a := by
  obtain ⟨b, -, hp⟩ := package_some c unc times
  refine ⟨_, hp, ?_⟩
  have ho : ∀ i, opened (b ++ [(.readme, .other), (.attachment, .other), (.font, .other)]) i =
      ((layerList c unc times)[i]?).toList.map fun l => (l.2, [l.1]) := by
    intro i
    rw [opened_eq c unc times _ hp]
    cases hl : (layerList c unc times)[i]? with
    | none => rfl
    | some l =>
      have hm : l ∈ layerList c unc times := List.mem_of_getElem? hl
      have := fold_own c (fileOf_inj hn hd) (written c unc ++ ((layerList c unc times).map Prod.fst).filter Src.own) [] l.1
      rw [if_pos (mem_tmp c unc times l hm)] at this
      rw [← tmpDir] at this
      simp [this]
  have hiff : ∀ i s t, opened (b ++ [(.readme, .other), (.attachment, .other), (.font, .other)]) i = [(t, [s])] ↔
      (layerList c unc times)[i]? = some (s, t) := by
    intro i s t
    rw [ho]
    cases hl : (layerList c unc times)[i]? with
    | none => simp
    | some l => obtain ⟨s', t'⟩ := l; simp [and_comm]
  constructor
  · intro s t hw
    obtain ⟨i, hi⟩ := List.mem_iff_getElem?.mp ((mem_layers c unc times s t).mpr hw)
    refine ⟨i, (hiff i s t).mpr hi, fun j hj => ?_⟩
    have hj := (hiff j s t).mp hj
    obtain ⟨h1, h2⟩ := List.getElem?_eq_some_iff.mp hi
    obtain ⟨h3, h4⟩ := List.getElem?_eq_some_iff.mp hj
    exact (List.Nodup.getElem_inj_iff (nodup_layers c unc times ht)).mp (h4.trans h2.symm)
  · intro i
    cases hl : (layerList c unc times)[i]? with
    | none => left; rw [ho, hl]; rfl
    | some l =>
      right
      exact ⟨l.1, l.2, (mem_layers c unc times _ _).mp (List.mem_of_getElem? hl), (hiff i _ _).mpr hl⟩

example : ∃ a, package { name := [['r', 'u', 'n'], zipX], certB := true, each := true } true [0, 3600] = some a ∧
    opened a 1 = [(none, [.cert])] ∧ opened a 6 = [(some 0, [.certB])] ∧ opened a 13 = [] := ⟨_, rfl, by decide, by decide, by decide⟩

/-- Whatever the name, the package can be made, and no name occurs twice in it. -/
theorem C223_once (c : ECfg) (unc : Bool) (times : List Int) : ∃ a, package c unc times = some a ∧ (a.map Prod.fst).Nodup := by
  obtain ⟨b, hb, hp⟩ := package_some c unc times
  refine ⟨_, hp, ?_⟩
  have key : ∀ (ls : List (Src × Option Int)) (i : Nat) (done : List Name) (a : List (Entry × Stored)),
      zipAll c (tmpDir c unc times) i ls done = some a → (a.map Prod.fst).Nodup ∧
        ∀ e ∈ a.map Prod.fst, (∃ j, e = .layer j ∧ i ≤ j) ∨ ∃ f, e = .source f ∧ f ∉ done := by
    intro ls
    induction ls with
    | nil => intro i done a h; simp [zipAll] at h; subst h; simp
    | cons l r ih =>
      intro i done a h
      simp only [zipAll] at h
      by_cases hd : fileOf c l.1 ∈ done
      · rw [if_pos hd] at h
        obtain ⟨a', h1, rfl⟩ := Option.map_eq_some_iff.mp h
        obtain ⟨h2, h3⟩ := ih _ _ _ h1
        refine ⟨?_, ?_⟩
        · rw [List.map_cons, List.nodup_cons]
          refine ⟨fun hm => ?_, h2⟩
          rcases h3 _ hm with ⟨j, e, hj⟩ | ⟨f, e, -⟩
          · cases e; omega
          · cases e
        · intro e he
          rcases List.mem_cons.mp he with rfl | he
          · exact .inl ⟨i, rfl, Nat.le_refl _⟩
          · rcases h3 e he with ⟨j, e', hj⟩ | h
            · exact .inl ⟨j, e', by omega⟩
            · exact .inr h
      · rw [if_neg hd] at h
        cases ht : (tmpDir c unc times).get? (fileOf c l.1) with
        | none => simp [ht] at h
        | some s =>
          rw [ht] at h
          obtain ⟨a', h1, rfl⟩ := Option.map_eq_some_iff.mp h
          obtain ⟨h2, h3⟩ := ih _ _ _ h1
          refine ⟨?_, ?_⟩
          · rw [List.map_cons, List.map_cons, List.nodup_cons, List.nodup_cons]
            refine ⟨fun hm => ?_, fun hm => ?_, h2⟩
            · rcases List.mem_cons.mp hm with e | hm
              · cases e
              · rcases h3 _ hm with ⟨j, e, -⟩ | ⟨f, e, hf⟩
                · cases e
                · cases e; simp at hf
            · rcases h3 _ hm with ⟨j, e, hj⟩ | ⟨f, e, -⟩
              · cases e; omega
              · cases e
          · intro e he
            rcases List.mem_cons.mp he with rfl | he
            · exact .inr ⟨_, rfl, hd⟩
            · rcases List.mem_cons.mp he with rfl | he
              · exact .inl ⟨i, rfl, Nat.le_refl _⟩
              · rcases h3 e he with ⟨j, e', hj⟩ | ⟨f, e', hf⟩
                · exact .inl ⟨j, e', by omega⟩
                · exact .inr ⟨f, e', fun h => hf (by simp [h])⟩
  obtain ⟨h1, h2⟩ := key _ _ _ _ hb
  rw [List.map_append, List.nodup_append]
  refine ⟨h1, by decide, ?_⟩
  intro x hx y hy e
  subst e
  rcases h2 x hx with ⟨j, rfl, -⟩ | ⟨f, rfl, -⟩ <;> simp at hy

/-- The last of the shapefiles that are written after the run. -/
def lastWritten (c : ECfg) (unc : Bool) : Src :=
  if unc then (if c.uncB then .uncB else .unc) else if c.certC then .certC else if c.certB then .certB else .cert

/-- Names with two dots or more: all layers of elements, boundaries and contours show the same data, those that were written last. -/
theorem C223_dots (c : ECfg) (unc : Bool) (times : List Int) (hd : 3 ≤ c.name.length)
    (hf : ∀ s, s.own = true → fileOf c s ≠ fileOf c .cert) (a : List (Entry × Stored)) (h : package c unc times = some a)
    (i : Nat) (s : Src) (t : Option Int) (hl : (layerList c unc times)[i]? = some (s, t)) (hs : s.own = false) :
    opened a i = [(t, [lastWritten c unc])] := by
  have hst : ∃ p x y, stem c.name = p ++ [x, y] := by
    have h1 : stem c.name = c.name.dropLast := by simp [stem]; omega
    have h2 : c.name.dropLast ≠ [] := by intro e; have := congrArg List.length e; simp at this; omega
    have h3 : c.name.dropLast.dropLast ≠ [] := by intro e; have := congrArg List.length e; simp at this; omega
    refine ⟨c.name.dropLast.dropLast.dropLast, c.name.dropLast.dropLast.getLast h3, c.name.dropLast.getLast h2, ?_⟩
    rw [h1]
    conv_lhs => rw [← List.dropLast_append_getLast h2, ← List.dropLast_append_getLast h3]
    simp
  obtain ⟨p, x, y, hst⟩ := hst
  have hb : ∀ t, builder c t = p ++ [x, zipX] := by
    intro t
    rw [builder, hst]
    have : addText (p ++ [x, y]) t = p ++ [x] ++ [y ++ t] := by
      have e1 : (p ++ [x, y]).dropLast = p ++ [x] := by
        rw [show p ++ [x, y] = (p ++ [x]) ++ [y] by simp]; exact List.dropLast_concat
      have e2 : (p ++ [x, y]).getLastD [] = y := by
        rw [show p ++ [x, y] = (p ++ [x]) ++ [y] by simp]; simp [List.getLastD_eq_getLast?]
      rw [addText, e1, e2]
    rw [this, withSuffix, stem, if_neg (by simp), List.dropLast_concat]
    simp
  have hF : ∀ s, s.own = false → fileOf c s = p ++ [x, zipX] := by
    intro s hs; cases s <;> simp [Src.own] at hs <;> exact hb _
  have hO : ∀ s, s.own = true → fileOf c s ≠ p ++ [x, zipX] := fun s hs => by
    have := hf s hs; rwa [hF .cert rfl] at this
  have hown : ∀ (ls : List Src) (d : Dict Name Src), (∀ s ∈ ls, s.own = true) →
      (ls.foldl (fun d s => d.set (fileOf c s) s) d).get? (p ++ [x, zipX]) = d.get? (p ++ [x, zipX]) := by
    intro ls
    induction ls with
    | nil => intros; rfl
    | cons b r ih =>
      intro d hd
      rw [List.foldl_cons, ih _ (fun s hs => hd s (by simp [hs])), Dict.get?_set, if_neg (hO b (hd b (by simp)))]
  have hget : (tmpDir c unc times).get? (p ++ [x, zipX]) = some (lastWritten c unc) := by
    rw [tmpDir, List.foldl_append, hown _ _ (fun s hs => (List.mem_filter.mp hs).2)]
    have e1 := hF .cert rfl
    have e2 := hF .certB rfl
    have e3 := hF .certC rfl
    have e4 := hF .unc rfl
    have e5 := hF .uncB rfl
    cases hu : unc <;> cases h1 : c.certB <;> cases h2 : c.certC <;> cases h3 : c.uncB <;>
      simp [written, lastWritten, h1, h2, h3, e1, e2, e3, e4, e5, Dict.get?_set]
  rw [opened_eq c unc times a h, hl]
  simp [hF s hs, hget]

example : 3 ≤ ([['v', '1'], ['2'], zipX] : Name).length := by decide

/-! ## C224: the time slider -/

/-- The length of a unit in seconds. -/
def SUnit.secs : SUnit → Int
  | .minute => 60
  | .hour => 3600
  | .day => 86400
  | .month => 30 * 86400
  | .year => 365 * 86400

/-- The step of the output: the one that was set, or the one of the model. -/
def outputStep (output : Option Int) (model : Int) : Int := output.getD model

/-- C224: without a setting of the user, the step of the time slider is the step of the output. -/
def C224_claim : Prop :=
  ∀ (output : Option Int) (model : Int), 0 < outputStep output model → 60 ∣ outputStep output model →
    ∃ n u, slider none none output model = (n, some u) ∧ n * u.secs = outputStep output model

/-- Output once a day: the slider moves by zero minutes. -/
theorem C224_counterexample : ¬ C224_claim := by
  intro h
  obtain ⟨n, u, h1, h2⟩ := h (some 86400) 900 (by decide) (by decide)
  have : slider none none (some 86400) 900 = (0, some .minute) := by decide
  rw [this] at h1
  obtain ⟨rfl, e⟩ := Prod.mk.inj h1
  obtain rfl := Option.some.inj e
  exact absurd h2 (by decide)

/-- C224: steps of less than an hour in whole minutes, and of less than a day in whole hours. Missing: see `C224_days`, `C224_cut`,
`C224_year`, `C224_back`. -/
theorem C224_partial (output : Option Int) (model : Int) (h0 : 0 < outputStep output model) (h1 : outputStep output model < 86400)
    (h2 : 60 ∣ outputStep output model) (h3 : outputStep output model < 3600 ∨ 3600 ∣ outputStep output model) :
    ∃ n u, slider none none output model = (n, some u) ∧ n * u.secs = outputStep output model ∧ 0 < n := by
  have hs : ∀ s : Int, 0 < s → s < 86400 → 60 ∣ s → (s < 3600 ∨ 3600 ∣ s) → ∃ n u,
      (if s < 3600 then (s.tdiv 60, some SUnit.minute)
        else if s < 86400 then (s.tdiv 3600, some .hour)
        else if s < 30 * 86400 then (s.tdiv 86400, some .day)
        else if s < 365 * 86400 then (s.tdiv (30 * 86400), some .month)
        else (s.tdiv (365 * 86400), none)) = (n, some u) ∧ n * u.secs = s ∧ 0 < n := by
    intro s p1 p2 p3 p4
    by_cases q : s < 3600
    · refine ⟨s.tdiv 60, .minute, by rw [if_pos q], ?_, ?_⟩
      · exact Int.tdiv_mul_cancel p3
      · obtain ⟨k, rfl⟩ := p3
        rw [Int.mul_tdiv_cancel_left _ (by decide)]; omega
    · have p4 : 3600 ∣ s := by rcases p4 with p4 | p4; exact absurd p4 q; exact p4
      refine ⟨s.tdiv 3600, .hour, by rw [if_neg q, if_pos p2], ?_, ?_⟩
      · exact Int.tdiv_mul_cancel p4
      · obtain ⟨k, rfl⟩ := p4
        rw [Int.mul_tdiv_cancel_left _ (by decide)]; omega
  cases output with
  | none => exact hs model h0 h1 h2 h3
  | some o =>
    simp only [outputStep, Option.getD_some] at h0 h1 h2 h3 ⊢
    have ho : o ≠ 0 := by omega
    have : tdSeconds o = o := Int.emod_eq_of_lt (by omega) h1
    have := hs o h0 h1 h2 h3
    simpa only [slider, autoSlider, ho, ne_eq, not_false_eq_true, if_true, ‹tdSeconds o = o›] using this

example : slider none none (some 7200) 900 = (2, some .hour) ∧ slider none none none 900 = (15, some .minute) := by decide

/-- A setting of the user counts, unless its step is zero. -/
theorem C224_set (n : Int) (u : SUnit) (output : Option Int) (model : Int) (h : n ≠ 0) :
    slider (some n) (some u) output model = (n, some u) := by simp [slider, h]

/-- Output every so many days and a part of a day: only the part counts; whole days give zero. -/
theorem C224_days (d o : Int) (step : Option Int) (model model' : Int) (h : 0 < o) (h' : o < 86400) :
    slider step none (some (d * 86400 + o)) model = slider step none (some o) model' ∧
    (0 < d → slider step none (some (d * 86400)) model = (0, some .minute)) := by
  have e1 : tdSeconds (d * 86400 + o) = tdSeconds o := by simp only [tdSeconds]; omega
  have n1 : d * 86400 + o ≠ 0 := by omega
  have n2 : o ≠ 0 := by omega
  refine ⟨?_, fun hd => ?_⟩
  · cases step <;> simp only [slider, autoSlider, n1, n2, ne_eq, not_false_eq_true, if_true, e1]
  · have e2 : tdSeconds (d * 86400) = 0 := by simp only [tdSeconds]; omega
    have n3 : d * 86400 ≠ 0 := by omega
    cases step <;> simp only [slider, autoSlider, n3, ne_eq, not_false_eq_true, if_true, e2] <;> decide

/-- The step is cut to whole units: it is never longer than the step of the output and less than a unit shorter. -/
theorem C224_cut (output : Option Int) (model : Int) (h0 : 0 < outputStep output model) (h1 : outputStep output model < 86400) :
    ∃ n u, slider none none output model = (n, some u) ∧ n * u.secs ≤ outputStep output model ∧
      outputStep output model < (n + 1) * u.secs := by
  have hs : ∀ s : Int, 0 < s → s < 86400 → ∃ n u,
      (if s < 3600 then (s.tdiv 60, some SUnit.minute)
        else if s < 86400 then (s.tdiv 3600, some .hour)
        else if s < 30 * 86400 then (s.tdiv 86400, some .day)
        else if s < 365 * 86400 then (s.tdiv (30 * 86400), some .month)
        else (s.tdiv (365 * 86400), none)) = (n, some u) ∧ n * u.secs ≤ s ∧ s < (n + 1) * u.secs := by
    intro s p1 p2
    by_cases q : s < 3600
    · refine ⟨s.tdiv 60, .minute, by rw [if_pos q], ?_, ?_⟩ <;> rw [Int.tdiv_eq_ediv_of_nonneg (by omega)] <;>
        simp only [SUnit.secs] <;> omega
    · refine ⟨s.tdiv 3600, .hour, by rw [if_neg q, if_pos p2], ?_, ?_⟩ <;> rw [Int.tdiv_eq_ediv_of_nonneg (by omega)] <;>
        simp only [SUnit.secs] <;> omega
  cases output with
  | none => exact hs model h0 h1
  | some o =>
    simp only [outputStep, Option.getD_some] at h0 h1 ⊢
    have ho : o ≠ 0 := by omega
    have ht : tdSeconds o = o := Int.emod_eq_of_lt (by omega) h1
    have := hs o h0 h1
    simpa only [slider, autoSlider, ho, ne_eq, not_false_eq_true, if_true, ht] using this

/-- Output every ninety minutes: the slider moves by one hour. -/
example : slider none none (some 5400) 900 = (1, some .hour) := by decide

/-- Model steps of a year or more: no unit is written. -/
theorem C224_year (model : Int) (h : 365 * 86400 ≤ model) : (slider none none none model).2 = none := by
  simp only [slider, autoSlider]
  rw [if_neg (by omega), if_neg (by omega), if_neg (by omega), if_neg (by omega)]

/-- Backward runs: an output step of less than a day is taken for what is missing to a day. -/
theorem C224_back (o model : Int) (h : 0 < o) (h' : o < 86400) :
    slider none none (some (-o)) model = slider none none (some (86400 - o)) model := by
  have e : tdSeconds (-o) = tdSeconds (86400 - o) := by simp only [tdSeconds]; omega
  have n1 : -o ≠ 0 := by omega
  have n2 : 86400 - o ≠ 0 := by omega
  simp only [slider, autoSlider, n1, n2, ne_eq, not_false_eq_true, if_true, e]

example : slider none none (some (-900)) (-900) = (23, some .hour) := by decide

/-! ## C225: the folder -/

/-- What the user asked for: the folder above, and the folder of the model (empty = named after the start of the run). -/
def asked : String × String → Op → String × String
  | u, .setBase b => (b, u.2)
  | u, .setModel m => (u.1, m)
  | u, _ => u

/-- C225: the package of a run is put in the folder that was asked for, or in one named after the start of this run. -/
def C225_claim : Prop :=
  ∀ (base model : String) (off : Option Int) (ops : List Op) (name : String), name ≠ "" →
    let u := ops.foldl asked (base, model)
    (step (ops.foldl step (construct base model off)) (.run name)).folder =
      u.1 ++ " > " ++ (if u.2 = "" then name else u.2)

/-- A second run with another start. -/
theorem C225_counterexample : ¬ C225_claim := by
  intro h
  have := h "A" "" none [.run "01/01/2026 00:00"] "02/01/2026 00:00" (by decide)
  exact absurd this (by decide)

theorem model_ne (s : ESt) (ops : List Op) (h : s.model ≠ "") (hm : ∀ op ∈ ops, op ≠ .setModel "") :
    (ops.foldl step s).folder = s.folder ∧ (ops.foldl step s).model ≠ "" := by
  induction ops generalizing s with
  | nil => exact ⟨rfl, h⟩
  | cons o r ih =>
    rw [List.foldl_cons]
    have hs : (step s o).model ≠ "" ∧ (step s o).folder = s.folder := by
      cases o with
      | run name => simp [step, prepare, h]
      | setOffset o => exact ⟨h, rfl⟩
      | setBase b => exact ⟨h, rfl⟩
      | setModel m => exact ⟨fun e => hm (.setModel m) (by simp) (by simp only [step] at e; rw [e]), rfl⟩
    obtain ⟨h1, h2⟩ := ih _ hs.1 (fun op hop => hm op (by simp [hop]))
    exact ⟨h1.trans hs.2, h2⟩

/-- C225: the first run after construction, when at most the offset was changed before. Missing: see `C225_stuck`. -/
theorem C225_partial (base model : String) (off : Option Int) (offs : List (Option Int)) (name : String) :
    (step ((offs.map Op.setOffset).foldl step (construct base model off)) (.run name)).folder =
      base ++ " > " ++ (if model = "" then name else model) := by
  have key : ∀ s : ESt, ((offs.map Op.setOffset).foldl step s).folder = s.folder ∧
      ((offs.map Op.setOffset).foldl step s).model = s.model ∧ ((offs.map Op.setOffset).foldl step s).base = s.base := by
    induction offs with
    | nil => intro s; exact ⟨rfl, rfl, rfl⟩
    | cons o r ih => intro s; rw [List.map_cons, List.foldl_cons]; exact ih _
  obtain ⟨h1, h2, h3⟩ := key (construct base model off)
  generalize (offs.map Op.setOffset).foldl step (construct base model off) = s at h1 h2 h3 ⊢
  simp only [construct] at h1 h2 h3
  simp only [step, prepare]
  by_cases h : model = ""
  · subst h; simp [h2, h3]
  · simp [h2, h, h1]

/-- After a run the folder stays the same for all later runs, whatever is set, unless the folder of the model is set to nothing. -/
theorem C225_stuck (s : ESt) (name : String) (hn : name ≠ "") (ops : List Op) (hm : ∀ op ∈ ops, op ≠ .setModel "") :
    (ops.foldl step (step s (.run name))).folder = (step s (.run name)).folder := by
  refine (model_ne _ ops ?_ hm).1
  simp only [step, prepare]
  by_cases h : s.model = ""
  · simp [h, hn]
  · simp [h]

example : ([.run "01/02/2026 00:00", .setBase "B", .setModel "M"] : List Op).foldl step (step (construct "A" "" none) (.run "x")) =
    ⟨"B", "M", "A > x", none, none⟩ := rfl

/-! ## C226: times in UTC -/

/-- The times that a layer shows: the local ones, or those in UTC; `none` = the column that it names is not in the source file. -/
def shown (s : ESt) (t : Int) : Option Int := if column s then (rowTimes s t).2 else some (rowTimes s t).1

/-- The offset that was set last. -/
def lastOffset : Option Int → Op → Option Int
  | _, .setOffset o => o
  | o, _ => o

/-- C226: a layer shows times in UTC by the offset that is set (local times if none is). -/
def C226_claim : Prop :=
  ∀ (base model : String) (off : Option Int) (ops : List Op) (t : Int),
    shown (ops.foldl step (construct base model off)) t = some (t - (ops.foldl lastOffset off).getD 0 * 60)

/-- The offset is set after construction: the column is missing. -/
theorem C226_counterexample : ¬ C226_claim := by
  intro h
  have := h "A" "B" none [.setOffset (some (-300))] 0
  exact absurd this (by decide)

theorem builders_fold (s : ESt) (ops : List Op) : (ops.foldl step s).builders = s.builders := by
  induction ops generalizing s with
  | nil => rfl
  | cons o r ih =>
    rw [List.foldl_cons, ih]
    cases o with
    | run name => simp only [step, prepare]; split <;> rfl
    | _ => rfl

theorem offset_fold (s : ESt) (ops : List Op) : (ops.foldl step s).offset = ops.foldl lastOffset s.offset := by
  induction ops generalizing s with
  | nil => rfl
  | cons o r ih =>
    rw [List.foldl_cons, ih, List.foldl_cons]
    cases o with
    | run name => simp only [step, prepare, lastOffset]; split <;> rfl
    | _ => rfl

/-- C226: the offset that is set is the one of the construction. Missing: see `C226_changed`. -/
theorem C226_partial (base model : String) (off : Option Int) (ops : List Op) (t : Int) (h : ops.foldl lastOffset off = off) :
    shown (ops.foldl step (construct base model off)) t = some (t - (ops.foldl lastOffset off).getD 0 * 60) := by
  have h1 := builders_fold (construct base model off) ops
  have h2 := offset_fold (construct base model off) ops
  simp only [construct] at h1 h2
  simp only [construct]
  rw [h] at h2 ⊢
  cases off with
  | none => simp [shown, column, rowTimes, h2]
  | some o => simp [shown, column, rowTimes, h1, h2]

example : shown (([.run "x", .setOffset none, .setOffset (some (-300))] : List Op).foldl step (construct "A" "B" (some (-300)))) 0 = some 18000 := by
  decide

/-- After a change of the offset: the offset of the construction is still used for times in UTC; without one there, the column is
missing. -/
theorem C226_changed (base model : String) (off : Option Int) (ops : List Op) (t o : Int) (h : ops.foldl lastOffset off = some o) :
    shown (ops.foldl step (construct base model off)) t = off.map fun o' => t - o' * 60 := by
  have h1 := builders_fold (construct base model off) ops
  have h2 := offset_fold (construct base model off) ops
  simp only [construct] at h1 h2
  simp only [construct]
  rw [h] at h2
  simp [shown, column, rowTimes, h1, h2]

end Verif.OutFiles.Erma
