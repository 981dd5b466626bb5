import Verif.OutFiles.ShapeModel
import Mathlib.Data.List.Basic

/-!
# C200: the shapefile that is reported holds the layers that were asked for
-/
namespace Verif.OutFiles
open Verif.Py (Dict)

/-- The layers that a user can open under a name: a zipped shapefile, the zipped shapefiles of a bundle, or the three files
of a raw shapefile. -/
def opened (out : Dir) (n : Name) : List Layer :=
  match out.get? n with
  | some (.zipped l) => [l]
  | some (.bundle es) => es.filterMap fun e => match e.2 with | .zipped l => some l | _ => none
  | some (.raw l) =>
    match out.get? (withSuffix n shxX), out.get? (withSuffix n dbfX) with
    | some (.raw l'), some (.raw l'') => if l' = l ∧ l'' = l then [l] else []
    | _, _ => []
  | none => []

/-- C200: after a run the file that was reported can be opened and has the layers that were asked for. -/
def C200_claim : Prop :=
  ∀ (c : SCfg) (unc : Bool) (tmp out : Dir), c.name ≠ [] →
    ∃ out', postShape c unc tmp out = some out' ∧ opened out' (reported c unc) = layers c unc

/-- A name without dots, zipped off: the file that is reported is not there. -/
theorem C200_counterexample : ¬ C200_claim := by
  intro h
  obtain ⟨out', h1, h2⟩ := h ⟨[['r', 'u', 'n']], false, false, true⟩ false [] [] (by simp)
  have : postShape ⟨[['r', 'u', 'n']], false, false, true⟩ false [] [] =
      some [([['r', 'u', 'n'], shpX], .raw .certain), ([['r', 'u', 'n'], shxX], .raw .certain),
        ([['r', 'u', 'n'], dbfX], .raw .certain)] := by rfl
  rw [this] at h1
  obtain rfl := Option.some.inj h1
  have : opened [([['r', 'u', 'n'], shpX], .raw .certain), ([['r', 'u', 'n'], shxX], .raw .certain),
        ([['r', 'u', 'n'], dbfX], .raw .certain)] (reported ⟨[['r', 'u', 'n']], false, false, true⟩ false) = [] := by rfl
  rw [this] at h2
  simp [layers] at h2

theorem stem_of_plain {n : Name} (h1 : n ≠ []) (h2 : n.length ≤ 2) : ∃ s, stem n = [s] := by
  match n, h1, h2 with
  | [a], _, _ => exact ⟨a, rfl⟩
  | [a, b], _, _ => exact ⟨a, rfl⟩

theorem tag_inj {l l' : Layer} (h : tag l = tag l') : l = l' := by
  revert h; cases l <;> cases l' <;> decide

theorem builder_plain {c : SCfg} {s : List Char} (hs : stem c.name = [s]) (l : Layer) :
    builderFile c l = [s ++ tag l, if c.zip then zipX else shpX] := by
  simp only [builderFile, hs, addText, withSuffix]
  simp [stem]

/-- Zipped layers of a plain name: each has its own file. -/
theorem fold_get? {c : SCfg} {s : List Char} (hs : stem c.name = [s]) (hz : c.zip = true) (ls : List Layer) (tmp : Dir) (l : Layer) :
    (ls.foldl (writeLayer c) tmp).get? (builderFile c l) =
      if l ∈ ls then some (.zipped l) else tmp.get? (builderFile c l) := by
  induction ls generalizing tmp with
  | nil => simp
  | cons a r ih =>
    rw [List.foldl_cons, ih]
    by_cases hr : l ∈ r
    · simp [hr]
    · rw [if_neg hr]
      simp only [writeLayer, hz, if_true]
      rw [Dict.get?_set]
      by_cases hl : l = a
      · simp [hl]
      · have hne : ¬ builderFile c a = builderFile c l := by
          rw [builder_plain hs, builder_plain hs]
          simp only [List.cons.injEq, and_true, List.append_cancel_left_eq]
          exact fun h => hl (tag_inj h).symm
        simp [hne, hr, hl]

theorem mapM_some {α β : Type} (f : α → Option β) (g : α → β) (l : List α) (h : ∀ a ∈ l, f a = some (g a)) :
    l.mapM f = some (l.map g) := by
  induction l with
  | nil => rfl
  | cons a r ih =>
    rw [List.mapM_cons, h a (by simp), ih (fun b hb => h b (by simp [hb]))]
    rfl

theorem bundle_plain {c : SCfg} {s : List Char} (hs : stem c.name = [s]) (hz : c.zip = true) (ls : List Layer) (tmp : Dir) :
    bundle c (ls.foldl (writeLayer c) tmp) ls = some (.bundle (ls.map fun l => (builderFile c l, .zipped l))) := by
  rw [bundle, mapM_some _ (fun l => (builderFile c l, Content.zipped l))]
  · rfl
  · intro l hl
    rw [fold_get? hs hz]; simp [hl]

/-- C200: zipped output under a name with at most one dot; the layers of a bundle have different names. Missing: raw output
(`C200_missing`, `C200_raw`, `C200_shp`) and names with more dots (`C200_dots`). -/
theorem C200_partial (c : SCfg) (unc : Bool) (tmp out : Dir) (hn : c.name ≠ []) (hz : c.zip = true) (hd : c.name.length ≤ 2) :
    ∃ out', postShape c unc tmp out = some out' ∧ opened out' (reported c unc) = layers c unc ∧
      (∀ n, n ≠ reported c unc → out'.get? n = out.get? n) ∧
      (∀ l l', builderFile c l = builderFile c l' → l = l') := by
  obtain ⟨s, hs⟩ := stem_of_plain hn hd
  have hinj : ∀ l l', builderFile c l = builderFile c l' → l = l' := by
    intro l l' h
    rw [builder_plain hs, builder_plain hs] at h
    simp only [List.cons.injEq, and_true, List.append_cancel_left_eq] at h
    exact tag_inj h
  have hop : ∀ (ls : List Layer), (ls.map fun l => (builderFile c l, Content.zipped l)).filterMap
      (fun e => match e.2 with | .zipped l => some l | _ => none) = ls := by
    intro ls
    induction ls with
    | nil => rfl
    | cons a r ih => simp
  have hfr : ∀ (b : Content) n, n ≠ reported c unc → (out.set (reported c unc) b).get? n = out.get? n := by
    intro b n h; rw [Dict.get?_set, if_neg (Ne.symm h)]
  by_cases hb : unc = true ∨ c.certB = true
  · refine ⟨out.set (reported c unc) (.bundle ((layers c unc).map fun l => (builderFile c l, .zipped l))), ?_, ?_, hfr _, hinj⟩
    · rcases hb with hb | hb
      · subst hb
        simp only [postShape, if_true, bundle_plain hs hz, Option.map_some]
      · cases unc with
        | true => simp only [postShape, if_true, bundle_plain hs hz, Option.map_some]
        | false =>
          simp only [postShape, hz, hb, if_true, bundle_plain hs hz, Option.map_some, Bool.false_eq_true, if_false]
    · simp only [opened, Dict.get?_set_self]
      exact hop _
  · simp only [not_or, Bool.not_eq_true] at hb
    obtain ⟨hu, hc⟩ := hb
    subst hu
    refine ⟨out.set (reported c false) (.zipped .certain), ?_, ?_, hfr _, hinj⟩
    · simp only [postShape, hz, hc, Bool.false_eq_true, if_false, if_true]
      rw [fold_get? hs hz]
      simp [layers]
    · simp [opened, Dict.get?_set_self, layers, hc]

example : layers ⟨[['r', 'u', 'n'], zipX], true, true, true⟩ true = [.certain, .certainB, .uncertain, .uncertainB] := by decide

/-- C200: raw output of a forecast with a boundary setting (the setting of the uncertain boundary is on by default): a
`.zip` is reported, and nothing is written under that name. -/
theorem C200_missing (c : SCfg) (out : Dir) (hz : c.zip = false) (hb : c.certB = true ∨ c.uncB = true) :
    reported c false = withSuffix c.name zipX ∧
      ∃ out', postShape c false [] out = some out' ∧ out'.get? (reported c false) = out.get? (reported c false) := by
  have hr : reported c false = withSuffix c.name zipX := by
    rcases hb with hb | hb <;> simp [reported, hb]
  refine ⟨hr, copyAll (copyAll out tagC [] (globbed c .certain ((layers c false).foldl (writeLayer c) []))) tagCB tagB
    (globbed c .certainB ((layers c false).foldl (writeLayer c) [])), ?_, ?_⟩
  · simp only [postShape, hz, Bool.false_eq_true, if_false]
  have key : ∀ (l : List (Name × Content)) (cut add : List Char) (o : Dir),
      (∀ e ∈ l, e.1.getLastD [] ≠ zipX) →
      (copyAll o cut add l).get? (reported c false) = o.get? (reported c false) := by
    intro l cut add
    induction l with
    | nil => intro o _; rfl
    | cons e r ih =>
      intro o he
      rw [copyAll, ih _ (fun x hx => he x (by simp [hx])), Dict.get?_set, if_neg]
      intro h
      have h1 := congrArg (fun n : Name => n.getLastD []) h
      rw [hr] at h1
      simp only [withSuffix, List.getLastD_concat] at h1
      exact he e (by simp) h1
  have hset : ∀ (o : Dir) (k : Name) (v : Content), (∀ e ∈ o, e.1.getLastD [] ≠ zipX) →
      k.getLastD [] ≠ zipX → ∀ e ∈ o.set k v, e.1.getLastD [] ≠ zipX := by
    intro o k v ho hk e he
    have : e.1 ∈ (o.set k v).map Prod.fst := List.mem_map_of_mem he
    rw [Dict.keys_set] at this
    split at this
    · obtain ⟨e', he', h⟩ := List.mem_map.mp this
      rw [← h]; exact ho e' he'
    · rcases List.mem_append.mp this with h | h
      · obtain ⟨e', he', h⟩ := List.mem_map.mp h
        rw [← h]; exact ho e' he'
      · rw [List.mem_singleton.mp h]; exact hk
  have hfold : ∀ (ls : List Layer) (t : Dir), (∀ e ∈ t, e.1.getLastD [] ≠ zipX) →
      ∀ e ∈ ls.foldl (writeLayer c) t, e.1.getLastD [] ≠ zipX := by
    intro ls
    induction ls with
    | nil => intro t ht; exact ht
    | cons a r ih =>
      intro t ht
      rw [List.foldl_cons]
      apply ih
      simp only [writeLayer, hz, Bool.false_eq_true, if_false]
      refine hset _ _ _ (hset _ _ _ (hset _ _ _ ht ?_) ?_) ?_ <;>
        simp only [withSuffix, List.getLastD_concat] <;> decide
  have hg : ∀ l, ∀ e ∈ globbed c l ((layers c false).foldl (writeLayer c) []), e.1.getLastD [] ≠ zipX := by
    intro l e he
    exact hfold _ [] (by simp) e (List.mem_of_mem_filter he)
  rw [key _ _ _ _ (hg _), key _ _ _ _ (hg _)]

example : reported ⟨[['r', 'u', 'n']], false, false, true⟩ false = [['r', 'u', 'n'], zipX] := by decide

/-- C200: raw output without boundaries and uncertainty is as asked for. -/
theorem C200_raw (c : SCfg) (out : Dir) (hz : c.zip = false) (hc : c.certB = false) (hu : c.uncB = false)
    (hn : c.name ≠ []) (hd : c.name.length ≤ 2) :
    ∃ out', postShape c false [] out = some out' ∧ opened out' (reported c false) = layers c false := by
  obtain ⟨s, hs⟩ := stem_of_plain hn hd
  have hb : ∀ l, builderFile c l = [s ++ tag l, shpX] := by intro l; rw [builder_plain hs]; simp [hz]
  have hw : writeLayer c [] .certain = [([s ++ tag .certain, shpX], .raw .certain),
      ([s ++ tag .certain, shxX], .raw .certain), ([s ++ tag .certain, dbfX], .raw .certain)] := by
    have h1 : shpX ≠ shxX := by decide
    have h2 : shpX ≠ dbfX := by decide
    have h3 : shxX ≠ dbfX := by decide
    simp [writeLayer, hz, hb, withSuffix, stem, Dict.set, h1, h2, h3]
  have hl : layers c false = [.certain] := by simp [layers, hc]
  have hg1 : globbed c .certain (writeLayer c [] .certain) = writeLayer c [] .certain := by
    rw [globbed, hw, hb]
    simp [stem]
  have hg2 : globbed c .certainB (writeLayer c [] .certain) = [] := by
    rw [globbed, hw, hb]
    have : ¬ s ++ tag .certainB = s ++ tag .certain := by
      rw [List.append_cancel_left_eq]; decide
    simp [stem, this]
  have hrm : removeText [s ++ tagC] tagC = [s] := by
    have : tagC <:+ s ++ tagC := List.suffix_append _ _
    simp only [removeText, List.getLastD_cons, List.getLastD_nil]
    rw [if_pos this]
    simp
  have hrep : reported c false = [s, shpX] := by simp [reported, hz, hc, hu, withSuffix, hs]
  refine ⟨((out.set [s, shpX] (.raw .certain)).set [s, shxX] (.raw .certain)).set [s, dbfX]
    (.raw .certain), ?_, ?_⟩
  · simp only [postShape, hz, Bool.false_eq_true, if_false, hl, List.foldl_cons, List.foldl_nil, hg1, hg2, copyAll]
    rw [hw]
    simp only [copyAll, stem, List.length_cons, List.length_nil, List.dropLast, tag]
    simp [hrm, addText]
  · have hne1 : ¬ ([s, dbfX] : Name) = [s, shpX] := by simp; decide
    have hne2 : ¬ ([s, shxX] : Name) = [s, shpX] := by simp; decide
    have hne3 : ¬ ([s, dbfX] : Name) = [s, shxX] := by simp; decide
    have e1 : withSuffix [s, shpX] shxX = [s, shxX] := by simp [withSuffix, stem]
    have e2 : withSuffix [s, shpX] dbfX = [s, dbfX] := by simp [withSuffix, stem]
    simp only [hrep, opened, hl, e1, e2, Dict.get?_set, hne1, hne2, hne3, if_false, if_true]
    simp

example : ∃ out', postShape ⟨[['r', 'u', 'n']], false, false, false⟩ false [] [] = some out' ∧
    opened out' [['r', 'u', 'n'], shpX] = [.certain] := ⟨_, rfl, rfl⟩

/-- C200: raw output with uncertainty: the bundle has the `.shp` files alone, nothing in it can be opened. -/
theorem C200_shp (c : SCfg) (tmp out out' : Dir) (hz : c.zip = false) (hn : c.name ≠ []) (hd : c.name.length ≤ 2)
    (h : postShape c true tmp out = some out') : opened out' (reported c true) = [] := by
  obtain ⟨s, hs⟩ := stem_of_plain hn hd
  have hb : ∀ l, builderFile c l = [s ++ tag l, shpX] := by intro l; rw [builder_plain hs]; simp [hz]
  have hfold : ∀ (ls : List Layer) (t : Dir) (l : Layer), l ∈ ls →
      ∃ l', (ls.foldl (writeLayer c) t).get? (builderFile c l) = some (.raw l') := by
    intro ls
    induction ls with
    | nil => intro t l hl; simp at hl
    | cons a r ih =>
      intro t l hl
      rw [List.foldl_cons]
      by_cases hr : l ∈ r
      · exact ih _ l hr
      · have hla : l = a := by
          rcases List.mem_cons.mp hl with h | h
          · exact h
          · exact absurd h hr
        subst hla
        have hstep : ∀ (r : List Layer) (t : Dir), (∃ l', t.get? (builderFile c l) = some (.raw l')) →
            ∃ l', (r.foldl (writeLayer c) t).get? (builderFile c l) = some (.raw l') := by
          intro r
          induction r with
          | nil => intro t ht; exact ht
          | cons b r ihr =>
            intro t ht
            rw [List.foldl_cons]
            apply ihr
            simp only [writeLayer, hz, Bool.false_eq_true, if_false, Dict.get?_set]
            split
            · exact ⟨_, rfl⟩
            · split
              · exact ⟨_, rfl⟩
              · split
                · exact ⟨_, rfl⟩
                · exact ht
        apply hstep
        simp only [writeLayer, hz, Bool.false_eq_true, if_false, Dict.get?_set]
        split
        · exact ⟨_, rfl⟩
        · split
          · exact ⟨_, rfl⟩
          · rw [if_pos]
            · exact ⟨_, rfl⟩
            · rw [hb]; simp [withSuffix, stem]
  simp only [postShape, if_true] at h
  generalize htmp : (layers c true).foldl (writeLayer c) tmp = t at h
  have hraw : ∀ l ∈ layers c true, ∃ l', t.get? (builderFile c l) = some (.raw l') := by
    intro l hl; rw [← htmp]; exact hfold _ _ _ hl
  have hsome : ∃ es : List (Name × Content), bundle c t (layers c true) = some (.bundle es) ∧
      ∀ e ∈ es, ∃ l', e.2 = .raw l' := by
    clear h htmp
    generalize layers c true = ls at hraw
    have : ∃ es, ls.mapM (fun l => (t.get? (builderFile c l)).map fun x => (builderFile c l, x)) = some es ∧
        ∀ e ∈ es, ∃ l', e.2 = .raw l' := by
      induction ls with
      | nil => exact ⟨[], rfl, by simp⟩
      | cons a r ih =>
        obtain ⟨es, h1, h2⟩ := ih (fun l hl => hraw l (by simp [hl]))
        obtain ⟨l', h'⟩ := hraw a (by simp)
        refine ⟨(builderFile c a, .raw l') :: es, ?_, ?_⟩
        · rw [List.mapM_cons, h', h1]; rfl
        · intro e he
          rcases List.mem_cons.mp he with h | h
          · exact ⟨l', by rw [h]⟩
          · exact h2 e h
    obtain ⟨es, h1, h2⟩ := this
    exact ⟨es, by rw [bundle, h1]; rfl, h2⟩
  obtain ⟨es, h1, h2⟩ := hsome
  rw [h1] at h
  obtain rfl := Option.some.inj h
  simp only [opened, Dict.get?_set_self]
  rw [List.filterMap_eq_nil_iff]
  intro e he
  obtain ⟨l', h'⟩ := h2 e he
  rw [h']

example : ∃ out', postShape ⟨[['r', 'u', 'n']], false, false, true⟩ true [] [] = some out' := ⟨_, rfl⟩

/-- C200: if the stem of the name has a dot (`run.v2.zip`), all layers go to the same file: every layer that can be opened is
the one that was written last, so that with uncertainty the forecast is lost. -/
theorem C200_dots (c : SCfg) (tmp out out' : Dir) (hz : c.zip = true) (hd : 3 ≤ c.name.length)
    (h : postShape c true tmp out = some out') :
    ∀ l ∈ opened out' (reported c true), l = if c.uncB then .uncertainB else .uncertain := by
  have hsame : ∀ l l', builderFile c l = builderFile c l' := by
    intro l l'
    have hst : stem c.name = c.name.dropLast := by rw [stem, if_neg (by omega)]
    have h2 : ∀ t, stem (addText c.name.dropLast t) = c.name.dropLast.dropLast := by
      intro t
      rw [stem, if_neg]
      · simp [addText]
      · simp [addText]; omega
    simp only [builderFile, hst, withSuffix, h2]
  have hget : ∀ (ls : List Layer) (t : Dir) (a l : Layer),
      ((ls ++ [a]).foldl (writeLayer c) t).get? (builderFile c l) = some (.zipped a) := by
    intro ls t a l
    rw [List.foldl_append, List.foldl_cons, List.foldl_nil]
    simp only [writeLayer, hz, if_true]
    rw [hsame l a, Dict.get?_set_self]
  obtain ⟨ls, hls⟩ : ∃ ls, layers c true = ls ++ [if c.uncB then .uncertainB else .uncertain] := by
    refine ⟨(layers c true).dropLast, ?_⟩
    cases hc : c.certB <;> cases hu : c.uncB <;> simp [layers, hc, hu]
  simp only [postShape, if_true] at h
  rw [bundle, mapM_some _ (fun l => (builderFile c l, Content.zipped (if c.uncB then .uncertainB else .uncertain)))] at h
  · obtain rfl := Option.some.inj h
    intro l hl
    simp only [opened, Dict.get?_set_self, List.mem_filterMap] at hl
    obtain ⟨e, he, h'⟩ := hl
    obtain ⟨l0, -, rfl⟩ := List.mem_map.mp he
    simpa using h'.symm
  · intro l _
    rw [hls, hget]
    rfl

example : ∃ out', postShape ⟨[['r', 'u', 'n'], ['v', '2'], zipX], true, false, false⟩ true [] [] = some out' ∧
    opened out' [['r', 'u', 'n'], ['v', '2'], zipX] = [.uncertain, .uncertain] := ⟨_, rfl, rfl⟩

end Verif.OutFiles
