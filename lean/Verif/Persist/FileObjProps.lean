import Verif.Persist.FileObjModel
import Mathlib.Data.List.Basic

/-!
# C230: tides and movers from files after saving and loading
-/
namespace Verif.Persist.FileObj
open Attr

/-- C230: a tide or mover made from a file has after saving and loading the settings that it had. -/
def C230_claim : Prop :=
  ∀ (K : Cls) (dflt o : Obj) (file : String) (a : Attr), a ∈ settable K → o a ≠ .none → load K dflt file o a = o a

/-- A current with an offset of time: it is lost. -/
theorem C230_counterexample : ¬ C230_claim := by
  intro h
  have := h .gridCurrent (fun _ => .num 0) (fun _ => .num 8) "currents.nc" offset (by decide) (by decide)
  exact absurd this (by decide)

theorem find_save (K : Cls) (o : Obj) (a : Attr) :
    ((save K o).find? fun p => p.1 = a) = if a ∈ schema K ∧ o a ≠ .none then some (a, o a) else none := by
  simp only [save]
  induction schema K with
  | nil => simp
  | cons b t ih =>
    rw [List.map_cons, List.filter_cons]
    by_cases hb : o b = .none
    · rw [if_neg (by simp [hb]), ih]
      by_cases e : a = b
      · subst e; simp [hb]
      · simp [e]
    · rw [if_pos (by simp [hb]), List.find?_cons]
      by_cases e : b = a
      · subst e; simp [hb]
      · rw [decide_eq_false e, ih]
        simp [Ne.symm e]

/-- What the constructor gets for a setting. -/
theorem arg_save (K : Cls) (dflt o : Obj) (a : Attr) : arg dflt (save K o) a = if a ∈ schema K ∧ o a ≠ .none then o a else dflt a := by
  rw [arg, find_save]
  split <;> rfl

/-- C230, as far as it goes: settings in the schema are kept, but for names of classes that take that of the file, and the scale 0 of a tide.
Missing: the others, see `C230_dropped`, `C230_name`, `C230_zero`. -/
theorem C230_partial (K : Cls) (dflt o : Obj) (file : String) (a : Attr) (ha : a ∈ settable K) (hs : a ∈ schema K) (ho : o a ≠ .none)
    (hn : a = name → renames K = true → o name = .txt file) (hz : a = tideScale → o tideScale ≠ .num 0) : load K dflt file o a = o a := by
  have he : arg dflt (save K o) a = o a := by rw [arg_save, if_pos ⟨hs, ho⟩]
  rw [load, construct, if_pos ha, he]
  by_cases h1 : a = name ∧ renames K = true
  · rw [if_pos h1]
    obtain ⟨rfl, h1⟩ := h1
    exact (hn rfl h1).symm
  · rw [if_neg h1, if_neg]
    rintro ⟨rfl, h2 | h2⟩
    · exact ho h2
    · exact hz rfl h2

example : scaleValue ∈ settable .cats ∧ scaleValue ∈ schema .cats := by decide

/-- What is not in the schema has its default after loading, whatever it was. -/
theorem C230_dropped (K : Cls) (dflt o : Obj) (file : String) (a : Attr) (ha : a ∈ settable K) (hs : a ∉ schema K) : load K dflt file o a = dflt a := by
  have he : arg dflt (save K o) a = dflt a := by rw [arg_save, if_neg (fun h => hs h.1)]
  rw [load, construct, if_pos ha, he]
  have h1 : a ≠ name := by rintro rfl; cases K <;> simp [schema] at hs
  have h2 : a ≠ tideScale := by rintro rfl; cases K <;> simp [schema, settable, current, windBase, process] at hs ha
  rw [if_neg (fun h => h1 h.1), if_neg (fun h => h2 h.1)]

/-- These are: whether references are made by default, for all; the offset of time and the extrapolation of gridded data, the numerical method, the
times of the uncertainty and the averaging of winds of `ComponentMover`, the data of the years of a tide. -/
theorem C230_which (K : Cls) (a : Attr) : (a ∈ settable K ∧ a ∉ schema K) ↔
    a = defaultRefs ∨ (a = yeardata ∧ K = .tide) ∨
    (a = offset ∧ (K = .gridCurrent ∨ K = .currentCycle ∨ K = .ice ∨ K = .gridWind ∨ K = .iceWind)) ∨
    (a = method ∧ (K = .gridCurrent ∨ K = .currentCycle)) ∨ (a = extrapolate ∧ K = .iceWind) ∨
    ((a = duration ∨ a = delay ∨ a = extrapolate ∨ a = averaged ∨ a = power ∨ a = hours ∨ a = averagedScale ∨ a = originalScale) ∧ K = .component) := by
  cases K <;> cases a <;> decide

/-- Names: tides and gridded currents and winds are called after their file again. -/
theorem C230_name (K : Cls) (dflt o : Obj) (file : String) (ho : o name ≠ .none) :
    load K dflt file o name = if renames K = true then .txt file else o name := by
  have hs : name ∈ settable K := by cases K <;> decide
  have hc : name ∈ schema K := by cases K <;> decide
  have he : arg dflt (save K o) name = o name := by rw [arg_save, if_pos ⟨hc, ho⟩]
  rw [load, construct, if_pos hs, he]
  by_cases h : renames K = true
  · simp [h]
  · simp [h]

/-- A tide with scale 0 has scale 1 after loading. -/
theorem C230_zero (dflt o : Obj) (file : String) (h : o tideScale = .num 0) : load .tide dflt file o tideScale = .num 1 := by
  have he : arg dflt (save .tide o) tideScale = .num 0 := by rw [arg_save, if_pos ⟨by decide, by rw [h]; decide⟩, h]
  simp [load, construct, he, settable]

/-- **C230, names**: after loading, tides, current movers from grids, cyclic current movers and wind movers from grids have the name of their file; the others
keep theirs. -/
theorem C230_names (K : Cls) (dflt o : Obj) (file : String) (ho : o name ≠ .none) :
    load K dflt file o name = if K ∈ [Cls.tide, .gridCurrent, .currentCycle, .gridWind] then .txt file else o name := by
  rw [C230_name K dflt o file ho]
  cases K <;> simp [renames]

/-- Saving and loading once more changes nothing: what is lost is lost the first time. -/
theorem C230_again (K : Cls) (dflt o : Obj) (file : String) (a : Attr) :
    load K dflt file (load K dflt file o) a = load K dflt file o a := by
  by_cases ha : a ∈ settable K
  · by_cases hs : a ∈ schema K
    · by_cases hn : a = name ∧ renames K = true
      · obtain ⟨rfl, hn⟩ := hn
        simp [load, construct, ha, hn]
      · by_cases hl : load K dflt file o a = .none
        · have h2 : arg dflt (save K (load K dflt file o)) a = dflt a := by rw [arg_save, if_neg (fun h => h.2 hl)]
          have h3 : arg dflt (save K o) a = .none := by
            by_cases ht : a = tideScale ∧ (arg dflt (save K o) a = .none ∨ arg dflt (save K o) a = .num 0)
            · rw [load, construct, if_pos ha, if_neg hn, if_pos ht] at hl; cases hl
            · rw [load, construct, if_pos ha, if_neg hn, if_neg ht] at hl; exact hl
          have h4 : dflt a = .none := by
            rw [arg_save] at h3
            split at h3
            · rename_i h; exact absurd h3 h.2
            · exact h3
          have h5 : load K dflt file (load K dflt file o) a = construct K dflt file (save K o) a := by
            rw [load, construct, if_pos ha, if_neg hn, h2, h4, construct, if_pos ha, if_neg hn, h3]
          rw [h5, load]
        · refine C230_partial K dflt _ file a ha hs hl (fun e hr => absurd ⟨e, hr⟩ hn) (fun e h0 => ?_)
          subst e
          rw [load, construct, if_pos ha, if_neg (by simp)] at h0
          split at h0
          · simp at h0
          · rename_i hh
            exact hh ⟨rfl, .inr h0⟩
    · rw [C230_dropped K dflt _ file a ha hs, C230_dropped K dflt _ file a ha hs]
  · simp [load, construct, ha]

end Verif.Persist.FileObj
