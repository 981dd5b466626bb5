import Verif.OutFiles.GeoModel

/-!
# C197, C198: the files of a GeoJSON outputter, outputters that are off
-/
namespace Verif.OutFiles
open Verif.Py (Dict)

/-! ## C197: the file of a step holds the forecast -/

/-- What the features of some elements are: numbered in order, with the rounded numbers if rounding is asked for and the
numbers themselves otherwise. -/
def FeaturesOf (rnd : Nat → ℚ → ℚ) (c : GeoCfg) (unc : Bool) (es : List Elem) (fs : List Feature) : Prop :=
  fs.length = es.length ∧ ∀ i (h : i < es.length) (h' : i < fs.length),
    fs[i].id = i ∧ fs[i].uncertain = unc ∧ fs[i].status = es[i].status ∧ fs[i].spill = es[i].spill ∧
      (if c.roundData then fs[i].lon = rnd c.roundTo es[i].lon ∧ fs[i].lat = rnd c.roundTo es[i].lat ∧
          fs[i].mass = rnd c.roundTo es[i].mass
        else fs[i].lon = es[i].lon ∧ fs[i].lat = es[i].lat ∧ fs[i].mass = es[i].mass)

/-- C197: after a run into a folder, the file of each step that was to be written holds the features of the forecast. -/
def C197_claim : Prop :=
  ∀ (rnd : Nat → ℚ → ℚ) (c : GeoCfg) (o : Output.Cfg) (t0 ts : Int) (L n k : Nat) (scs : Nat → List Cont) (es us : List Elem),
    c.toDir = true → k ≤ n → n ≤ L → (Output.stateAt o t0 ts L k).write = true →
    (scs k = [⟨false, es⟩] ∨ scs k = [⟨false, es⟩, ⟨true, us⟩]) →
    ∃ fs, (geoRun rnd c o t0 ts L scs n).get? k = some fs ∧ FeaturesOf rnd c false es fs

theorem C197_counterexample : ¬ C197_claim := by
  intro h
  obtain ⟨fs, h1, h2, -⟩ := h (fun _ x => x) {} {} 0 900 0 0 0 (fun _ => [⟨false, [⟨1, 2, 3, 2, 0⟩]⟩]) [⟨1, 2, 3, 2, 0⟩] []
    rfl le_rfl le_rfl (by decide) (Or.inl rfl)
  have : fs = [] := by
    have : (geoRun (fun _ x => x) {} {} 0 900 0 (fun _ => [⟨false, [⟨1, 2, 3, 2, 0⟩]⟩]) 0).get? 0 = some [] := by
      decide
    rw [this] at h1; simpa using h1.symm
  subst this; simp at h2

/-- The collections, by container. -/
theorem collect_eq (rnd : Nat → ℚ → ℚ) (c : GeoCfg) (scs : List Cont) (acc : List Feature × List Feature) :
    collect rnd c scs acc = (acc.1 ++ ((scs.filter (!·.uncertain)).map (features rnd c)).flatten,
      acc.2 ++ ((scs.filter (·.uncertain)).map (features rnd c)).flatten) := by
  induction scs generalizing acc with
  | nil => simp [collect]
  | cons a r ih =>
    simp only [collect, ih]
    by_cases ha : a.uncertain = true <;> simp [ha]

theorem features_of (rnd : Nat → ℚ → ℚ) (c : GeoCfg) (sc : Cont) (hr : c.roundData = true) :
    FeaturesOf rnd c sc.uncertain sc.elems (features rnd c sc) := by
  refine ⟨by simp [features], ?_⟩
  intro i h h'
  simp [features, feature, hr]

/-- The file of a step that is written, at the end of the run. -/
theorem geoRun_get? (rnd : Nat → ℚ → ℚ) (c : GeoCfg) (o : Output.Cfg) (t0 ts : Int) (L : Nat) (scs : Nat → List Cont)
    (hc : c.toDir = true) (n k : Nat) :
    (geoRun rnd c o t0 ts L scs n).get? k =
      if k ≤ n ∧ (Output.stateAt o t0 ts L k).write = true then some (collect rnd c (scs k) ([], [])).2 else none := by
  have hn : (Dict.get? ([] : Folder) k) = none := rfl
  induction n with
  | zero =>
    rw [geoRun]
    by_cases h0 : (Output.stateAt o t0 ts L 0).write = true
    · rw [if_pos h0]
      simp only [geoWrite, hc, if_true]
      rw [Dict.get?_set, Dict.get?_set, hn]
      by_cases hk : k = 0
      · subst hk; simp [h0]
      · simp [Ne.symm hk, show ¬ k ≤ 0 by omega]
    · rw [if_neg h0, hn, if_neg]
      rintro ⟨h, h'⟩
      obtain rfl : k = 0 := by omega
      exact h0 h'
  | succ n ih =>
    rw [geoRun]
    by_cases h0 : (Output.stateAt o t0 ts L (n + 1)).write = true
    · simp only [h0, if_true, geoWrite, hc]
      rw [Dict.get?_set, Dict.get?_set, ih]
      by_cases hk : k = n + 1
      · subst hk; simp [h0]
      · have : (k ≤ n + 1) = (k ≤ n) := by simp; omega
        simp [this, show ¬ n + 1 = k by omega]
    · simp only [h0, if_false, Bool.false_eq_true]
      rw [ih]
      by_cases hk : k = n + 1
      · subst hk; simp [h0]
      · have : (k ≤ n + 1) = (k ≤ n) := by simp; omega
        simp [this]

/-- C197: what the step returns has the features of the forecast and of the uncertain elements, if rounding is on. The
file of the step holds those of the uncertain elements, which are none if there is no uncertainty; there are files of the
written steps and no others. Missing: the forecast is in no file. -/
theorem C197_partial (rnd : Nat → ℚ → ℚ) (c : GeoCfg) (o : Output.Cfg) (t0 ts : Int) (L n k : Nat)
    (scs : Nat → List Cont) (es us : List Elem) (hc : c.toDir = true) (hr : c.roundData = true)
    (hs : scs k = [⟨false, es⟩, ⟨true, us⟩]) :
    (∀ f, FeaturesOf rnd c false es (geoWrite rnd c f k (scs k)).2.certain ∧
      FeaturesOf rnd c true us (geoWrite rnd c f k (scs k)).2.uncertain) ∧
    ((geoRun rnd c o t0 ts L scs n).get? k = none ↔ ¬ (k ≤ n ∧ (Output.stateAt o t0 ts L k).write = true)) ∧
    (∀ fs, (geoRun rnd c o t0 ts L scs n).get? k = some fs → FeaturesOf rnd c true us fs) := by
  have hcol : collect rnd c (scs k) ([], []) = (features rnd c ⟨false, es⟩, features rnd c ⟨true, us⟩) := by
    rw [hs, collect_eq]; simp
  refine ⟨?_, ?_, ?_⟩
  · intro f
    simp only [geoWrite, hc, if_true, hcol]
    exact ⟨features_of rnd c ⟨false, es⟩ hr, features_of rnd c ⟨true, us⟩ hr⟩
  · rw [geoRun_get? _ _ _ _ _ _ _ hc]
    by_cases h : k ≤ n ∧ (Output.stateAt o t0 ts L k).write = true
    · rw [if_pos h]; simp [h]
    · rw [if_neg h]; simp [h]
  · intro fs hfs
    rw [geoRun_get? _ _ _ _ _ _ _ hc] at hfs
    split at hfs
    · rw [hcol] at hfs
      obtain rfl := Option.some.inj hfs
      exact features_of rnd c ⟨true, us⟩ hr
    · cases hfs

example : (geoWrite (fun _ x => x) {} [] 7 [⟨false, [⟨1, 2, 3, 2, 0⟩]⟩, ⟨true, [⟨5, 6, 3, 2, 0⟩]⟩]).2.certain =
    [⟨0, 1, 2, 3, 2, 0, false⟩] := by decide

/-- C197: without uncertainty the file of every written step is an empty collection. -/
theorem C197_empty (rnd : Nat → ℚ → ℚ) (c : GeoCfg) (o : Output.Cfg) (t0 ts : Int) (L n k : Nat) (scs : Nat → List Cont)
    (es : List Elem) (hc : c.toDir = true) (hk : k ≤ n) (hw : (Output.stateAt o t0 ts L k).write = true)
    (hs : scs k = [⟨false, es⟩]) : (geoRun rnd c o t0 ts L scs n).get? k = some [] := by
  rw [geoRun_get? _ _ _ _ _ _ _ hc, if_pos ⟨hk, hw⟩, hs, collect_eq]; simp

/-- C197: `round_data` has no effect. -/
theorem C197_round (rnd : Nat → ℚ → ℚ) (c : GeoCfg) (f : Folder) (k : Nat) (scs : List Cont) (b : Bool) :
    geoWrite rnd { c with roundData := b } f k scs = geoWrite rnd c f k scs := by
  have h1 : ∀ sc, features rnd { c with roundData := b } sc = features rnd c sc := fun _ => rfl
  have : collect rnd { c with roundData := b } scs ([], []) = collect rnd c scs ([], []) := by
    rw [collect_eq, collect_eq]
    have : features rnd { c with roundData := b } = features rnd c := funext h1
    rw [this]
  simp only [geoWrite, this]

example : (geoRun (fun _ x => x) {} {} 0 900 2 (fun _ => [⟨false, [⟨1, 2, 3, 2, 0⟩]⟩]) 2).get? 1 = some [] := by decide

/-! ## C198: an outputter that is off writes nothing -/

/-- C198: an outputter made with `on=False` writes no step and does not stop the run. -/
def C198_claim : Prop :=
  ∀ (kd : Kind) (o : Output.Cfg) (t0 ts : Int) (L n : Nat), o.on = false → n ≤ L →
    stops kd (construct kd o) = false ∧ wrote kd (construct kd o) t0 ts L n = false

theorem C198_counterexample : ¬ C198_claim := by
  intro h
  have := (h .geojson { on := false } 0 900 1 1 rfl le_rfl).2
  revert this; decide

/-- C198: an oil budget is written as well. -/
theorem C198_budget (o : Output.Cfg) (t0 ts : Int) (L n : Nat) :
    wrote .budget (construct .budget o) t0 ts L n = wrote .budget { o with on := true } t0 ts L n := rfl

/-- C198: shape files and memory, binary files and KMZ if `output_zero_step` is set. Missing: the other kinds write when
they are off (`C198_off`) or stop the run (`C198_stops`). -/
theorem C198_partial (kd : Kind) (o : Output.Cfg) (hk : kd = .shape ∨ kd = .memory ∨ ((kd = .binary ∨ kd = .kmz) ∧ o.zero = true))
    (t0 ts : Int) (L n : Nat) (ho : o.on = false) :
    stops kd (construct kd o) = false ∧ wrote kd (construct kd o) t0 ts L n = false := by
  rcases hk with rfl | rfl | ⟨rfl | rfl, hz⟩ <;> simp [wrote, construct, stops, *]

/-- C198: binary files and KMZ without `output_zero_step`, and JSON of spills, stop the run when they are off. -/
theorem C198_stops (kd : Kind) (o : Output.Cfg) (ho : o.on = false)
    (hk : kd = .spilljson ∨ ((kd = .binary ∨ kd = .kmz) ∧ o.zero = false)) : stops kd (construct kd o) = true := by
  rcases hk with rfl | ⟨rfl | rfl, hz⟩ <;> simp [construct, stops, *]

example : stops .kmz (construct .kmz { on := false, zero := false }) = true ∧ stops .kmz { on := true, zero := false } = false := by
  decide

example : wrote .shape (construct .shape { on := true }) 0 900 1 1 = true := by decide

/-- C198: an outputter of GeoJSON or weathering that is off writes all steps if it writes the first one (or the last one if
that is asked for); its `output_timestep`, `output_start_time` and `output_single_step` do not matter. -/
theorem C198_off (kd : Kind) (hk : kd = .geojson ∨ kd = .weathering) (o : Output.Cfg) (t0 ts : Int) (L n : Nat)
    (ho : o.on = false) (hn : n ≤ L) :
    wrote kd (construct kd o) t0 ts L n =
      (o.zero || (o.single && (o.ostart == some t0 || o.ostart == none)) || (decide (n = L) && o.last)) := by
  have key : ∀ n, n ≤ L → (Output.stateAt o t0 ts L n).write =
      (o.zero || (o.single && (o.ostart == some t0 || o.ostart == none)) || (decide (n = L) && o.last)) := by
    intro n hn
    induction n with
    | zero =>
      simp only [Output.stateAt, Output.writeOutput, Output.prepareRun, if_true]
      by_cases h0 : 0 = L <;> cases hl : o.last <;> simp [h0]
    | succ n ih =>
      have hne : ¬ n = L := by omega
      have := ih (by omega)
      simp only [hne, decide_false, Bool.false_and, Bool.or_false] at this
      simp only [Output.stateAt, Output.writeOutput, Output.prepareStep, ho, Nat.add_one_ne_zero, if_false, Bool.not_false,
        if_true]
      cases hd : decide (n + 1 = L) <;> cases hl : o.last <;> simp [this]
  rcases hk with rfl | rfl <;> simpa [wrote, construct] using key n hn

example : wrote .weathering (construct .weathering { on := false, ots := some 3600 }) 0 900 9 3 = true := by decide

end Verif.OutFiles
