import Verif.HalfLife.Model
import Mathlib.MeasureTheory.Constructions.Pi
import Mathlib.MeasureTheory.Measure.Lebesgue.Basic

namespace Verif.HalfLife

open MeasureTheory

theorem stay_pos (x : ℝ) : 0 < ((1 : ℝ) / 2) ^ x := Real.rpow_pos_of_pos (by norm_num) x

theorem prod_pow (h : ℝ) {n : Nat} (dts : Fin n → ℝ) :
    ∏ i, ((1 : ℝ) / 2) ^ (dts i / h) = (1 / 2) ^ ((∑ i, dts i) / h) := by
  rw [Finset.sum_div, Real.rpow_sum_of_pos (by norm_num)]

/-- With independent random numbers uniform in [0, 1], an element that came on
land is still there after steps of any lengths with probability one half to
the power (time passed / half-life). -/
theorem C65_refloat (h : ℝ) (hh : 0 < h) {n : Nat} (dts : Fin n → ℝ) (hd : ∀ i, 0 ≤ dts i) :
    (Measure.pi (fun _ : Fin n => (volume : Measure ℝ).restrict (Set.Icc 0 1))) {us | Stays h dts us} =
      ENNReal.ofReal ((1 / 2) ^ ((∑ i, dts i) / h)) := by
  have e : {us | Stays h dts us} = Set.pi Set.univ (fun i => Set.Ioi (refloatProb h (dts i))) := by
    ext us
    simp only [Stays, Floats, Set.mem_ofPred_eq, Set.mem_pi, Set.mem_univ, true_implies, Set.mem_Ioi]
    refine forall_congr' (fun i => ?_)
    constructor
    · intro hs
      by_contra hc
      exact hs ⟨fun _ => not_lt.1 hc, not_lt.2 hh.le⟩
    · intro hs hc
      exact absurd (hc.1 hh) (not_le.2 hs)
  rw [e, Measure.pi_pi]
  have : ∀ i, ((volume : Measure ℝ).restrict (Set.Icc 0 1)) (Set.Ioi (refloatProb h (dts i))) =
      ENNReal.ofReal ((1 / 2) ^ (dts i / h)) := by
    intro i
    rw [Measure.restrict_apply measurableSet_Ioi]
    have h0 : 0 ≤ refloatProb h (dts i) := by
      unfold refloatProb
      have := Real.rpow_le_one (x := 1 / 2) (by norm_num) (by norm_num) (div_nonneg (hd i) hh.le)
      linarith
    have : Set.Ioi (refloatProb h (dts i)) ∩ Set.Icc 0 1 = Set.Ioc (refloatProb h (dts i)) 1 := by
      ext u
      simp only [Set.mem_inter_iff, Set.mem_Ioi, Set.mem_Icc, Set.mem_Ioc]
      exact ⟨fun h => ⟨h.1, h.2.2⟩, fun h => ⟨h.1, by linarith [h.1], h.2⟩⟩
    rw [this, Real.volume_Ioc]
    unfold refloatProb
    ring_nf
  simp only [this]
  rw [← ENNReal.ofReal_prod_of_nonneg (fun i _ => (stay_pos _).le), prod_pow]

/-- One half after one half-life. -/
theorem C65_half (h : ℝ) (hh : 0 < h) {n : Nat} (dts : Fin n → ℝ) (hd : ∀ i, 0 ≤ dts i) (hs : ∑ i, dts i = h) :
    (Measure.pi (fun _ : Fin n => (volume : Measure ℝ).restrict (Set.Icc 0 1))) {us | Stays h dts us} = 1 / 2 := by
  rw [C65_refloat h hh dts hd, hs, div_self hh.ne', Real.rpow_one, ENNReal.ofReal_div_of_pos (by norm_num)]
  simp

/-- A negative half-life: nothing refloats; zero: everything does. -/
theorem C65_negative (h : ℝ) (hh : h < 0) (dt u : ℝ) : ¬ Floats h dt u := fun hf => hf.2 hh
theorem C65_zero (dt u : ℝ) : Floats 0 dt u := ⟨fun h => absurd h (lt_irrefl 0), lt_irrefl 0⟩

/-- In a run backwards nothing refloats (not even with random number 0). -/
theorem C65_backward (h : ℝ) (hh : 0 < h) (dt u : ℝ) (hd : dt < 0) (hu : 0 ≤ u) : ¬ Floats h dt u := by
  intro hf
  have := hf.1 hh
  unfold refloatProb at this
  have h1 : 1 < ((1 : ℝ) / 2) ^ (dt / h) :=
    Real.one_lt_rpow_of_pos_of_lt_one_of_neg (by norm_num) (by norm_num) (div_neg_of_neg_of_pos hd hh)
  linarith

example : Stays 3600 (fun _ : Fin 2 => 1800) (fun _ => 1) := by
  intro i hf
  have := hf.1 (by norm_num)
  unfold refloatProb at this
  have := stay_pos (1800 / 3600)
  linarith

/-! ### the weatherer -/

theorem decay_one (h dt : ℝ) (ms : List ℝ) : decay [h] dt ms = some (ms.map (fun m => m * (1 / 2) ^ (dt / h))) := rfl

theorem decay_many (hs : List ℝ) (dt : ℝ) (ms : List ℝ) (hl : hs.length = ms.length) :
    decay hs dt ms = some (List.zipWith (fun m h => m * (1 / 2) ^ (dt / h)) ms hs) := by
  unfold decay
  split
  · rename_i h
    match ms, hl with
    | [m], _ => rfl
  · rw [if_pos hl]

theorem zip_zip (ms hs : List ℝ) (a b : ℝ) :
    List.zipWith (fun m h => m * (1 / 2) ^ (a / h)) (List.zipWith (fun m h => m * (1 / 2) ^ (b / h)) ms hs) hs =
      List.zipWith (fun m h => m * ((1 : ℝ) / 2) ^ ((b + a) / h)) ms hs := by
  induction ms generalizing hs with
  | nil => simp
  | cons m ms ih =>
    cases hs with
    | nil => simp
    | cons h hs =>
      simp only [List.zipWith_cons_cons, ih, add_div]
      rw [Real.rpow_add (by norm_num)]
      ring_nf

/-- Component by component: what is left after steps of any lengths is the
initial amount times one half to the power (time passed / half-life), and the
mass of the element is the sum of its components. -/
theorem C65_weather (hs ms : List ℝ) (hl : hs.length = ms.length) (dts : List ℝ) :
    weathers hs dts ⟨ms, ms.sum⟩ =
      let c := List.zipWith (fun m h => m * ((1 : ℝ) / 2) ^ (dts.sum / h)) ms hs
      some ⟨c, c.sum⟩ := by
  have key : ∀ (dts : List ℝ) (t : ℝ),
      weathers hs dts ⟨List.zipWith (fun m h => m * ((1 : ℝ) / 2) ^ (t / h)) ms hs,
        (List.zipWith (fun m h => m * ((1 : ℝ) / 2) ^ (t / h)) ms hs).sum⟩ =
      some ⟨List.zipWith (fun m h => m * ((1 : ℝ) / 2) ^ ((t + dts.sum) / h)) ms hs,
        (List.zipWith (fun m h => m * ((1 : ℝ) / 2) ^ ((t + dts.sum) / h)) ms hs).sum⟩ := by
    intro dts
    induction dts with
    | nil => intro t; simp [weathers]
    | cons dt dts ih =>
      intro t
      simp only [weathers, weather]
      rw [decay_many hs dt _ (by simp [hl]), zip_zip]
      simp only [Option.map_some, Option.bind_some]
      rw [ih (t + dt)]
      simp only [List.sum_cons, add_assoc]
  have h0 : List.zipWith (fun m h => m * ((1 : ℝ) / 2) ^ (0 / h)) ms hs = ms := by
    apply List.ext_getElem
    · simp [hl]
    · intro i h1 h2
      simp
  have := key dts 0
  rw [h0] at this
  rw [this]
  simp

/-- With one half-life for all components the mass halves in every half-life,
however the time is divided into steps. -/
theorem C65_weather_one (h : ℝ) (ms : List ℝ) (dts : List ℝ) :
    ∃ e, weathers [h] dts ⟨ms, ms.sum⟩ = some e ∧ e.mass = ms.sum * (1 / 2) ^ (dts.sum / h) ∧ e.mass = e.comps.sum := by
  have key : ∀ (dts : List ℝ) (ms : List ℝ), weathers [h] dts ⟨ms, ms.sum⟩ =
      some ⟨ms.map (fun m => m * (1 / 2) ^ (dts.sum / h)), (ms.map (fun m => m * (1 / 2) ^ (dts.sum / h))).sum⟩ := by
    intro dts
    induction dts with
    | nil => intro ms; simp [weathers]
    | cons dt dts ih =>
      intro ms
      simp only [weathers, weather, decay_one, Option.map_some, Option.bind_some, ih, List.map_map]
      have : ((fun m => m * ((1 : ℝ) / 2) ^ (dts.sum / h)) ∘ fun m => m * (1 / 2) ^ (dt / h)) =
          fun m => m * ((1 : ℝ) / 2) ^ ((dt :: dts).sum / h) := by
        funext m
        simp only [Function.comp, List.sum_cons, add_div]
        rw [Real.rpow_add (by norm_num)]
        ring_nf
      rw [this]
  exact ⟨_, key dts ms, by simp only; rw [List.sum_map_mul_right]; simp, rfl⟩

/-- Any other number of half-lives than one or that of the components is an
error (the documentation says the surplus is ignored). -/
theorem C65_shape (hs ms : List ℝ) (h1 : hs.length ≠ 1) (h2 : hs.length ≠ ms.length) (dt : ℝ) (dts : List ℝ) (m : ℝ) :
    weathers hs (dt :: dts) ⟨ms, m⟩ = none := by
  have : decay hs dt ms = none := by
    unfold decay
    split
    · simp at h1
    · rw [if_neg h2]
  simp [weathers, weather, this]

example : ∃ e, weathers [900] [450, 450] ⟨[6, 2], 8⟩ = some e ∧ e.mass = 4 := by
  obtain ⟨e, h1, h2, _⟩ := C65_weather_one 900 [6, 2] [450, 450]
  refine ⟨e, by rw [← h1]; norm_num, ?_⟩
  rw [h2]; norm_num

end Verif.HalfLife
