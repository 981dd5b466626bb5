import Verif.Mover.SteadyModel
import Verif.Mover.SumProps
import Verif.Integ.Props
import Mathlib.Algebra.BigOperators.Group.Finset.Basic
import Mathlib.Tactic.Linarith
import Mathlib.Tactic.Ring
import Mathlib.Analysis.Real.Pi.Bounds
/-!
# C308: in a steady current a run backwards goes back over the run forwards

Specification: `velocity` is the velocity of the current that the user set up, `metre` a degree of latitude per metre, `shrink` how much longer a degree of longitude is
at the equator than here.
-/
namespace Verif.Mover
open Verif.TimeUtil Verif.Integ

/-- the velocity, m/s, that a mover was given -/
noncomputable def Steady.velocity : Steady → V
  | .simple vel => vel
  | .current _ scale vel => scale • vel

/-- that of all of them -/
noncomputable def current (w : List Steady) : V := (w.map Steady.velocity).sum

/-- degrees of latitude in a metre -/
noncomputable def metre : ℝ := 89992801 / 10 ^ 13

/-- how many degrees of longitude make as many metres as a degree of latitude -/
noncomputable def shrink (lat : ℝ) : ℝ := 1 / Real.cos (lat * (Real.pi / 180))

/-- where an element gets in one step -/
noncomputable def advance (dt : Int) (v p : V) : V :=
  (p.1 + dt * v.1 * metre * shrink p.2.1, p.2.1 + dt * v.2.1 * metre, p.2.2 + dt * v.2.2)

theorem m2l_add (a b p : V) : m2l (a + b) p = m2l a p + m2l b p := by
  unfold m2l
  ext <;> simp <;> ring

theorem rat_smul_real (q : Rat) (v : V) : (q • v : V) = (q : ℝ) • v := by
  ext <;> simp [Rat.smul_def]

theorem steady_row (z : Zone) (dt t : Int) (s : Steady) (els : List LE) (h : ∀ e ∈ els, inWater e) :
    (s.mover z dt t).move (dt : ℝ) els = some (els.map fun e => m2l ((dt : ℝ) • s.velocity) e.pos) := by
  cases s with
  | simple vel =>
    simp only [Steady.mover, AnyMover.move, rowwise, Steady.velocity]
    congr 1
    refine List.ext_getElem? fun i => ?_
    rw [List.getElem?_mapIdx, List.getElem?_map]
    cases he : els[i]? with
    | none => rfl
    | some e =>
      simp only [Option.map_some, Option.some.injEq]
      unfold simpleRow
      rw [if_pos ⟨rfl, rfl⟩]
      simp only [if_pos (h e (List.mem_of_getElem? he)), Bool.false_eq_true, if_false]
      congr 1
      ext <;> simp <;> ring
  | current m scale vel =>
    simp only [Steady.mover, AnyMover.move, rowwise, Steady.velocity]
    congr 1
    refine List.ext_getElem? fun i => ?_
    rw [List.getElem?_mapIdx, List.getElem?_map]
    cases he : els[i]? with
    | none => rfl
    | some e =>
      simp only [Option.map_some, Option.some.injEq]
      unfold currentRow
      rw [if_pos rfl]
      simp only [if_pos (h e (List.mem_of_getElem? he))]
      have hd : delta m z (fun _ _ => vel) (dt : Rat) t e.pos = (dt : ℝ) • vel := by
        have hc := C47_constant z m2l vel (dt : Rat) t e.pos
        rw [rat_smul_real, Rat.cast_intCast] at hc
        cases m with
        | euler => exact hc.1
        | rk2 => exact hc.2.1
        | rk4 => exact hc.2.2
      rw [hd, smul_comm]

theorem steady_next (z : Zone) (dt t : Int) (w : List Steady) (els : List LE) (h : ∀ e ∈ els, inWater e) :
    nextPositions (dt : ℝ) (w.map (Steady.mover z dt t)) els = some (els.map fun e => e.pos + m2l ((dt : ℝ) • current w) e.pos) := by
  have key : ∀ (w : List Steady) (f : LE → V),
      (w.map (Steady.mover z dt t)).foldl (fun acc m => acc.bind fun ps => (m.move (dt : ℝ) els).map fun ds => List.zipWith (· + ·) ps ds) (some (els.map f)) =
        some (els.map fun e => f e + m2l ((dt : ℝ) • current w) e.pos) := by
    intro w
    induction w with
    | nil =>
      intro f
      simp only [List.map_nil, List.foldl_nil, current, List.sum_nil, smul_zero, m2l_zero, add_zero]
    | cons s w ih =>
      intro f
      rw [List.map_cons, List.foldl_cons, Option.bind_some, steady_row z dt t s els h, Option.map_some]
      have hz : List.zipWith (· + ·) (els.map f) (els.map fun e => m2l ((dt : ℝ) • s.velocity) e.pos) =
          els.map fun e => f e + m2l ((dt : ℝ) • s.velocity) e.pos := by
        rw [List.zipWith_map, List.zipWith_self]
      rw [hz, ih]
      congr 1
      refine List.map_congr_left fun e _ => ?_
      rw [add_assoc, ← m2l_add, ← smul_add]
      rfl
  exact key w LE.pos

theorem advance_eq (dt : Int) (v p : V) : p + m2l ((dt : ℝ) • v) p = advance dt v p := by
  unfold m2l advance metre shrink
  ext
  · simp only [Prod.fst_add, Prod.smul_fst, smul_eq_mul]; ring
  · simp
  · simp

/-- A run moves each element by itself, to where its own steps take it. -/
theorem steady_run (z : Zone) (w : List Steady) (dt : Int) : ∀ (n : Nat) (t : Int) (els : List LE), (∀ e ∈ els, inWater e) →
    steadyRun z w dt n t els = some (els.map fun e => { e with pos := (advance dt (current w))^[n] e.pos }) := by
  intro n
  induction n with
  | zero => intro t els _; simp [steadyRun]
  | succ n ih =>
    intro t els h
    rw [steadyRun, moveStep, steady_next z dt t w els h, Option.map_some, Option.bind_some]
    have hz : List.zipWith (fun (e : LE) (p : V) => { e with pos := p }) els (els.map fun e => e.pos + m2l ((dt : ℝ) • current w) e.pos) =
        els.map fun e => { e with pos := advance dt (current w) e.pos } := by
      rw [List.zipWith_map_right, List.zipWith_self]
      exact List.map_congr_left fun e _ => by rw [advance_eq]
    rw [hz, ih]
    · rw [List.map_map]
      rfl
    · intro e he
      obtain ⟨a, ha, rfl⟩ := List.mem_map.1 he
      exact h a ha

theorem advance_iter (dt : Int) (v : V) (n : Nat) (p : V) :
    (advance dt v)^[n] p = (p.1 + ∑ k ∈ Finset.range n, dt * v.1 * metre * shrink (p.2.1 + k * (dt * v.2.1 * metre)),
      p.2.1 + n * (dt * v.2.1 * metre), p.2.2 + n * (dt * v.2.2)) := by
  induction n with
  | zero => simp
  | succ n ih =>
    rw [Function.iterate_succ_apply', ih]
    unfold advance
    ext
    · simp only [Finset.sum_range_succ]; ring
    · simp only; push_cast; ring
    · simp only; push_cast; ring

/-- C308. Latitude and depth of every element after `n` steps: the distance is that of the current in the time of the run, whatever the number of steps. -/
theorem C308_north (z : Zone) (w : List Steady) (dt : Int) (n : Nat) (t : Int) (els : List LE) (h : ∀ e ∈ els, inWater e) :
    ∃ els', steadyRun z w dt n t els = some els' ∧ List.Forall₂ (fun e e' => e'.status = e.status ∧
      e'.pos.2.1 = e.pos.2.1 + (n * dt) * (current w).2.1 * metre ∧ e'.pos.2.2 = e.pos.2.2 + (n * dt) * (current w).2.2) els els' := by
  refine ⟨_, steady_run z w dt n t els h, ?_⟩
  rw [List.forall₂_map_right_iff, List.forall₂_same]
  intro e _
  refine ⟨rfl, ?_, ?_⟩ <;> simp only [advance_iter] <;> ring

/-- C308. In a current to the east or west the longitude too: as many metres as the current goes in the time of the run, on the parallel of the element. -/
theorem C308_east (z : Zone) (w : List Steady) (dt : Int) (n : Nat) (t : Int) (els : List LE) (h : ∀ e ∈ els, inWater e) (hv : (current w).2.1 = 0) :
    ∃ els', steadyRun z w dt n t els = some els' ∧ List.Forall₂ (fun e e' => e'.pos.1 = e.pos.1 + (n * dt) * (current w).1 * metre * shrink e.pos.2.1 ∧
      e'.pos.2.1 = e.pos.2.1) els els' := by
  refine ⟨_, steady_run z w dt n t els h, ?_⟩
  rw [List.forall₂_map_right_iff, List.forall₂_same]
  intro e _
  refine ⟨?_, ?_⟩ <;> simp only [advance_iter, hv, mul_zero, zero_mul, add_zero]
  rw [Finset.sum_const, Finset.card_range, nsmul_eq_mul]
  ring

/-- forwards `n` steps from `t`, then backwards as many -/
noncomputable def thereAndBack (z : Zone) (w : List Steady) (dt : Int) (n : Nat) (t : Int) (els : List LE) : Option (List LE) :=
  (steadyRun z w dt n t els).bind (steadyRun z w (-dt) n (t + n * dt * 1000000))

theorem round_trip (dt : Int) (v : V) (n : Nat) (p : V) :
    (advance (-dt) v)^[n] ((advance dt v)^[n] p) =
      (p.1 + dt * v.1 * metre * (shrink p.2.1 - shrink (p.2.1 + n * (dt * v.2.1 * metre))), p.2.1, p.2.2) := by
  rw [advance_iter, advance_iter]
  ext
  · simp only [Int.cast_neg]
    have hr : ∑ k ∈ Finset.range n, -(dt : ℝ) * v.1 * metre * shrink (p.2.1 + n * (dt * v.2.1 * metre) + k * (-(dt : ℝ) * v.2.1 * metre)) =
        -∑ k ∈ Finset.range n, (dt : ℝ) * v.1 * metre * shrink (p.2.1 + (k + 1 : ℕ) * (dt * v.2.1 * metre)) := by
      rw [← Finset.sum_range_reflect, ← Finset.sum_neg_distrib]
      refine Finset.sum_congr rfl fun k hk => ?_
      have hk : k < n := Finset.mem_range.1 hk
      have hc : ((n - 1 - k : ℕ) : ℝ) = n - 1 - k := by
        rw [Nat.sub_sub, Nat.cast_sub (by omega)]; push_cast; ring
      rw [hc]
      have : p.2.1 + n * (dt * v.2.1 * metre) + ((n : ℝ) - 1 - k) * (-(dt : ℝ) * v.2.1 * metre) = p.2.1 + ((k + 1 : ℕ) : ℝ) * (dt * v.2.1 * metre) := by
        push_cast; ring
      rw [this]; ring
    rw [hr, add_assoc, ← sub_eq_add_neg, ← Finset.sum_sub_distrib, add_right_inj]
    have := Finset.sum_range_sub' (fun k : ℕ => (dt : ℝ) * v.1 * metre * shrink (p.2.1 + k * (dt * v.2.1 * metre))) n
    rw [this]
    simp only [Nat.cast_zero, zero_mul, add_zero]
    ring
  · simp only [Int.cast_neg]; ring
  · simp only [Int.cast_neg]; ring

/-- C308. By how much a run forwards and backwards misses the place where it started: not in latitude or depth, and in longitude by one step of the current east, times the
difference of the lengths of a degree of longitude at the two ends. -/
theorem C308_miss (z : Zone) (w : List Steady) (dt : Int) (n : Nat) (t : Int) (els : List LE) (h : ∀ e ∈ els, inWater e) :
    ∃ els', thereAndBack z w dt n t els = some els' ∧ List.Forall₂ (fun e e' => e'.status = e.status ∧ e'.pos.2 = e.pos.2 ∧
      e'.pos.1 - e.pos.1 = dt * (current w).1 * metre * (shrink e.pos.2.1 - shrink (e.pos.2.1 + (n * dt) * (current w).2.1 * metre))) els els' := by
  refine ⟨els.map fun e => { e with pos := (advance (-dt) (current w))^[n] ((advance dt (current w))^[n] e.pos) }, ?_, ?_⟩
  · rw [thereAndBack, steady_run z w dt n t els h, Option.bind_some, steady_run, List.map_map]
    · rfl
    · intro e he
      obtain ⟨a, ha, rfl⟩ := List.mem_map.1 he
      exact h a ha
  · rw [List.forall₂_map_right_iff, List.forall₂_same]
    intro e _
    refine ⟨rfl, ?_, ?_⟩
    · simp only [round_trip]
    · simp only [round_trip]
      rw [show (n : ℝ) * (dt * (current w).2.1 * metre) = n * dt * (current w).2.1 * metre by ring]
      ring

/-- The claim: a run backwards, from where a run forwards ended, ends where that began. -/
def C308_claim : Prop := ∀ (z : Zone) (w : List Steady) (dt : Int) (n : Nat) (t : Int) (els : List LE), (∀ e ∈ els, inWater e) → thereAndBack z w dt n t els = some els

/-- C308, for currents along a parallel or a meridian (what is missing: other currents, `C308_miss`). -/
theorem C308_partial (z : Zone) (w : List Steady) (dt : Int) (n : Nat) (t : Int) (els : List LE) (h : ∀ e ∈ els, inWater e)
    (hc : (current w).1 = 0 ∨ (current w).2.1 = 0) : thereAndBack z w dt n t els = some els := by
  rw [thereAndBack, steady_run z w dt n t els h, Option.bind_some, steady_run, List.map_map]
  · congr 1
    conv_rhs => rw [← List.map_id els]
    refine List.map_congr_left fun e _ => ?_
    simp only [Function.comp_apply, round_trip, id_eq]
    rcases hc with hc | hc <;> simp [hc]
  · intro e he
    obtain ⟨a, ha, rfl⟩ := List.mem_map.1 he
    exact h a ha

/-- an element in the water on the equator -/
noncomputable def atEquator : LE := { pos := (0, 0, 0), status := 2, windage := 0, rise := 0 }

/-- C308 fails for a current to the northeast. -/
theorem C308_counterexample : ¬ C308_claim := by
  intro h
  have hw : ∀ e ∈ [atEquator], inWater e := fun e he => by rw [List.mem_singleton.1 he]; rfl
  obtain ⟨els', h1, h2⟩ := C308_miss ⟨0, fun _ => false, 0⟩ [.simple (1, 1, 0)] 900 1 0 [atEquator] hw
  rw [h _ _ _ _ _ _ hw] at h1
  obtain rfl : [atEquator] = els' := Option.some.inj h1
  have h3 := (List.forall₂_cons.1 h2).1.2.2
  simp only [current, List.map_cons, List.map_nil, List.sum_cons, List.sum_nil, Steady.velocity, atEquator, add_zero, sub_self, zero_add] at h3
  have hpi := Real.pi_pos
  have hpi4 := Real.pi_le_four
  set x : ℝ := ((1 : ℕ) : ℝ) * ((900 : Int) : ℝ) * 1 * metre * (Real.pi / 180) with hx
  have hm : metre = 89992801 / 10 ^ 13 := rfl
  have hxe : x = 900 * (89992801 / 10 ^ 13) * (Real.pi / 180) := by rw [hx, hm]; push_cast; ring
  have hx0 : 0 < x := by rw [hxe]; positivity
  have hx1 : x < 1 := by rw [hxe]; nlinarith
  have hcos : Real.cos x < 1 := by
    have := Real.cos_lt_cos_of_nonneg_of_le_pi (le_refl 0) (by linarith [Real.pi_gt_three]) hx0
    rwa [Real.cos_zero] at this
  have hcos0 : 0 < Real.cos x := Real.cos_pos_of_mem_Ioo ⟨by linarith, by linarith [Real.pi_gt_three]⟩
  simp only [shrink, zero_mul, Real.cos_zero, ← hx] at h3
  have hgt : 1 < 1 / Real.cos x := by rw [lt_div_iff₀ hcos0]; linarith
  have hne : (((900 : Int) : ℝ)) * 1 * metre * (1 / 1 - 1 / Real.cos x) < 0 := by
    rw [hm]
    have : (1 / 1 - 1 / Real.cos x) < 0 := by linarith
    have h9 : (0 : ℝ) < ((900 : Int) : ℝ) * 1 * (89992801 / 10 ^ 13) := by norm_num
    exact mul_neg_of_pos_of_neg h9 this
  linarith

/-- Two movers of a current along a parallel, one of them of the second order. -/
example : thereAndBack ⟨0, fun _ => false, 0⟩ [.simple (1, 0, 0), .current .rk2 2 (3, 0, 0)] 900 24 0 [atEquator, atEquator] = some [atEquator, atEquator] := by
  refine C308_partial _ _ _ _ _ _ (fun e he => ?_) (Or.inr ?_)
  · simp only [List.mem_cons, List.not_mem_nil, or_false, or_self] at he
    rw [he]; rfl
  · simp [current, Steady.velocity]

end Verif.Mover
