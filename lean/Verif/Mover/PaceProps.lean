import Verif.Mover.MirrorProps
import Mathlib.Tactic.FieldSimp
import Mathlib.Tactic.Module

/-!
# Worlds in which everything goes faster (C367)

All speeds and all coefficients of diffusion are `k` times what they were, and the steps are `k` times shorter.
-/

namespace Verif.Mover
open Verif.Integ Verif.TimeUtil

/-- An element that rises `k` times faster. -/
noncomputable def hasten (k : Rat) (e : LE) : LE := { e with rise := k * e.rise }

/-- Diffusion `k` times stronger; the mixed layer is as deep. -/
noncomputable def Vert.hasten (k : Rat) (p : Vert) : Vert :=
  { p with vAbove := k * p.vAbove, vBelow := k * p.vBelow, hAbove := k * p.hAbove, hBelow := k * p.hBelow }

/-- A field that does not change with time. -/
def Timeless (vel : V → Rat → V) : Prop := ∀ p s s', vel p s = vel p s'

/-- The second mover is the first one in the faster world; `dt` is the length of the step in the slower one. Times and time zones may differ. -/
inductive Paced (k dt : Rat) : AnyMover → AnyMover → Prop where
  | simple (vel : V) (scale : ℝ) (active on uncertain : Bool) (r : Nat → V) :
      Paced k dt (.simple vel scale active on uncertain r) (.simple ((k : ℝ) • vel) scale active on uncertain r)
  | current (active : Bool) (scale : ℝ) (m : Method) (z z' : Zone) (t t' : Int) (vel : V → Rat → V) (unc : Nat → Option (ℝ × ℝ)) (h : Timeless vel) :
      Paced k dt (.current active scale (delta m z vel dt t) unc) (.current active scale (delta m z' (fun p s => k • vel p s) (dt / k) t') unc)
  | wind (active : Bool) (scale : ℝ) (m : Method) (z z' : Zone) (t t' : Int) (vel : V → Rat → V) (h : Timeless vel) :
      Paced k dt (.wind active scale (delta m z vel dt t) fun _ => none)
        (.wind active scale (delta m z' (fun p s => k • vel p s) (dt / k) t') fun _ => none)
  | pointWind (active : Bool) (u v : ℝ) :
      Paced k dt (.pointWind active (u, v) fun _ => none) (.pointWind active (k * u, k * v) fun _ => none)
  | random (active : Bool) (coef factor : ℝ) (r1 r2 : Nat → ℝ) :
      Paced k dt (.random active coef factor r1 r2) (.random active (k * coef) factor r1 r2)
  | iceRandom (active : Bool) (coef factor : ℝ) (r1 r2 : Nat → ℝ) (ice ice' : LE → ℝ) (h : ∀ e, ice' (hasten k e) = ice e) :
      Paced k dt (.iceRandom active coef factor r1 r2 ice) (.iceRandom active (k * coef) factor r1 r2 ice')
  | rise (active : Bool) : Paced k dt (.rise active) (.rise active)
  | vertical (p : Vert) (active : Bool) (r : Nat → Draws) : Paced k dt (.vertical p active r) (.vertical (p.hasten k) active r)

section
variable {k : Rat} (hk : 0 < k)
include hk

/-- The numerical methods go as far in a steady field that is `k` times faster, in a step `k` times shorter. -/
theorem C367_methods (m : Method) (z z' : Zone) (vel : V → Rat → V) (h : Timeless vel) (dt : Rat) (t t' : Int) (p : V) :
    delta m z' (fun p s => k • vel p s) (dt / k) t' p = delta m z vel dt t p := by
  have hk0 : k ≠ 0 := hk.ne'
  have h0 : ∀ p s, vel p s = vel p 0 := fun p s => h p s 0
  have e1 : ∀ v : V, (dt / k) • k • v = dt • v := fun v => by rw [smul_smul]; congr 1; field_simp
  have e2 : ∀ v : V, (dt / k / 2) • k • v = (dt / 2) • v := fun v => by rw [smul_smul]; congr 1; field_simp
  have e6 : ∀ v : V, (dt / k / 6) • k • v = (dt / 6) • v := fun v => by rw [smul_smul]; congr 1; field_simp
  have e3 : ∀ v : V, (2 : Rat) • k • v = k • (2 : Rat) • v := fun v => smul_comm _ _ _
  cases m <;> simp only [delta, euler, rk2, rk4, h0, e1, e2, e6, smul_add, e3]

omit hk in
theorem hasten_pos (e : LE) : (hasten k e).pos = e.pos := rfl

theorem cancel_step (dt : Rat) (x : ℝ) : (k : ℝ) * x * ((dt / k : Rat) : ℝ) = x * dt := by
  have hk0 : (k : ℝ) ≠ 0 := by exact_mod_cast hk.ne'
  push_cast
  field_simp

theorem simple_pace (dt : Rat) (vel : V) (scale : ℝ) (active on uncertain : Bool) (r : V) (e : LE) :
    simpleRow ((k : ℝ) • vel) scale active on uncertain ((dt / k : Rat) : ℝ) r (hasten k e) = simpleRow vel scale active on uncertain dt r e := by
  have e1 := cancel_step hk dt
  have e2 : ∀ x, scale * ((k : ℝ) * x) * ((dt / k : Rat) : ℝ) = scale * x * dt := fun x => by linear_combination scale * e1 x
  have hw : inWater (hasten k e) ↔ inWater e := Iff.rfl
  simp only [simpleRow, Prod.smul_fst, Prod.smul_snd, smul_eq_mul, e1, e2, hw, hasten_pos]

theorem diffusion (dt : Rat) (c x : ℝ) : c * ((k : ℝ) * x / 10000) * ((dt / k : Rat) : ℝ) = c * (x / 10000) * dt := by
  linear_combination c / 10000 * cancel_step hk dt x

theorem random_pace (dt : Rat) (active : Bool) (coef factor r1 r2 : ℝ) (e : LE) :
    randomRow active (k * coef) factor ((dt / k : Rat) : ℝ) r1 r2 (hasten k e) = randomRow active coef factor dt r1 r2 e := by
  have hk' : (0 : ℝ) < k := by exact_mod_cast hk
  have e1 : factor * 6 * ((k : ℝ) * coef / 10000) * |((dt / k : Rat) : ℝ)| = factor * 6 * (coef / 10000) * |(dt : ℝ)| := by
    push_cast
    rw [abs_div, abs_of_pos hk']
    field_simp
  have hw : inWater (hasten k e) ↔ inWater e := Iff.rfl
  simp only [randomRow, e1, hw, hasten_pos]

theorem rise_pace (dt : Rat) (active : Bool) (e : LE) : riseRow active ((dt / k : Rat) : ℝ) (hasten k e) = riseRow active dt e := by
  have e1 : -1 * ((k : ℝ) * e.rise) * ((dt / k : Rat) : ℝ) = -1 * e.rise * dt := by linear_combination -cancel_step hk dt e.rise
  have hw : inWater (hasten k e) ↔ inWater e := Iff.rfl
  have hr : (hasten k e).rise = k * e.rise := rfl
  simp only [riseRow, hw, hr, e1]

theorem vert_pace (dt : Rat) (p : Vert) (active : Bool) (r : Draws) (e : LE) :
    vertRow (p.hasten k) active ((dt / k : Rat) : ℝ) r (hasten k e) = vertRow p active dt r e := by
  have hk0 : (k : ℝ) ≠ 0 := by exact_mod_cast hk.ne'
  have hw : inWater (hasten k e) ↔ inWater e := Iff.rfl
  have ha : (p.hasten k).vAbove = k * p.vAbove := rfl
  have hb : (p.hasten k).vBelow = k * p.vBelow := rfl
  have hl : (p.hasten k).mld = p.mld := rfl
  have hs : (p.hasten k).surfaceAllowed = p.surfaceAllowed := rfl
  have hc : ∀ z, (if (p.hasten k).mld < z then (p.hasten k).hBelow else (p.hasten k).hAbove) = k * (if p.mld < z then p.hBelow else p.hAbove) := fun z => by
    by_cases h : p.mld < z
    · rw [if_pos h, if_pos (hl ▸ h)]; rfl
    · rw [if_neg h, if_neg (hl ▸ h)]; rfl
  have hm : ∀ z, mixedMove (p.hasten k) ((dt / k : Rat) : ℝ) r z = mixedMove p dt r z := fun z => by
    simp only [mixedMove, ha, hl, diffusion hk]
  have hd : ∀ z, vertDz (p.hasten k) ((dt / k : Rat) : ℝ) r z = vertDz p dt r z := fun z => by
    simp only [vertDz, hm, ha, hb, hl, diffusion hk, mul_eq_zero, hk0, false_or]
  have hr : ∀ z, vertReach (p.hasten k) ((dt / k : Rat) : ℝ) z = vertReach p dt z := fun z => by
    simp only [vertReach, hc, diffusion hk]
  simp only [vertRow, hw, hs, hasten_pos, hd, hr]

theorem unsigned_pace (dt : Rat) (active : Bool) (els : List LE) (ds : List V) :
    unsignedStep active ((dt / k : Rat) : ℝ) (els.map (hasten k)) ds = unsignedStep active dt els ds := by
  have h : ((dt / k : Rat) : ℝ) < 0 ↔ (dt : ℝ) < 0 := by
    rw [← Rat.cast_zero, Rat.cast_lt, Rat.cast_lt, div_lt_iff₀ hk, zero_mul]
  simp only [unsignedStep, ne_eq, List.map_eq_nil_iff, h]

omit hk in
theorem rowwise_pace (f f' : Nat → LE → V) (h : ∀ i e, f' i (hasten k e) = f i e) (els : List LE) : rowwise f' (els.map (hasten k)) = rowwise f els := by
  unfold rowwise
  apply List.ext_getElem?
  intro i
  simp only [List.getElem?_mapIdx, List.getElem?_map, Option.map_map]
  cases els[i]? with
  | none => rfl
  | some e => simp only [Option.map_some, Function.comp_def, h]

/-- **C367**, one mover: the same moves. -/
theorem C367_mover (dt : Rat) (m m' : AnyMover) (h : Paced k dt m m') (els : List LE) :
    m'.move ((dt / k : Rat) : ℝ) (els.map (hasten k)) = m.move dt els := by
  cases h with
  | simple => exact congrArg some (rowwise_pace _ _ (fun i e => simple_pace hk ..) els)
  | current active scale m z z' t t' vel unc h =>
    refine congrArg some (rowwise_pace _ _ (fun i e => ?_) els)
    simp only [currentRow, hasten_pos, C367_methods hk m z z' vel h dt t t']
    rfl
  | wind active scale m z z' t t' vel h =>
    refine congrArg some (rowwise_pace _ _ (fun i e => ?_) els)
    simp only [windRow, hasten_pos, C367_methods hk m z z' vel h dt t t']
    rfl
  | pointWind active u v =>
    refine congrArg some (rowwise_pace _ _ (fun i e => ?_) els)
    have e1 : ∀ x, (k : ℝ) * x * e.windage / metresPerDegree * ((dt / k : Rat) : ℝ) = x * e.windage / metresPerDegree * dt := fun x => by
      linear_combination e.windage / metresPerDegree * cancel_step hk dt x
    have hw : inWater (hasten k e) ↔ inWater e := Iff.rfl
    have hg : (hasten k e).windage = e.windage := rfl
    simp only [pointWindRow, hasten_pos, hg, e1, hw]
  | random => exact congrArg some (rowwise_pace _ _ (fun i e => random_pace hk ..) els)
  | iceRandom active coef factor r1 r2 ice ice' h =>
    refine congrArg some ?_
    have hex : (∃ e ∈ els.map (hasten k), 2 / 10 ≤ ice' e) ↔ ∃ e ∈ els, 2 / 10 ≤ ice e := by
      simp only [List.mem_map, exists_exists_and_eq_and, h]
    unfold iceRandomMove
    by_cases hx : ∃ e ∈ els, 2 / 10 ≤ ice e
    · rw [if_pos (hex.2 hx), if_pos hx]
      refine rowwise_pace _ _ (fun i e => ?_) els
      have hw : inWater (hasten k e) ↔ inWater e := Iff.rfl
      simp only [hw, h, random_pace hk]
    · rw [if_neg (fun x => hx (hex.1 x)), if_neg hx]
      exact rowwise_pace _ _ (fun i e => random_pace hk ..) els
  | rise active =>
    simp only [AnyMover.move, riseMove]
    rw [rowwise_pace _ _ (fun _ e => rise_pace hk dt active e), unsigned_pace hk]
  | vertical p active r =>
    simp only [AnyMover.move, vertMove]
    rw [rowwise_pace _ _ (fun i e => vert_pace hk dt p active (r i) e), unsigned_pace hk]

/-- **C367**, one step of the model: the same places. -/
theorem C367_step (dt : Rat) (ms ms' : List AnyMover) (h : List.Forall₂ (Paced k dt) ms ms') (els : List LE) :
    nextPositions ((dt / k : Rat) : ℝ) ms' (els.map (hasten k)) = nextPositions dt ms els := by
  have key : ∀ acc : Option (List V),
      ms'.foldl (fun acc m => acc.bind fun ps => (m.move ((dt / k : Rat) : ℝ) (els.map (hasten k))).map fun ds => List.zipWith (· + ·) ps ds) acc =
      ms.foldl (fun acc m => acc.bind fun ps => (m.move dt els).map fun ds => List.zipWith (· + ·) ps ds) acc := by
    induction h with
    | nil => intro acc; rfl
    | cons hm _ ih =>
      intro acc
      simp only [List.foldl_cons, C367_mover hk dt _ _ hm, ih]
  have hp : (els.map (hasten k)).map LE.pos = els.map LE.pos := by rw [List.map_map]; rfl
  unfold nextPositions
  rw [hp]
  exact key _

omit hk in
theorem settled_pace : ∀ (els : List LE) (ps : List V), settled (els.map (hasten k)) ps = (settled els ps).map (hasten k)
  | [], _ => by simp [settled]
  | _ :: _, [] => by simp [settled]
  | e :: els, p :: ps => by
    have := settled_pace els ps
    unfold settled at this ⊢
    simp only [List.map_cons, List.zipWith_cons_cons, this]
    rfl

/-- **C367**, whole runs: after as many steps, `k` times shorter, all elements are at the same places. -/
theorem C367_run (run run' : List (ℝ × List AnyMover))
    (h : List.Forall₂ (fun (s s' : ℝ × List AnyMover) => ∃ dt : Rat, s.1 = (dt : ℝ) ∧ s'.1 = ((dt / k : Rat) : ℝ) ∧ List.Forall₂ (Paced k dt) s.2 s'.2) run run') (els : List LE) :
    runSteps run' (els.map (hasten k)) = (runSteps run els).map (List.map (hasten k)) := by
  induction h generalizing els with
  | nil => rfl
  | @cons s s' _ _ hs _ ih =>
    obtain ⟨d, ms⟩ := s
    obtain ⟨d', ms'⟩ := s'
    obtain ⟨dt, rfl, rfl, hms⟩ := hs
    simp only [runSteps, C367_step hk dt ms ms' hms]
    cases nextPositions dt ms els with
    | none => rfl
    | some ps => simp only [Option.bind_some, settled_pace, ih]

/-- The places after the run are the same. -/
theorem C367_places (run run' : List (ℝ × List AnyMover))
    (h : List.Forall₂ (fun (s s' : ℝ × List AnyMover) => ∃ dt : Rat, s.1 = (dt : ℝ) ∧ s'.1 = ((dt / k : Rat) : ℝ) ∧ List.Forall₂ (Paced k dt) s.2 s'.2) run run') (els : List LE) :
    (runSteps run' (els.map (hasten k))).map (List.map LE.pos) = (runSteps run els).map (List.map LE.pos) := by
  rw [C367_run hk run run' h, Option.map_map]
  congr 1
  funext l
  simp only [Function.comp_def, List.map_map]
  rfl

end

/-- A current twice as fast, with RK4, and diffusion twice as strong, in steps of 450 s instead of 900 s. -/
example (z : Zone) (t t' : Int) (els : List LE) :
    nextPositions ((900 / 2 : Rat) : ℝ)
      [.current true 1 (delta .rk4 z (fun p _ => (2 : Rat) • ((p.2.1, 1, 0) : V)) (900 / 2) t') (fun _ => none),
        .random true ((2 : Rat) * 100000) 1 (fun _ => 1 / 2) fun _ => 1 / 3] (els.map (hasten 2)) =
    nextPositions ((900 : Rat) : ℝ)
      [.current true 1 (delta .rk4 z (fun p _ => ((p.2.1, 1, 0) : V)) 900 t) (fun _ => none),
        .random true 100000 1 (fun _ => 1 / 2) fun _ => 1 / 3] els :=
  C367_step (by norm_num) 900 _ _
    (.cons (.current true 1 .rk4 z z t t' (fun p _ => (p.2.1, 1, 0)) (fun _ => none) fun _ _ _ => rfl) (.cons (.random ..) .nil)) els

end Verif.Mover
