import Verif.Mover.MoveProps
import Verif.Mover.MoveSpec
import Mathlib.Tactic.Ring
import Mathlib.Tactic.Linarith
import Mathlib.Tactic.LinearCombination

/-!
# Mirrored worlds (C363)

A world can be mirrored east-west at a meridian, south-north at the equator, or both.  Currents and winds are mirrored with it, and
so are the numbers drawn: a move to the left becomes one to the right.
-/

namespace Verif.Mover
open Verif.Integ Verif.TimeUtil

/-- How a world is mirrored: `σ` is -1 if east and west change places, `τ` if south and north do; the meridian 0 comes to lie at
`a`. -/
structure Mirror where
  σ : ℝ
  τ : ℝ
  a : ℝ
  hσ : σ = 1 ∨ σ = -1
  hτ : τ = 1 ∨ τ = -1

namespace Mirror

/-- Where a place comes to lie. -/
def place (M : Mirror) (p : V) : V := (M.a + M.σ * p.1, M.τ * p.2.1, p.2.2)

/-- What becomes of a velocity or a move. -/
def arrow (M : Mirror) (d : V) : V := (M.σ * d.1, M.τ * d.2.1, d.2.2)

/-- What becomes of an element. -/
def le (M : Mirror) (e : LE) : LE := { e with pos := M.place e.pos }

/-- A turn to the left becomes one to the right if one pair of directions changes places, and stays if both do. -/
def sense (M : Mirror) : ℝ := M.σ * M.τ

end Mirror

/-- The second wind uncertainty is the mirrored first one; in light wind `PointWindMover` adds draws, `WindMover` multiplies by
them. -/
inductive UncMirrored (M : Mirror) (adds : Bool) : Option WUnc → Option WUnc → Prop where
  | none : UncMirrored M adds none none
  | some (w w' : WUnc) (h2 : w'.σ2 = w.σ2) (hθ : w'.σθ = w.σθ) (hd : w'.diff = w.diff) (hc : w'.c = w.c) (hs : w'.s = M.sense * w.s)
      (h1 : w'.r1 = if adds then M.σ * w.r1 else w.r1) (hr2 : w'.r2 = if adds then M.τ * w.r2 else w.r2) : UncMirrored M adds (some w) (some w')

/-- The second mover is the first one in the mirrored world. -/
inductive Mirrored (M : Mirror) : AnyMover → AnyMover → Prop where
  | simple (vel : V) (scale : ℝ) (active on uncertain : Bool) (r : Nat → V) :
      Mirrored M (.simple vel scale active on uncertain r) (.simple (M.arrow vel) scale active on uncertain r)
  | current (active : Bool) (scale : ℝ) (dm dm' : V → V) (unc unc' : Nat → Option (ℝ × ℝ))
      (h : ∀ p, dm' (M.place p) = M.arrow (dm p)) (hu : ∀ i, unc' i = (unc i).map fun ab => (ab.1, M.sense * ab.2)) :
      Mirrored M (.current active scale dm unc) (.current active scale dm' unc')
  | wind (active : Bool) (scale : ℝ) (dm dm' : V → V) (unc unc' : Nat → Option WUnc)
      (h : ∀ p, dm' (M.place p) = M.arrow (dm p)) (hu : ∀ i, UncMirrored M false (unc i) (unc' i)) :
      Mirrored M (.wind active scale dm unc) (.wind active scale dm' unc')
  | pointWind (active : Bool) (u v : ℝ) (unc unc' : Nat → Option WUnc) (hu : ∀ i, UncMirrored M true (unc i) (unc' i)) :
      Mirrored M (.pointWind active (u, v) unc) (.pointWind active (M.σ * u, M.τ * v) unc')
  | random (active : Bool) (coef factor : ℝ) (r1 r2 : Nat → ℝ) :
      Mirrored M (.random active coef factor r1 r2) (.random active coef factor (fun i => M.σ * r1 i) fun i => M.τ * r2 i)
  | iceRandom (active : Bool) (coef factor : ℝ) (r1 r2 : Nat → ℝ) (ice ice' : LE → ℝ) (h : ∀ e, ice' (M.le e) = ice e) :
      Mirrored M (.iceRandom active coef factor r1 r2 ice) (.iceRandom active coef factor (fun i => M.σ * r1 i) (fun i => M.τ * r2 i) ice')
  | rise (active : Bool) : Mirrored M (.rise active) (.rise active)
  | vertical (p : Vert) (active : Bool) (r r' : Nat → Draws)
      (h1 : ∀ i, uniform (-1) 1 (r' i).h1 = M.σ * uniform (-1) 1 (r i).h1) (h2 : ∀ i, uniform (-1) 1 (r' i).h2 = M.τ * uniform (-1) 1 (r i).h2)
      (hv : ∀ i, (r' i).v1 = (r i).v1 ∧ (r' i).v2 = (r i).v2 ∧ (r' i).m = (r i).m ∧ (r' i).w = (r i).w) :
      Mirrored M (.vertical p active r) (.vertical p active r')

section
variable (M : Mirror)

theorem σ_sq : M.σ * M.σ = 1 := by rcases M.hσ with h | h <;> rw [h] <;> norm_num
theorem τ_sq : M.τ * M.τ = 1 := by rcases M.hτ with h | h <;> rw [h] <;> norm_num

theorem arrow_zero : M.arrow 0 = 0 := by simp [Mirror.arrow]

theorem cos_τ (x : ℝ) : Real.cos (M.τ * x) = Real.cos x := by
  rcases M.hτ with h | h <;> rw [h]
  · rw [one_mul]
  · rw [neg_one_mul, Real.cos_neg]

theorem m2l_mirror (d p : V) : m2l (M.arrow d) (M.place p) = M.arrow (m2l d p) := by
  have h : M.τ * p.2.1 * (Real.pi / 180) = M.τ * (p.2.1 * (Real.pi / 180)) := by ring
  simp only [m2l, Mirror.arrow, Mirror.place, h, cos_τ]
  refine Prod.ext ?_ (Prod.ext ?_ rfl)
  · simp only; ring
  · simp only; ring

theorem ratio_mirror (p : V) : ratio (M.place p) = ratio p := by
  have h : M.τ * p.2.1 * (314159 / 100000) / 180 = M.τ * (p.2.1 * (314159 / 100000) / 180) := by ring
  simp only [ratio, Mirror.place, h, cos_τ]

theorem place_add (p d : V) : M.place (p + d) = M.place p + M.arrow d := by
  refine Prod.ext ?_ (Prod.ext ?_ rfl) <;> simp only [Mirror.place, Mirror.arrow, Prod.fst_add, Prod.snd_add] <;> ring

theorem arrow_add (c d : V) : M.arrow (c + d) = M.arrow c + M.arrow d := by
  refine Prod.ext ?_ (Prod.ext ?_ rfl) <;> simp only [Mirror.arrow, Prod.fst_add, Prod.snd_add] <;> ring

theorem arrow_smul (k : ℝ) (d : V) : M.arrow (k • d) = k • M.arrow d := by
  refine Prod.ext ?_ (Prod.ext ?_ rfl) <;> simp only [Mirror.arrow, Prod.smul_fst, Prod.smul_snd, smul_eq_mul] <;> ring

theorem arrow_rat (k : Rat) (d : V) : M.arrow (k • d) = k • M.arrow d := by
  refine Prod.ext ?_ (Prod.ext ?_ rfl) <;> simp only [Mirror.arrow, Prod.smul_fst, Prod.smul_snd, Rat.smul_def] <;> ring

/-- The numerical methods follow a mirrored field to the mirrored place. -/
theorem C363_methods (m : Method) (z : Zone) (vel vel' : V → Rat → V) (h : ∀ p t, vel' (M.place p) t = M.arrow (vel p t)) (dt : Rat) (t : Int)
    (p : V) : delta m z vel' dt t (M.place p) = M.arrow (delta m z vel dt t p) := by
  cases m <;>
    simp only [delta, euler, rk2, rk4, h, ← arrow_rat, m2l_mirror, ← place_add, ← arrow_add]

theorem simple_mirror (vel : V) (scale : ℝ) (active on uncertain : Bool) (dt : ℝ) (r : V) (e : LE) :
    simpleRow (M.arrow vel) scale active on uncertain dt r (M.le e) = M.arrow (simpleRow vel scale active on uncertain dt r e) := by
  have hw : inWater (M.le e) ↔ inWater e := Iff.rfl
  unfold simpleRow
  by_cases ha : active ∧ on
  · rw [if_pos ha, if_pos ha]
    simp only [hw]
    rw [show (M.le e).pos = M.place e.pos from rfl, ← m2l_mirror]
    congr 1
    by_cases hi : inWater e
    · rw [if_pos hi, if_pos hi]
      by_cases hu : uncertain = true
      · rw [if_pos hu, if_pos hu]
        refine Prod.ext ?_ (Prod.ext ?_ rfl) <;> simp only [Mirror.arrow] <;> ring
      · rw [if_neg hu, if_neg hu]
        refine Prod.ext ?_ (Prod.ext ?_ rfl) <;> simp only [Mirror.arrow] <;> ring
    · rw [if_neg hi, if_neg hi, arrow_zero]
  · rw [if_neg ha, if_neg ha, arrow_zero]

theorem currentUnc_mirror (α β : ℝ) (d : V) : addCurrentUnc α (M.sense * β) (M.arrow d) = M.arrow (addCurrentUnc α β d) := by
  refine Prod.ext ?_ (Prod.ext ?_ rfl)
  · simp only [addCurrentUnc, Mirror.arrow, Mirror.sense]
    linear_combination M.σ * d.2.1 * β * τ_sq M
  · simp only [addCurrentUnc, Mirror.arrow, Mirror.sense]
    linear_combination -(M.τ * d.1 * β) * σ_sq M

theorem current_mirror (active : Bool) (scale : ℝ) (dm dm' : V → V) (h : ∀ p, dm' (M.place p) = M.arrow (dm p)) (unc : Option (ℝ × ℝ))
    (e : LE) :
    currentRow active scale dm' (unc.map fun ab => (ab.1, M.sense * ab.2)) (M.le e) = M.arrow (currentRow active scale dm unc e) := by
  have hw : inWater (M.le e) ↔ inWater e := Iff.rfl
  have hp : (M.le e).pos = M.place e.pos := rfl
  unfold currentRow
  by_cases ha : active = true
  · rw [if_pos ha, if_pos ha]
    by_cases hi : inWater e
    · rw [if_pos (hw.2 hi), if_pos hi, hp, h, ← m2l_mirror]
      cases unc with
      | none => simp only [Option.map_none, arrow_smul]
      | some ab => simp only [Option.map_some, ← arrow_smul, currentUnc_mirror]
    · rw [if_neg (fun x => hi (hw.1 x)), if_neg hi, arrow_zero]
  · rw [if_neg ha, if_neg ha, arrow_zero]

theorem sense_cases : M.sense = 1 ∨ M.sense = -1 := by
  unfold Mirror.sense
  rcases M.hσ with h | h <;> rcases M.hτ with h' | h' <;> rw [h, h'] <;> norm_num

theorem turn_mirror (w w' : WUnc) (hθ : w'.σθ = w.σθ) (hs : w'.s = M.sense * w.s) :
    Real.cos (turn w') = Real.cos (turn w) ∧ Real.sin (turn w') = M.sense * Real.sin (turn w) := by
  have ht : turn w' = M.sense * turn w := by unfold turn; rw [hθ, hs]; ring
  rw [ht]
  rcases sense_cases M with h | h <;> rw [h]
  · rw [one_mul, one_mul]; exact ⟨rfl, rfl⟩
  · rw [neg_one_mul, neg_one_mul]; exact ⟨Real.cos_neg _, Real.sin_neg _⟩

theorem norm_mirror (u v : ℝ) : √(M.σ * u * (M.σ * u) + M.τ * v * (M.τ * v)) = √(u * u + v * v) := by
  congr 1
  linear_combination u * u * σ_sq M + v * v * τ_sq M

theorem windUnc_mirror (w w' : WUnc) (dt : ℝ) (d : V) (h : UncMirrored M false (some w) (some w')) :
    addWindUnc w' dt (M.arrow d) = M.arrow (addWindUnc w dt d) := by
  cases h with
  | some _ _ h2 hθ hd hc hs h1 hr2 =>
    obtain ⟨hcos, hsin⟩ := turn_mirror M w w' hθ hs
    have hu : (M.arrow d).1 / dt = M.σ * (d.1 / dt) := by simp only [Mirror.arrow]; ring
    have hv : (M.arrow d).2.1 / dt = M.τ * (d.2.1 / dt) := by simp only [Mirror.arrow]; ring
    have hp : ∀ x, perturbed w' x = perturbed w x := fun x => by unfold perturbed; rw [h2, hc]
    simp only [addWindUnc, hu, hv, norm_mirror, hcos, hsin, hp, hd, h1, hr2, Bool.false_eq_true, if_false]
    split
    · refine Prod.ext ?_ (Prod.ext ?_ rfl) <;> simp only [Mirror.arrow] <;> ring
    · refine Prod.ext ?_ (Prod.ext ?_ rfl)
      · simp only [Mirror.arrow, Mirror.sense]
        generalize perturbed w _ / _ / _ = t
        linear_combination -(M.σ * (d.2.1 / dt) * t * Real.sin (turn w) * dt) * τ_sq M
      · simp only [Mirror.arrow, Mirror.sense]
        generalize perturbed w _ / _ / _ = t
        linear_combination (M.τ * (d.1 / dt) * t * Real.sin (turn w) * dt) * σ_sq M

theorem wind_mirror (active : Bool) (scale dt : ℝ) (dm dm' : V → V) (h : ∀ p, dm' (M.place p) = M.arrow (dm p)) (unc unc' : Option WUnc)
    (hu : UncMirrored M false unc unc') (e : LE) :
    windRow active scale dt dm' unc' (M.le e) = M.arrow (windRow active scale dt dm unc e) := by
  have hw : inWater (M.le e) ↔ inWater e := Iff.rfl
  have hp : (M.le e).pos = M.place e.pos := rfl
  have hg : ∀ d : V, ((M.arrow d).1 * ((M.le e).windage * scale), (M.arrow d).2.1 * ((M.le e).windage * scale), (M.arrow d).2.2) =
      M.arrow (d.1 * (e.windage * scale), d.2.1 * (e.windage * scale), d.2.2) := fun d => by
    refine Prod.ext ?_ (Prod.ext ?_ rfl) <;> simp only [Mirror.arrow, Mirror.le] <;> ring
  unfold windRow
  by_cases ha : active = true
  · rw [if_pos ha, if_pos ha]
    by_cases hi : inWater e
    · rw [if_pos (hw.2 hi), if_pos hi, hp, h, ← m2l_mirror, ← hg]
      cases hu with
      | none => rfl
      | some w w' h2 hθ hd hc hs h1 hr2 => simp only [windUnc_mirror M w w' dt _ (.some w w' h2 hθ hd hc hs h1 hr2)]
    · rw [if_neg (fun x => hi (hw.1 x)), if_neg hi, arrow_zero]
  · rw [if_neg ha, if_neg ha, arrow_zero]

theorem windUncC_mirror (w w' : WUnc) (u v : ℝ) (h : UncMirrored M true (some w) (some w')) :
    addWindUncC w' (M.σ * u) (M.τ * v) = (M.σ * (addWindUncC w u v).1, M.τ * (addWindUncC w u v).2) := by
  cases h with
  | some _ _ h2 hθ hd hc hs h1 hr2 =>
    obtain ⟨hcos, hsin⟩ := turn_mirror M w w' hθ hs
    have hp : ∀ x, perturbed w' x = perturbed w x := fun x => by unfold perturbed; rw [h2, hc]
    have hn : √(M.τ * v * (M.τ * v) + M.σ * u * (M.σ * u)) = √(v * v + u * u) := by
      rw [add_comm, norm_mirror, add_comm]
    simp only [addWindUncC, hn, hcos, hsin, hp, hd, h1, hr2, if_true]
    split
    · refine Prod.ext ?_ ?_ <;> simp only <;> ring
    · refine Prod.ext ?_ ?_
      · simp only [Mirror.sense]
        generalize perturbed w _ / _ / _ = t
        linear_combination -(M.σ * v * t * Real.sin (turn w)) * τ_sq M
      · simp only [Mirror.sense]
        generalize perturbed w _ / _ / _ = t
        linear_combination (M.τ * u * t * Real.sin (turn w)) * σ_sq M

theorem pointWind_mirror (active : Bool) (dt u v : ℝ) (unc unc' : Option WUnc) (hu : UncMirrored M true unc unc') (e : LE) :
    pointWindRow active dt (M.σ * u, M.τ * v) unc' (M.le e) = M.arrow (pointWindRow active dt (u, v) unc e) := by
  have hw : inWater (M.le e) ↔ inWater e := Iff.rfl
  have hp : (M.le e).pos = M.place e.pos := rfl
  have hz : (M.place e.pos).2.2 = e.pos.2.2 := rfl
  have hwd : (M.le e).windage = e.windage := rfl
  unfold pointWindRow
  by_cases ha : active = true
  · rw [if_pos ha, if_pos ha]
    by_cases hi : inWater e
    · rw [if_pos (hw.2 hi), if_pos hi, hp, hz]
      split
      · rw [arrow_zero]
      · cases hu with
        | none =>
          refine Prod.ext ?_ (Prod.ext ?_ rfl) <;> simp only [Mirror.arrow, ratio_mirror, hwd] <;> ring
        | some w w' h2 hθ hd hc hs h1 hr2 =>
          have := windUncC_mirror M w w' u v (.some w w' h2 hθ hd hc hs h1 hr2)
          refine Prod.ext ?_ (Prod.ext ?_ rfl) <;> simp only [Mirror.arrow, ratio_mirror, this, hwd] <;> ring
    · rw [if_neg (fun x => hi (hw.1 x)), if_neg hi, arrow_zero]
  · rw [if_neg ha, if_neg ha, arrow_zero]

theorem random_mirror (active : Bool) (coef factor dt r1 r2 : ℝ) (e : LE) :
    randomRow active coef factor dt (M.σ * r1) (M.τ * r2) (M.le e) = M.arrow (randomRow active coef factor dt r1 r2 e) := by
  have hw : inWater (M.le e) ↔ inWater e := Iff.rfl
  have hp : (M.le e).pos = M.place e.pos := rfl
  have hz : (M.place e.pos).2.2 = e.pos.2.2 := rfl
  unfold randomRow
  by_cases ha : active = true
  · rw [if_pos ha, if_pos ha]
    by_cases hi : inWater e
    · rw [if_pos (hw.2 hi), if_pos hi, hp, hz]
      split
      · rw [arrow_zero]
      · refine Prod.ext ?_ (Prod.ext ?_ rfl) <;> simp only [Mirror.arrow, ratio_mirror] <;> ring
    · rw [if_neg (fun x => hi (hw.1 x)), if_neg hi, arrow_zero]
  · rw [if_neg ha, if_neg ha, arrow_zero]

theorem rise_mirror (active : Bool) (dt : ℝ) (e : LE) : riseRow active dt (M.le e) = M.arrow (riseRow active dt e) := by
  have hw : inWater (M.le e) ↔ inWater e := Iff.rfl
  unfold riseRow
  by_cases ha : active = true
  · rw [if_pos ha, if_pos ha]
    by_cases hi : inWater e
    · rw [if_pos (hw.2 hi), if_pos hi]
      refine Prod.ext ?_ (Prod.ext ?_ rfl) <;> simp [Mirror.arrow]
    · rw [if_neg (fun x => hi (hw.1 x)), if_neg hi, arrow_zero]
  · rw [if_neg ha, if_neg ha, arrow_zero]

theorem vert_mirror (p : Vert) (active : Bool) (dt : ℝ) (r r' : Draws) (h1 : uniform (-1) 1 r'.h1 = M.σ * uniform (-1) 1 r.h1)
    (h2 : uniform (-1) 1 r'.h2 = M.τ * uniform (-1) 1 r.h2) (hv : r'.v1 = r.v1 ∧ r'.v2 = r.v2 ∧ r'.m = r.m ∧ r'.w = r.w) (e : LE) :
    vertRow p active dt r' (M.le e) = M.arrow (vertRow p active dt r e) := by
  have hw : inWater (M.le e) ↔ inWater e := Iff.rfl
  have hp : (M.le e).pos = M.place e.pos := rfl
  have hz : (M.place e.pos).2.2 = e.pos.2.2 := rfl
  obtain ⟨a, b, c, d⟩ := hv
  have hdz : ∀ z, vertDz p dt r' z = vertDz p dt r z := fun z => by
    simp only [vertDz, mixedMove, checks, a, b, c, d]
  unfold vertRow
  by_cases ha : active = true
  · rw [if_pos ha, if_pos ha]
    by_cases hi : inWater e
    · rw [if_pos (hw.2 hi), if_pos hi, hp, hz]
      split
      · refine Prod.ext ?_ (Prod.ext ?_ ?_) <;> simp only [Mirror.arrow, ratio_mirror, h1, h2, hdz] <;> ring
      · rw [arrow_zero]
    · rw [if_neg (fun x => hi (hw.1 x)), if_neg hi, arrow_zero]
  · rw [if_neg ha, if_neg ha, arrow_zero]

theorem rowwise_mirror (f f' : Nat → LE → V) (h : ∀ i e, f' i (M.le e) = M.arrow (f i e)) (els : List LE) :
    rowwise f' (els.map M.le) = (rowwise f els).map M.arrow := by
  unfold rowwise
  apply List.ext_getElem?
  intro i
  simp only [List.getElem?_mapIdx, List.getElem?_map, Option.map_map]
  cases els[i]? with
  | none => rfl
  | some e => simp only [Option.map_some, Function.comp_def, h]

theorem unsigned_mirror (active : Bool) (dt : ℝ) (els : List LE) (ds : List V) :
    unsignedStep active dt (els.map M.le) (ds.map M.arrow) = (unsignedStep active dt els ds).map (List.map M.arrow) := by
  unfold unsignedStep
  simp only [ne_eq, List.map_eq_nil_iff]
  split <;> rfl

/-- **C363**, one mover: in the mirrored world the mover returns the mirrored moves. -/
theorem C363_mover (m m' : AnyMover) (h : Mirrored M m m') (dt : ℝ) (els : List LE) :
    m'.move dt (els.map M.le) = (m.move dt els).map (List.map M.arrow) := by
  cases h with
  | simple vel scale active on uncertain r =>
    exact congrArg some (rowwise_mirror M _ _ (fun i e => simple_mirror M ..) els)
  | current active scale dm dm' unc unc' h hu =>
    exact congrArg some (rowwise_mirror M _ _ (fun i e => by rw [hu]; exact current_mirror M active scale dm dm' h (unc i) e) els)
  | wind active scale dm dm' unc unc' h hu =>
    exact congrArg some (rowwise_mirror M _ _ (fun i e => wind_mirror M active scale dt dm dm' h _ _ (hu i) e) els)
  | pointWind active u v unc unc' hu =>
    exact congrArg some (rowwise_mirror M _ _ (fun i e => pointWind_mirror M active dt u v _ _ (hu i) e) els)
  | random active coef factor r1 r2 =>
    exact congrArg some (rowwise_mirror M _ _ (fun i e => random_mirror M ..) els)
  | iceRandom active coef factor r1 r2 ice ice' h =>
    refine congrArg some ?_
    have hex : (∃ e ∈ els.map M.le, 2 / 10 ≤ ice' e) ↔ ∃ e ∈ els, 2 / 10 ≤ ice e := by
      simp only [List.mem_map, exists_exists_and_eq_and, h]
    unfold iceRandomMove
    by_cases hx : ∃ e ∈ els, 2 / 10 ≤ ice e
    · rw [if_pos (hex.2 hx), if_pos hx]
      refine rowwise_mirror M _ _ (fun i e => ?_) els
      have hw : inWater (M.le e) ↔ inWater e := Iff.rfl
      by_cases hi : inWater e
      · rw [if_pos (hw.2 hi), if_pos hi, h, random_mirror, arrow_smul]
      · rw [if_neg (fun x => hi (hw.1 x)), if_neg hi, arrow_zero]
    · rw [if_neg (fun x => hx (hex.1 x)), if_neg hx]
      exact rowwise_mirror M _ _ (fun i e => random_mirror M ..) els
  | rise active =>
    simp only [AnyMover.move, riseMove]
    rw [rowwise_mirror M _ _ (fun _ e => rise_mirror M active dt e), unsigned_mirror]
  | vertical p active r r' h1 h2 hv =>
    simp only [AnyMover.move, vertMove]
    rw [rowwise_mirror M _ _ (fun i e => vert_mirror M p active dt (r i) (r' i) (h1 i) (h2 i) (hv i) e), unsigned_mirror]

theorem zip_mirror : ∀ ps ds : List V,
    List.zipWith (· + ·) (ps.map M.place) (ds.map M.arrow) = (List.zipWith (· + ·) ps ds).map M.place
  | [], _ => by simp
  | _ :: _, [] => by simp
  | p :: ps, d :: ds => by simp [zip_mirror ps ds, place_add]

/-- **C363**, one step of the model: whatever the movers, all elements come to lie at the mirrored places. -/
theorem C363_step (ms ms' : List AnyMover) (h : List.Forall₂ (Mirrored M) ms ms') (dt : ℝ) (els : List LE) :
    nextPositions dt ms' (els.map M.le) = (nextPositions dt ms els).map (List.map M.place) := by
  unfold nextPositions
  have key : ∀ acc : Option (List V),
      ms'.foldl (fun acc m => acc.bind fun ps => (m.move dt (els.map M.le)).map fun ds => List.zipWith (· + ·) ps ds) (acc.map (List.map M.place)) =
      (ms.foldl (fun acc m => acc.bind fun ps => (m.move dt els).map fun ds => List.zipWith (· + ·) ps ds) acc).map (List.map M.place) := by
    induction h with
    | nil => intro acc; rfl
    | @cons m m' _ _ hm _ ih =>
      intro acc
      simp only [List.foldl_cons]
      rw [← ih]
      congr 1
      rw [C363_mover M m m' hm]
      cases acc with
      | none => rfl
      | some ps =>
        simp only [Option.map_some, Option.bind_some, Option.map_map]
        cases m.move dt els with
        | none => rfl
        | some ds => simp only [Option.map_some, Function.comp_def, zip_mirror]
  have := key (some (els.map LE.pos))
  simp only [Option.map_some, List.map_map] at this
  simp only [List.map_map]
  exact this

/-- The elements after a step, at their new places. -/
def settled (els : List LE) (ps : List V) : List LE := List.zipWith (fun e p => { e with pos := p }) els ps

/-- A run: for every step its length and the movers with what they use in it; away from any shore. -/
noncomputable def runSteps : List (ℝ × List AnyMover) → List LE → Option (List LE)
  | [], els => some els
  | (dt, ms) :: rest, els => (nextPositions dt ms els).bind fun ps => runSteps rest (settled els ps)

theorem settled_mirror : ∀ (els : List LE) (ps : List V), settled (els.map M.le) (ps.map M.place) = (settled els ps).map M.le
  | [], _ => by simp [settled]
  | _ :: _, [] => by simp [settled]
  | e :: els, p :: ps => by
    have := settled_mirror els ps
    unfold settled at this ⊢
    simp only [List.map_cons, List.zipWith_cons_cons, this]
    rfl

/-- **C363**, whole runs: any number of steps of any lengths, forwards or backwards. -/
theorem C363_run (run run' : List (ℝ × List AnyMover)) (h : List.Forall₂ (fun s s' => s'.1 = s.1 ∧ List.Forall₂ (Mirrored M) s.2 s'.2) run run')
    (els : List LE) : runSteps run' (els.map M.le) = (runSteps run els).map (List.map M.le) := by
  induction h generalizing els with
  | nil => rfl
  | @cons s s' _ _ hs _ ih =>
    obtain ⟨dt, ms⟩ := s
    obtain ⟨dt', ms'⟩ := s'
    obtain ⟨rfl, hms⟩ := hs
    simp only [runSteps, C363_step M ms ms' hms]
    cases nextPositions dt' ms els with
    | none => rfl
    | some ps => simp only [Option.map_some, Option.bind_some, settled_mirror, ih]

/-- Where the place comes from that lies at `q` in the mirrored world. -/
def Mirror.source (M : Mirror) (q : V) : V := (M.σ * (q.1 - M.a), M.τ * q.2.1, q.2.2)

theorem source_place (p : V) : M.source (M.place p) = p := by
  refine Prod.ext ?_ (Prod.ext ?_ rfl)
  · simp only [Mirror.source, Mirror.place]; linear_combination p.1 * σ_sq M
  · simp only [Mirror.source, Mirror.place]; linear_combination p.2.1 * τ_sq M

/-- The number in `[0, 1]` drawn in the mirrored world. -/
theorem mirrored_draw (s r : ℝ) (hs : s = 1 ∨ s = -1) (h0 : 0 ≤ r) (h1 : r ≤ 1) : ∃ r', 0 ≤ r' ∧ r' ≤ 1 ∧ uniform (-1) 1 r' = s * uniform (-1) 1 r := by
  rcases hs with h | h <;> rw [h]
  · exact ⟨r, h0, h1, (one_mul _).symm⟩
  · exact ⟨1 - r, by linarith, by linarith, by unfold uniform; ring⟩

/-- What the draws of `RandomMover3D` may be. -/
def fair : AnyMover → Prop
  | .vertical _ _ r => ∀ i, 0 ≤ (r i).h1 ∧ (r i).h1 ≤ 1 ∧ 0 ≤ (r i).h2 ∧ (r i).h2 ≤ 1
  | _ => True

/-- Every mover has a mirrored one, drawing numbers that it might draw. -/
theorem C363_exists (m : AnyMover) (hf : fair m) : ∃ m', Mirrored M m m' ∧ fair m' := by
  have hU : ∀ (adds : Bool) (unc : Nat → Option WUnc), ∃ unc' : Nat → Option WUnc, ∀ i, UncMirrored M adds (unc i) (unc' i) := by
    intro adds unc
    refine ⟨fun i => (unc i).map fun w => { w with s := M.sense * w.s, r1 := if adds then M.σ * w.r1 else w.r1, r2 := if adds then M.τ * w.r2 else w.r2 }, fun i => ?_⟩
    show UncMirrored M adds (unc i) ((unc i).map _)
    cases unc i with
    | none => exact .none
    | some w => exact .some w _ rfl rfl rfl rfl rfl rfl rfl
  cases m with
  | simple vel scale active on uncertain r => exact ⟨_, .simple .., trivial⟩
  | current active scale dm unc =>
    exact ⟨_, .current _ _ _ (fun q => M.arrow (dm (M.source q))) _ _ (fun p => by rw [source_place]) (fun _ => rfl), trivial⟩
  | wind active scale dm unc =>
    obtain ⟨unc', hu⟩ := hU false unc
    exact ⟨_, .wind _ _ _ (fun q => M.arrow (dm (M.source q))) _ unc' (fun p => by rw [source_place]) hu, trivial⟩
  | pointWind active uv unc =>
    obtain ⟨unc', hu⟩ := hU true unc
    exact ⟨_, .pointWind active uv.1 uv.2 unc unc' hu, trivial⟩
  | random active coef factor r1 r2 => exact ⟨_, .random .., trivial⟩
  | iceRandom active coef factor r1 r2 ice =>
    refine ⟨_, .iceRandom _ _ _ _ _ _ (fun e => ice { e with pos := M.source e.pos }) (fun e => ?_), trivial⟩
    simp only [Mirror.le, source_place]
  | rise active => exact ⟨_, .rise _, trivial⟩
  | vertical p active r =>
    choose a ha0 ha1 ha using fun i => mirrored_draw M.σ (r i).h1 M.hσ (hf i).1 (hf i).2.1
    choose b hb0 hb1 hb using fun i => mirrored_draw M.τ (r i).h2 M.hτ (hf i).2.2.1 (hf i).2.2.2
    exact ⟨_, .vertical p active r (fun i => { r i with h1 := a i, h2 := b i }) ha hb (fun _ => ⟨rfl, rfl, rfl, rfl⟩),
      fun i => ⟨ha0 i, ha1 i, hb0 i, hb1 i⟩⟩

end

/-- East and west change places; a current to the east with cross-current uncertainty, a wind that is turned to the left, and a
`RandomMover`. -/
noncomputable def eastWest : Mirror := ⟨-1, 1, 20, .inr rfl, .inl rfl⟩

noncomputable example :
    List.Forall₂ (Mirrored eastWest)
      [.current true 1 (fun _ => (1, 2, 0)) (fun _ => some (1 / 10, 1 / 5)),
        .wind true 1 (fun p => (p.1, 0, 0)) (fun _ => some ⟨1, 1, 1, 1, 1 / 2, 0, 0⟩),
        .random true 100 1 (fun _ => 1 / 2) (fun _ => 1 / 3)]
      [.current true 1 (fun _ => (-1, 2, 0)) (fun _ => some (1 / 10, -1 / 5)),
        .wind true 1 (fun p => (p.1 - 20, 0, 0)) (fun _ => some ⟨1, 1, 1, 1, -1 / 2, 0, 0⟩),
        .random true 100 1 (fun _ => -1 * (1 / 2)) (fun _ => 1 * (1 / 3))] := by
  refine .cons ?_ (.cons ?_ (.cons ?_ .nil))
  · exact .current _ _ _ _ _ _ (fun p => by simp [Mirror.arrow, eastWest]) (fun i => by simp [Mirror.sense, eastWest]; norm_num)
  · exact .wind _ _ _ _ _ _ (fun p => by simp [Mirror.arrow, Mirror.place, eastWest])
      (fun i => .some _ _ rfl rfl rfl rfl (by simp [Mirror.sense, eastWest]; norm_num) rfl rfl)
  · exact .random _ _ _ _ _

end Verif.Mover
