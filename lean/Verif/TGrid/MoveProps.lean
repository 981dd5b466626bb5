import Verif.TGrid.MoveModel
import Mathlib.Tactic.Linarith
import Mathlib.Tactic.FieldSimp
import Mathlib.Tactic.Ring
import Mathlib.Tactic.NormNum
/-!
# C134: the numerical methods agree where they must
-/
namespace Verif.TGrid

/-- the move, in degrees, of a distance in metres east and north, from latitude `lat` -/
def Metres (e : Env) (lat : ℚ) (x y : ℚ) (d : Vec) : Prop := d.1 * (e.m * e.ratio lat) = x ∧ d.2 * e.m = y

/-- a current that is the same everywhere and always -/
def Uniform (e : Env) (w : Vec) : Prop := ∀ t p, e.vel t p = w

/-- The claim: in such a current every method moves an element by the velocity times the time step. -/
def C134_claim : Prop := ∀ (e : Env) (w : Vec), Uniform e w → e.m ≠ 0 → (∀ l, e.ratio l ≠ 0) → ∀ (k : Method) (t : Int) (dt : Nat) (p : Vec),
  Metres e p.2 (w.1 * dt) (w.2 * dt) (move e k false t dt p)

/-- **C134** for the Euler and fourth order methods, and eastward for the second order one. -/
theorem C134_partial (e : Env) (w : Vec) (h : Uniform e w) (hm : e.m ≠ 0) (hr : ∀ l, e.ratio l ≠ 0) (k : Method) (t : Int) (dt : Nat)
    (p : Vec) : (k ≠ .rk2 → Metres e p.2 (w.1 * dt) (w.2 * dt) (move e k false t dt p)) ∧
    (move e k false t dt p).1 * (e.m * e.ratio p.2) = w.1 * dt := by
  have hr' := hr p.2
  cases k with
  | euler =>
    simp only [move, euler, h _ _, Metres, east, north]
    refine ⟨fun _ => ⟨?_, ?_⟩, ?_⟩ <;> simp <;> field_simp
  | rk2 =>
    refine ⟨fun hh => absurd rfl hh, ?_⟩
    simp only [move, rk2, h _ _, east]
    field_simp
    ring
  | rk4 =>
    simp only [move, rk4, h _ _, Metres, east, north, add, scale]
    refine ⟨fun _ => ⟨?_, ?_⟩, ?_⟩ <;> field_simp <;> ring

/-- the second order method moves north half as far as it should -/
theorem C134_counterexample : ¬ C134_claim := by
  intro h
  have := (h ⟨fun _ _ => (1, 1), 1, fun _ => 1, id⟩ (1, 1) (fun _ _ => rfl) (by norm_num) (fun _ => by norm_num) .rk2 0 2 (0, 0)).2
  norm_num [move, rk2, north] at this

/-- always by exactly that much -/
theorem C134_rk2_north (e : Env) (w : Vec) (h : Uniform e w) (hm : e.m ≠ 0) (t : Int) (dt : Nat) (p : Vec) :
    (move e .rk2 false t dt p).2 * e.m = w.2 * dt / 2 := by
  simp only [move, rk2, h _ _, north]
  field_simp

/-- **C134**, the fourth order method over an even number of seconds in a current that is the same everywhere and changes linearly in
time: the move is that of the mean of the velocities at both ends of the step. -/
theorem C134_rk4_linear (e : Env) (a b : Vec) (h : ∀ t p, e.vel t p = (a.1 + b.1 * t, a.2 + b.2 * t)) (hm : e.m ≠ 0)
    (hr : ∀ l, e.ratio l ≠ 0) (t : Int) (n : Nat) (p : Vec) (uncertain : Bool) :
    Metres e p.2 (((a.1 + b.1 * t) + (a.1 + b.1 * (t + (2 * n : Nat)))) / 2 * (2 * n : Nat))
      (((a.2 + b.2 * t) + (a.2 + b.2 * (t + (2 * n : Nat)))) / 2 * (2 * n : Nat)) (move e .rk4 uncertain t (2 * n) p) := by
  have hr' := hr p.2
  have e2 : 2 * n / 2 = n := by omega
  simp only [move, rk4, h _ _, Metres, east, north, add, scale, e2]
  push_cast
  refine ⟨?_, ?_⟩ <;> field_simp <;> ring

/-- over an odd number of seconds the middle of the step is rounded down -/
example : ¬ Metres ⟨fun t _ => (t, 0), 1, fun _ => 1, id⟩ 0 (3 / 2 * 3) 0 (move ⟨fun t _ => (t, 0), 1, fun _ => 1, id⟩ .rk4 false 0 3 (0, 0)) := by
  norm_num [Metres, move, rk4, east, north, add, scale]

/-- The claim on uncertainty: an uncertain element moves by its own velocity, whatever the method. -/
def C134_claim_uncertain : Prop := ∀ (e : Env) (w : Vec), Uniform e w → e.m ≠ 0 → (∀ l, e.ratio l ≠ 0) → ∀ (k : Method) (t : Int) (dt : Nat)
  (p : Vec), k ≠ .rk2 → Metres e p.2 ((e.unc w).1 * dt) ((e.unc w).2 * dt) (move e k true t dt p)

/-- **C134** on uncertainty: with the Euler method. -/
theorem C134_uncertain_partial (e : Env) (hm : e.m ≠ 0) (hr : ∀ l, e.ratio l ≠ 0) (t : Int) (dt : Nat) (p : Vec) :
    Metres e p.2 ((e.unc (e.vel t p)).1 * dt) ((e.unc (e.vel t p)).2 * dt) (move e .euler true t dt p) := by
  have hr' := hr p.2
  simp only [move, euler, Metres, east, north, if_true]
  constructor <;> field_simp

/-- the other methods move uncertain elements as those of the forecast -/
theorem C134_not_uncertain (e : Env) (k : Method) (hk : k ≠ .euler) (t : Int) (dt : Nat) (p : Vec) :
    move e k true t dt p = move e k false t dt p := by
  cases k <;> first | exact absurd rfl hk | rfl

theorem C134_counterexample_uncertain : ¬ C134_claim_uncertain := by
  intro h
  have := (h ⟨fun _ _ => (1, 1), 1, fun _ => 1, fun v => (2 * v.1, v.2)⟩ (1, 1) (fun _ _ => rfl) (by norm_num) (fun _ => by norm_num) .rk4 0 2
    (0, 0) (by decide)).1
  norm_num [move, rk4, east, north, add, scale] at this

/-- **C134**, in a current that grows linearly to the east or the north: the fourth order method gives the first five terms of the series of the exponential,
the exact move -/
theorem C134_rk4_order (e : Env) (a b r : ℚ) (h : ∀ t p, e.vel t p = (a * p.1, b * p.2)) (hm : e.m ≠ 0) (hr0 : r ≠ 0) (hr : ∀ l, e.ratio l = r) (t : Int)
    (dt : Nat) (p : Vec) (uncertain : Bool) (x y : ℚ) (hx : x = a * dt / (e.m * r)) (hy : y = b * dt / e.m) :
    move e .rk4 uncertain t dt p = (p.1 * (x + x ^ 2 / 2 + x ^ 3 / 6 + x ^ 4 / 24), p.2 * (y + y ^ 2 / 2 + y ^ 3 / 6 + y ^ 4 / 24)) := by
  have ex : ∀ q, east e p.2 (a * q) dt = x * q := by
    intro q; unfold east; rw [hr, hx]; field_simp
  have ey : ∀ q, north e (b * q) dt = y * q := by
    intro q; unfold north; rw [hy]; field_simp
  simp only [move, rk4, h _ _, add, scale, ex, ey, Prod.mk.injEq]
  constructor <;> ring

example : (move ⟨fun _ p => (p.1, p.2), 1, fun _ => 1, id⟩ .rk4 false 0 1 (24, 24)) = (41, 41) := by
  rw [C134_rk4_order _ 1 1 1 (fun _ p => by simp) (by norm_num) (by norm_num) (fun _ => rfl) 0 1 (24, 24) false 1 1 (by norm_num) (by norm_num)]
  norm_num

/-- a case -/
example : Metres ⟨fun _ _ => (2, 3), 1, fun _ => 1/2, id⟩ 60 (2 * 10) (3 * 10) (move ⟨fun _ _ => (2, 3), 1, fun _ => 1/2, id⟩ .rk4 false 5 10 (0, 60)) :=
  (C134_partial _ (2, 3) (fun _ _ => rfl) (by norm_num) (fun _ => by norm_num) .rk4 5 10 (0, 60)).1 (by decide)

end Verif.TGrid
