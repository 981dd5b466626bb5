import Verif.Mover.WindUncProps

/-!
# C356: with nothing uncertain, uncertain elements move as the forecast does

Movers with their settings of uncertainty, as in `MoveModel` and `WindUncModel`. Windages and the random numbers of diffusion are taken to be
the same for both.
-/

namespace Verif.Mover.ZeroUnc
open Verif.Mover

/-- `uncertain_diffusion` (`gnome/movers/py_wind_movers.py:190-192`, `lib_gnome/WindMover_c.cpp:471-477`): it depends on the step alone. -/
noncomputable def diffusion (dt : ℝ) : ℝ := √(6 * (1000000 / 10000) / |dt|)

/-- A mover with what decides its uncertainty, and the numbers that it draws for an element. -/
inductive Mv where
  /-- `SimpleMover(velocity, uncertainty_scale)` -/
  | simple (vel : V) (scale : ℝ) (active on : Bool) (r : V)
  /-- `CurrentMover(uncertain_along, uncertain_cross)` (`py_current_movers.py:295-296`) -/
  | current (active : Bool) (scale : ℝ) (dm : V → V) (along cross r1 r2 : ℝ)
  /-- `WindMover(uncertain_speed_scale, uncertain_angle_scale)` -/
  | wind (active : Bool) (scale : ℝ) (dm : V → V) (speed angle elapsed delay : ℝ) (d : Draw) (r1 r2 : ℝ)
  /-- `PointWindMover(uncertain_speed_scale, uncertain_angle_scale)` -/
  | point (active : Bool) (uv : ℝ × ℝ) (speed angle elapsed delay : ℝ) (d : Draw) (r1 r2 : ℝ)
  /-- `RandomMover(uncertain_factor)` -/
  | random (active : Bool) (coef factor r1 r2 : ℝ)

/-- The move of an element of the forecast. -/
noncomputable def forecast (dt : ℝ) (e : LE) : Mv → V
  | .simple vel scale active on r => simpleRow vel scale active on false dt r e
  | .current active scale dm _ _ _ _ => currentRow active scale dm none e
  | .wind active scale dm _ _ _ _ _ _ _ => windRow active scale dt dm none e
  | .point active uv _ _ _ _ _ _ _ => pointWindRow active dt uv none e
  | .random active coef _ r1 r2 => randomRow active coef 1 dt r1 r2 e

/-- The move of an uncertain element. -/
noncomputable def uncertain (dt : ℝ) (e : LE) : Mv → V
  | .simple vel scale active on r => simpleRow vel scale active on true dt r e
  | .current active scale dm along cross r1 r2 => currentRow active scale dm (some (uniform (-along) along r1, uniform (-cross) cross r2)) e
  | .wind active scale dm speed angle elapsed delay d r1 r2 =>
    windRow active scale dt dm (some (rowAt speed angle elapsed delay (diffusion dt) r1 r2 d)) e
  | .point active uv speed angle elapsed delay d r1 r2 =>
    pointWindRow active dt uv (some (rowAt speed angle elapsed delay (diffusion dt) r1 r2 d)) e
  | .random active coef factor r1 r2 => randomRow active coef factor dt r1 r2 e

/-- Nothing is uncertain: the settings of the user are all "none". -/
def Nothing : Mv → Prop
  | .simple _ scale _ _ _ => scale = 0
  | .current _ _ _ along cross _ _ => along = 0 ∧ cross = 0
  | .wind _ _ _ speed angle _ _ _ _ _ => speed = 0 ∧ angle = 0
  | .point _ _ speed angle _ _ _ _ _ => speed = 0 ∧ angle = 0
  | .random _ _ factor _ _ => factor = 1

/-- The wind is not light: one metre per second or more. -/
def Fresh (dt : ℝ) (e : LE) : Mv → Prop
  | .wind _ _ dm _ _ _ _ _ _ _ => 1 ≤ √((dm e.pos).1 / dt * ((dm e.pos).1 / dt) + (dm e.pos).2.1 / dt * ((dm e.pos).2.1 / dt))
  | .point _ uv _ _ _ _ _ _ _ => 1 ≤ √(uv.2 * uv.2 + uv.1 * uv.1)
  | _ => True

/-- The moves of a step add up (`model.py:996-1001`). -/
noncomputable def total (f : Mv → V) (ms : List Mv) : V := (ms.map f).sum

/-- The claim: with nothing uncertain an uncertain element is moved as one of the forecast. -/
def C356_claim : Prop :=
  ∀ (dt : ℝ) (e : LE) (ms : List Mv), 0 < dt → (∀ m ∈ ms, Nothing m) → total (uncertain dt e) ms = total (forecast dt e) ms

theorem sigma_zero (elapsed delay diff r1 r2 : ℝ) (d : Draw) : (rowAt 0 0 elapsed delay diff r1 r2 d).σ2 = 0 ∧
    (rowAt 0 0 elapsed delay diff r1 r2 d).σθ = 0 := by
  simp [rowAt, sigma2, sigmaTheta]

/-- Each mover. -/
theorem C356_one (dt : ℝ) (e : LE) (m : Mv) (hdt : 0 < dt) (h : Nothing m) (hf : Fresh dt e m) : uncertain dt e m = forecast dt e m := by
  cases m with
  | simple vel scale active on r =>
    cases (show scale = 0 from h)
    simp [uncertain, forecast, simpleRow]
  | current active scale dm along cross r1 r2 =>
    obtain ⟨rfl, rfl⟩ := (show along = 0 ∧ cross = 0 from h)
    simp [uncertain, forecast, currentRow, addCurrentUnc, uniform]
    rfl
  | wind active scale dm speed angle elapsed delay d r1 r2 =>
    obtain ⟨rfl, rfl⟩ := (show speed = 0 ∧ angle = 0 from h)
    have hs := sigma_zero elapsed delay (diffusion dt) r1 r2 d
    generalize hw : rowAt 0 0 elapsed delay (diffusion dt) r1 r2 d = w at hs
    simp only [Fresh] at hf
    have h1 : (dm e.pos).1 / dt * dt = (dm e.pos).1 := by field_simp
    have h2 : (dm e.pos).2.1 / dt * dt = (dm e.pos).2.1 := by field_simp
    have key := C100_same_partial w dt ((dm e.pos).1 / dt) ((dm e.pos).2.1 / dt) hdt hf
    have k2 := C100_none w ((dm e.pos).1 / dt) ((dm e.pos).2.1 / dt) hs.1 hs.2 (by rw [add_comm]; exact hf)
    rw [k2, h1, h2] at key
    have k3 : (addWindUnc w dt (dm e.pos)).1 = (dm e.pos).1 ∧ (addWindUnc w dt (dm e.pos)).2.1 = (dm e.pos).2.1 ∧
        (addWindUnc w dt (dm e.pos)).2.2 = (dm e.pos).2.2 := by
      have a1 := congrArg (fun v : V => v.1) key
      have a2 := congrArg (fun v : V => v.2.1) key
      refine ⟨?_, ?_, ?_⟩
      · simp only [addWindUnc] at a1 ⊢
        split <;> rename_i hc
        · exact absurd hc (not_lt.2 hf)
        · rw [if_neg hc] at a1; exact a1
      · simp only [addWindUnc] at a2 ⊢
        split <;> rename_i hc
        · exact absurd hc (not_lt.2 hf)
        · rw [if_neg hc] at a2; exact a2
      · simp only [addWindUnc]; split <;> rfl
    simp only [uncertain, forecast, windRow, hw, k3.1, k3.2.1, k3.2.2]
  | point active uv speed angle elapsed delay d r1 r2 =>
    obtain ⟨rfl, rfl⟩ := (show speed = 0 ∧ angle = 0 from h)
    have hs := sigma_zero elapsed delay (diffusion dt) r1 r2 d
    simp only [uncertain, forecast, pointWindRow, C100_none _ uv.1 uv.2 hs.1 hs.2 hf]
  | random active coef factor r1 r2 =>
    cases (show factor = 1 from h)
    rfl

/-- The part that holds: any number of movers of any kind, in wind of one metre per second or more. -/
theorem C356_partial (dt : ℝ) (e : LE) (ms : List Mv) (hdt : 0 < dt) (h : ∀ m ∈ ms, Nothing m) (hf : ∀ m ∈ ms, Fresh dt e m) :
    total (uncertain dt e) ms = total (forecast dt e) ms := by
  unfold total
  rw [List.map_congr_left fun m hm => C356_one dt e m hdt (h m hm) (hf m hm)]

/-- An element at the equator, at the surface. -/
noncomputable def buoy : LE := ⟨0, 2, 3 / 100, 0⟩

/-- In light wind the claim fails, in both wind movers: of a wind of half a metre per second the Python mover leaves nothing when its random
numbers are zero, and the compiled one adds a random wind of up to `√(600 / dt)`, whatever the scales of uncertainty. -/
theorem C356_counterexample : ¬ C356_claim := by
  intro h
  have := h 600 buoy [.point true (0, 0) 0 0 0 0 ⟨0, 1⟩ 1 0] (by norm_num) (by intro m hm; simp only [List.mem_singleton] at hm; subst hm; exact ⟨rfl, rfl⟩)
  have h1 := congrArg (fun v : V => v.1) this
  have hd : diffusion 600 = 1 := by
    unfold diffusion
    rw [abs_of_pos (by norm_num)]
    norm_num
  have hr : ratio buoy.pos = 1 := by simp [ratio, buoy]
  simp [total, uncertain, forecast, pointWindRow, inWater, buoy, addWindUncC, rowAt, hd] at h1
  simp only [buoy] at hr
  have hne : ratio 0 ≠ 0 := by rw [hr]; norm_num
  rcases h1 with h1 | h1
  · exact absurd h1 (by norm_num [metresPerDegree])
  · exact hne h1

theorem C356_counterexample_python : ¬ C356_claim := by
  intro h
  have := h 600 buoy [.wind true 1 (fun _ => (300, 0, 0)) 0 0 0 0 ⟨0, 1⟩ 0 0] (by norm_num)
    (by intro m hm; simp only [List.mem_singleton] at hm; subst hm; exact ⟨rfl, rfl⟩)
  have h1 := congrArg (fun v : V => v.1) this
  have hs : √((300 : ℝ) / 600 * (300 / 600)) < 1 := by
    rw [Real.sqrt_mul_self (by norm_num)]; norm_num
  simp [total, uncertain, forecast, windRow, inWater, buoy, addWindUnc, rowAt, hs, m2l] at h1

/-- The hypotheses can be met: a current, a wind of three metres per second and diffusion. -/
example : ∀ m ∈ ([.current true 1 (fun _ => (1, 1, 0)) 0 0 (1 / 2) (1 / 2), .point true (3, 0) 0 0 0 0 ⟨0, 1⟩ 1 0, .random true 100000 1 0 1] : List Mv),
    Nothing m ∧ Fresh 600 buoy m := by
  intro m hm
  simp only [List.mem_cons, List.not_mem_nil, or_false] at hm
  rcases hm with rfl | rfl | rfl
  · exact ⟨⟨rfl, rfl⟩, trivial⟩
  · refine ⟨⟨rfl, rfl⟩, ?_⟩
    simp only [Fresh, mul_zero, zero_add]
    rw [Real.sqrt_mul_self (by norm_num)]
    norm_num
  · exact ⟨rfl, trivial⟩

end Verif.Mover.ZeroUnc
