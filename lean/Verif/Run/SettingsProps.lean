import Verif.Run.SettingsModel
import Mathlib.Tactic.NormNum

/-!
# C349: a model that is loaded has the settings it was saved with
-/
namespace Verif.Run.Settings
open Verif.Py Verif.Clock

/-- the settings that a user sees and can set, without where the run is -/
def settings (m : Mod) : String × (Option Int × Int × Int × Bool × Bool) × Int × Bool × String × Bool × List Int × Bool × Int :=
  (m.name, (m.clock.ts, m.clock.start, m.clock.dur, m.clock.backward, m.clock.uncertain), m.substeps, m.cache, m.mode, m.defaults, m.location, m.activated, m.tz)

/-- The full statement: whatever model can be made and whatever is done to its clock and its switches afterwards. -/
def C349_claim : Prop :=
  ∀ m : Mod, m.mode ∈ modes → 1 ≤ m.substeps → m.clock.ts ≠ some 0 → ∃ m', load (save m) = .ok m' ∧ settings m' = settings m

/-- The sign of step and duration of a run backwards. -/
def Signs (c : State) : Prop := c.backward = true → c.dur ≤ 0 ∧ ∀ t, c.ts = some t → t ≤ 0

/-- **C349**, for models with one weathering substep, `make_default_refs` on, a step of whole seconds that is not 0, and signs that agree with the direction of the run: the
model that is loaded has all the settings of the model that was saved, has the right number of steps, and stands at the beginning of a run. Missing: the other models, for which it does not hold. -/
theorem C349_settings_partial (m : Mod) (hm : m.mode ∈ modes) (hs : m.substeps = 1) (hd : m.defaults = true) (t : Int) (ht : m.clock.ts = some (t * 1000000)) (h0 : t ≠ 0)
    (hsg : Signs m.clock) :
    ∃ m', load (save m) = .ok m' ∧ settings m' = settings m ∧
      m'.clock = { m.clock with n := -1, mt := m.clock.start, num := some (1 + Int.fdiv m.clock.dur (t * 1000000)), dirty := false } := by
  have hq : Int.tdiv (t * 1000000) (1000000 : Nat) * 1000000 = t * 1000000 := by
    rw [show ((1000000 : Nat) : Int) = 1000000 from rfl, Int.mul_tdiv_cancel _ (by norm_num)]
  have h1 : t * 1000000 ≠ 0 := by omega
  have hc : init m.clock.start m.clock.dur (some (.number (t * 1000000) 1000000)) m.clock.backward m.clock.uncertain =
      .ok { m.clock with n := -1, mt := m.clock.start, num := some (1 + Int.fdiv m.clock.dur (t * 1000000)), dirty := false } := by
    revert ht hsg
    generalize m.clock = c
    obtain ⟨st, ts, du, bw, n, mt, nu, un, di⟩ := c
    intro ht hsg
    simp only at ht
    subst ht
    cases bw with
    | false => simp [init, setTimeStep, resetNum, StepArg.us, h1, rewind]
    | true =>
      have hh := hsg rfl
      have hdu : ¬ 0 < du := not_lt.mpr hh.1
      have htt : ¬ 0 < t * 1000000 := not_lt.mpr (hh.2 _ rfl)
      simp only [init, setTimeStep, resetNum, StepArg.us, hq, h1, rewind, if_false, if_true, hdu, htt]
  refine ⟨⟨m.name, { m.clock with n := -1, mt := m.clock.start, num := some (1 + Int.fdiv m.clock.dur (t * 1000000)), dirty := false }, 1, m.cache, m.mode, true,
    m.location, m.activated, m.tz⟩, ?_, ?_, rfl⟩
  · simp only [load, save, make, ht, Option.map_some, hc, hm, if_true]
    norm_num
  · simp only [settings, hs, hd]

/-- a model with everything at its default -/
def usual : Mod := ⟨"Model", ⟨0, some (900 * 1000000), 86400 * 1000000, false, -1, 0, some 97, false, false⟩, 1, false, "gnome", true, [], false, 0⟩

/-- **C349**, what is missing: the number of weathering substeps is lost, `make_default_refs` is always on, a step with fractions of a second is cut, and a step that is left open becomes
15 minutes. -/
theorem C349_counterexample : ¬ C349_claim ∧
    (∃ m', load (save { usual with substeps := 4 }) = .ok m' ∧ m'.substeps = 1) ∧
    (∃ m', load (save { usual with defaults := false }) = .ok m' ∧ m'.defaults = true) ∧
    (∃ m', load (save { usual with clock := { usual.clock with ts := some 1500000 } }) = .ok m' ∧ m'.clock.ts = some 1000000) ∧
    (∃ m', load (save { usual with clock := { usual.clock with ts := none } }) = .ok m' ∧ m'.clock.ts = some 900000000) := by
  refine ⟨?_, ⟨_, rfl, rfl⟩, ⟨_, rfl, rfl⟩, ⟨_, rfl, rfl⟩, ⟨_, rfl, rfl⟩⟩
  intro h
  obtain ⟨m', h1, h2⟩ := h { usual with substeps := 4 } (by decide) (by decide) (by decide)
  have h3 : load (save { usual with substeps := 4 }) = .ok usual := by decide +kernel
  rw [h3] at h1
  cases h1
  exact absurd (congrArg (fun p => p.2.2.1) h2) (by decide)

/-- A model that is built with `make_default_refs=False` has it on. -/
theorem C349_counterexample_made : ∃ a m, a.defaults = false ∧ make a = .ok m ∧ m.defaults = true :=
  ⟨⟨"Model", some (.delta 900000000), 0, 86400000000, 1, false, false, none, false, [], false, false, 0⟩, usual, rfl, by decide +kernel, rfl⟩

/-- What one may think of a model that was saved in the middle of a run: that it goes on where it was. -/
def C349_claim_goes_on : Prop :=
  ∀ m m' : Mod, load (save m) = .ok m' → m'.clock.n = m.clock.n

/-- It does not: it begins anew. -/
theorem C349_counterexample_goes_on : ¬ C349_claim_goes_on := by
  intro h
  have := h { usual with clock := { usual.clock with n := 5, mt := 4500000000, dirty := true } } usual (by decide +kernel)
  revert this
  decide

/-- **C349**: whatever model was saved, in the middle of a run or not, the one that is loaded stands at the beginning of a run, at its start time and without elements. -/
theorem C349_begins (m m' : Mod) (h : load (save m) = .ok m') : m'.clock.n = -1 ∧ m'.clock.mt = m'.clock.start ∧ m'.clock.start = m.clock.start ∧ m'.clock.dirty = false := by
  have key : ∀ a c, init m.clock.start m.clock.dur (some a) m.clock.backward m.clock.uncertain = .ok c →
      c.n = -1 ∧ c.mt = c.start ∧ c.start = m.clock.start ∧ c.dirty = false := by
    intro a c hc
    have hdel : ∀ x, (StepArg.delta x).us = x := fun _ => rfl
    unfold init at hc
    simp only [setTimeStep, resetNum, rewind] at hc
    by_cases h0 : a.us = 0
    · simp [h0] at hc
    · simp only [h0, if_false] at hc
      cases hb : m.clock.backward with
      | false =>
        simp only [hb, Bool.false_eq_true, if_false] at hc
        cases hc
        exact ⟨rfl, rfl, rfl, rfl⟩
      | true =>
        simp only [hb, if_true] at hc
        by_cases hp : 0 < a.us
        · have hn : -a.us ≠ 0 := by omega
          simp only [hp, if_true, hdel, hn, if_false] at hc
          cases hc
          exact ⟨rfl, rfl, rfl, rfl⟩
        · simp only [hp, if_false] at hc
          cases hc
          exact ⟨rfl, rfl, rfl, rfl⟩
  unfold load make at h
  simp only [save] at h
  norm_num at h
  split at h
  · split at h
    · cases h
    · rename_i c hc
      cases h
      exact key _ c hc
  · cases h

/-- A run backwards in steps of 15 minutes that was saved is loaded as one. -/
example : load (save { usual with clock := ⟨0, some (-900 * 1000000), -86400 * 1000000, true, 7, -6300000000, some 97, false, true⟩ }) =
    .ok { usual with clock := ⟨0, some (-900 * 1000000), -86400 * 1000000, true, -1, 0, some 97, false, false⟩ } := by decide +kernel

/-- **C349**: a model that is made has at least one weathering substep, one of the modes that there are, "gnome" if none is given, and what was given. -/
theorem C349_made (a : Args) (m : Mod) (h : make a = .ok m) : 1 ≤ a.substeps ∧ m.substeps = a.substeps ∧ m.mode ∈ modes ∧ m.mode = a.mode.getD "gnome" ∧
    m.name = a.name ∧ m.cache = a.cache ∧ m.location = a.location ∧ m.activated = a.activated ∧ m.tz = a.tz := by
  unfold make at h
  split at h
  · cases h
  · rename_i hs
    cases hm : a.mode with
    | none =>
      rw [hm] at h
      simp only at h
      cases hi : init a.start a.dur a.step a.backward a.uncertain with
      | error e => rw [hi] at h; cases h
      | ok c => rw [hi] at h; cases h; exact ⟨by omega, rfl, List.mem_cons_self, rfl, rfl, rfl, rfl, rfl, rfl⟩
    | some x =>
      rw [hm] at h
      simp only at h
      split at h
      · rename_i hx
        cases hi : init a.start a.dur a.step a.backward a.uncertain with
        | error e => rw [hi] at h; cases h
        | ok c => rw [hi] at h; cases h; exact ⟨by omega, rfl, hx, rfl, rfl, rfl, rfl, rfl, rfl⟩
      · cases h

example : ∃ m, make ⟨"m", some (.delta 900000000), 0, 86400000000, 3, false, true, none, true, [], false, false, 0⟩ = .ok m ∧ m.mode = "gnome" ∧ m.substeps = 3 :=
  ⟨_, rfl, rfl, rfl⟩

end Verif.Run.Settings
