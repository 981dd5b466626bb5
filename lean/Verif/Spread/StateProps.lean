import Verif.Spread.StateModel
import Mathlib.Tactic.NormNum
import Mathlib.Tactic.Linarith

/-!
# C371: spreading works with the oil and the water of the run
-/
namespace Verif.Spread.State

/-- What a run has to work with: the buoyancy of its own oil in its own water, and the thickness at which its own oil stops. -/
noncomputable def own (w : World) : ℝ × ℝ := ((w.rhoWater - w.rhoOil) / w.rhoWater, thicknessLimit w.visc)

/-- **C371**, as one would expect: after any history, a run with oil that floats has no error and each step of spreading works with its own oil and water. -/
def C371_claim : Prop :=
  ∀ (h : List (Bool × World × List Op)) (b : Bool) (w : World) (ops : List Op), w.rhoOil ≤ w.rhoWater →
    (run w ops { history h fresh with on := b }).failed = false ∧ ∀ p ∈ (run w ops { history h fresh with on := b }).used, p = own w

def light : World := ⟨1000, 800, 1, true, false⟩
def heavy : World := ⟨1000, 900, 1, true, false⟩

/-- Spreading that is off when the run begins and is switched on later finds neither a thickness nor a buoyancy. -/
theorem C371_counterexample_late : (run light [.release, .switch true, .weather] { fresh with on := false }).failed = true := by
  simp [run, start, fresh, light, step, initData, weather]

/-- Even if it was on when the run began: switched off for the first release and on after the last one. -/
theorem C371_counterexample_release : (run light [.switch false, .release, .switch true, .weather] fresh).failed = true := by
  simp [run, start, fresh, light, step, initData, weather, prepare]

theorem buoyancy_eq (w : World) (h : w.rhoOil ≤ w.rhoWater) : buoyancy w.rhoWater w.rhoOil = some (own w).1 := by
  rw [buoyancy, if_neg (not_lt.2 h)]; rfl

/-- In a second run, with spreading off at first, the numbers are those of the oil of the first run. -/
theorem C371_counterexample_stale : ∃ s, s = history [(true, light, [.release, .weather])] fresh ∧
    (run heavy [.switch true, .release, .weather] { s with on := false }).failed = false ∧
    (run heavy [.switch true, .release, .weather] { s with on := false }).used = [own light] ∧ own light ≠ own heavy := by
  have hl := buoyancy_eq light (by norm_num [light])
  have h1 : (history [(true, light, [.release, .weather])] fresh).rb = some (own light).1 := by
    simp [history, run, start, fresh, step, initData, weather, prepare, hl]
    simp [light]
  have h2 : (history [(true, light, [.release, .weather])] fresh).lim = some (own light).2 := by
    simp [history, run, start, fresh, step, initData, weather, prepare, hl]
    simp [light, own]
  refine ⟨_, rfl, ?_, ?_, ?_⟩
  · simp [run, start, step, initData, weather, heavy, h1, h2]
  · simp [run, start, step, initData, weather, heavy, h1, h2]
  · intro h
    have := congrArg Prod.fst h
    norm_num [own, light, heavy] at this

theorem C371_counterexample : ¬ C371_claim := by
  intro h
  have := (h [] false light [.release, .switch true, .weather] (by norm_num [light])).1
  rw [show history [] fresh = fresh from rfl, C371_counterexample_late] at this
  exact Bool.noConfusion this

/-! ### Where it holds -/

/-- Nothing wrong so far: prepared, and what is remembered is the own. -/
structure Fine (w : World) (s : St) : Prop where
  failed : s.failed = false
  lim : w.weathers = true → s.lim = some (own w).2
  rb : ∀ b, s.rb = some b → b = (own w).1
  used : ∀ p ∈ s.used, p = own w

theorem fine_start (w : World) (s : St) (h : s.on = true ∨ w.wanted = true) : Fine w (start w s) ∧ (start w s).on = true ∧ (start w s).any = false := by
  have hon : (s.on || w.wanted) = true := by rcases h with h | h <;> simp [h]
  simp only [start, hon, if_true, prepare]
  exact ⟨⟨rfl, fun hw => by simp [hw, own], by simp, by simp⟩, trivial, trivial⟩

theorem fine_init (w : World) (hf : w.rhoOil ≤ w.rhoWater) (s : St) (h : Fine w s) :
    Fine w (initData w s) ∧ (s.on = true → w.weathers = true → (initData w s).rb.isSome) ∧ (initData w s).any = s.any ∧ (initData w s).on = s.on ∧
      (s.rb.isSome → (initData w s).rb.isSome) := by
  unfold initData
  split_ifs with hx
  · refine ⟨h, fun h1 h2 => ?_, rfl, rfl, id⟩
    simp [h1, h2] at hx
  · cases hr : s.rb with
    | some b => exact ⟨h, fun _ _ => by simp [hr], rfl, rfl, fun _ => by simp [hr]⟩
    | none =>
      rw [buoyancy_eq w hf]
      exact ⟨⟨h.failed, h.lim, fun b hb => (Option.some.inj hb).symm, h.used⟩, fun _ _ => rfl, rfl, rfl, fun _ => rfl⟩

theorem fine_weather (w : World) (s : St) (h : Fine w s) (hr : s.any = true → w.weathers = true → s.rb.isSome) :
    Fine w (weather w s) ∧ (weather w s).any = s.any ∧ (weather w s).rb = s.rb := by
  by_cases hx : (!s.on || !w.weathers || !s.any) = true
  · have e : weather w s = s := by unfold weather; rw [if_pos hx]
    rw [e]
    exact ⟨h, rfl, rfl⟩
  · have hw : w.weathers = true := by revert hx; cases w.weathers <;> simp
    have ha : s.any = true := by revert hx; cases s.any <;> simp
    obtain ⟨b, hb⟩ := Option.isSome_iff_exists.1 (hr ha hw)
    have hl := h.lim hw
    have e : weather w s = { s with used := s.used ++ [(b, (own w).2)] } := by unfold weather; rw [if_neg hx, hb, hl]
    rw [e]
    refine ⟨⟨h.failed, h.lim, h.rb, ?_⟩, rfl, rfl⟩
    intro p hp
    rw [List.mem_append, List.mem_singleton] at hp
    rcases hp with hp | hp
    · exact h.used p hp
    · rw [hp, h.rb b hb]

/-- After the first release with spreading on, anything may follow. -/
theorem fine_after (w : World) (hf : w.rhoOil ≤ w.rhoWater) (ops : List Op) (s : St) (h : Fine w s) (hr : w.weathers = true → s.rb.isSome) :
    Fine w (ops.foldl (step w) s) := by
  induction ops generalizing s with
  | nil => exact h
  | cons op r ih =>
    rw [List.foldl_cons]
    unfold step
    rw [if_neg (by simp [h.failed])]
    cases op with
    | switch b => exact ih _ ⟨h.failed, h.lim, h.rb, h.used⟩ hr
    | release =>
      have h' : Fine w { s with any := true } := ⟨h.failed, h.lim, h.rb, h.used⟩
      obtain ⟨h1, -, -, -, h5⟩ := fine_init w hf _ h'
      exact ih _ h1 fun hw => h5 (hr hw)
    | weather =>
      obtain ⟨h1, -, h3⟩ := fine_weather w s h fun _ => hr
      exact ih _ h1 fun hw => by rw [h3]; exact hr hw

/-- Before it nothing is spread. -/
theorem fine_before (w : World) (ops : List Op) (hn : .release ∉ ops) (s : St) (h : Fine w s) (ha : s.any = false) :
    Fine w (ops.foldl (step w) s) ∧ (ops.foldl (step w) s).any = false ∧ (ops.foldl (step w) s).used = s.used := by
  induction ops generalizing s with
  | nil => exact ⟨h, ha, rfl⟩
  | cons op r ih =>
    rw [List.mem_cons, not_or] at hn
    rw [List.foldl_cons]
    cases op with
    | switch b =>
      have e : step w s (.switch b) = { s with on := b } := by unfold step; rw [if_neg (by simp [h.failed])]
      rw [e]
      exact ih hn.2 _ ⟨h.failed, h.lim, h.rb, h.used⟩ ha
    | release => exact absurd rfl hn.1
    | weather =>
      have e : step w s .weather = s := by unfold step; rw [if_neg (by simp [h.failed])]; simp [weather, ha]
      rw [e]
      exact ih hn.2 s h ha

/-- **C371** for runs that begin with spreading on (or with a weatherer that wants areas), and that have it on at the first release: no error, and every step works with the oil and the water of this run, whatever was run before, and however
spreading is switched later. Missing: runs in which it is off then. -/
theorem C371_partial (h : List (Bool × World × List Op)) (b : Bool) (w : World) (pre post : List Op) (hf : w.rhoOil ≤ w.rhoWater)
    (hb : b = true ∨ w.wanted = true) (hn : .release ∉ pre) (hon : (run w pre { history h fresh with on := b }).on = true) :
    (run w (pre ++ .release :: post) { history h fresh with on := b }).failed = false ∧
      ∀ p ∈ (run w (pre ++ .release :: post) { history h fresh with on := b }).used, p = own w := by
  obtain ⟨h1, -, h3⟩ := fine_start w { history h fresh with on := b } hb
  obtain ⟨h4, h5, -⟩ := fine_before w pre hn _ h1 h3
  have key : Fine w (run w (pre ++ .release :: post) { history h fresh with on := b }) := by
    unfold run
    rw [List.foldl_append, List.foldl_cons]
    unfold run at hon
    generalize pre.foldl (step w) (start w { history h fresh with on := b }) = s at *
    have e : step w s .release = initData w { s with any := true } := by unfold step; rw [if_neg (by simp [h4.failed])]
    rw [e]
    have h' : Fine w { s with any := true } := ⟨h4.failed, h4.lim, h4.rb, h4.used⟩
    obtain ⟨g1, g2, -, -, -⟩ := fine_init w hf _ h'
    exact fine_after w hf post _ g1 (g2 hon)
  exact ⟨key.failed, key.used⟩

/-- A run without a release spreads nothing and has no error. -/
theorem C371_none (s : St) (w : World) (ops : List Op) (hb : s.on = true ∨ w.wanted = true) (hn : .release ∉ ops) :
    (run w ops s).failed = false ∧ (run w ops s).used = [] := by
  obtain ⟨h1, -, h3⟩ := fine_start w s hb
  obtain ⟨h4, -, h6⟩ := fine_before w ops hn _ h1 h3
  refine ⟨h4.failed, h6.trans ?_⟩
  unfold start prepare
  simp only
  split_ifs <;> rfl

/-- Each weathering with spreading on and oil there is one step of spreading: none is left out. -/
theorem C371_steps (s : St) (w : World) (n : Nat) (hf : w.rhoOil ≤ w.rhoWater) (hw : w.weathers = true) (hb : s.on = true ∨ w.wanted = true) :
    (run w (.release :: List.replicate n .weather) s).used = List.replicate n (own w) := by
  obtain ⟨h1, h2, -⟩ := fine_start w s hb
  have hu : (start w s).used = [] := by unfold start prepare; simp only; split_ifs <;> rfl
  have e : step w (start w s) .release = initData w { start w s with any := true } := by unfold step; rw [if_neg (by simp [h1.failed])]
  have h' : Fine w { start w s with any := true } := ⟨h1.failed, h1.lim, h1.rb, h1.used⟩
  obtain ⟨g1, g2, g3, g4, -⟩ := fine_init w hf _ h'
  have gu : (initData w { start w s with any := true }).used = [] := by
    unfold initData
    split_ifs
    · exact hu
    · split
      · exact hu
      · split
        · exact hu
        · exact hu
  unfold run
  rw [List.foldl_cons, e]
  have key : ∀ (n : Nat) (t : St), Fine w t → t.on = true → t.any = true → t.rb.isSome →
      ((List.replicate n Op.weather).foldl (step w) t).used = t.used ++ List.replicate n (own w) := by
    intro n
    induction n with
    | zero => intro t _ _ _ _; simp
    | succ n ih =>
      intro t ht ho ha hr
      obtain ⟨b, hb⟩ := Option.isSome_iff_exists.1 hr
      have hl := ht.lim hw
      have hs : step w t .weather = { t with used := t.used ++ [own w] } := by
        unfold step weather
        rw [if_neg (by simp [ht.failed])]
        simp only [ho, hw, ha, hb, hl, Bool.not_true, Bool.or_self, Bool.false_eq_true, if_false]
        rw [ht.rb b hb]
      have hfine : Fine w { t with used := t.used ++ [own w] } := by
        refine ⟨ht.failed, ht.lim, ht.rb, ?_⟩
        intro p hp
        rw [List.mem_append, List.mem_singleton] at hp
        exact hp.elim (ht.used p) id
      have h0 := ih { t with used := t.used ++ [own w] } hfine ho ha hr
      rw [List.replicate_succ, List.foldl_cons, hs, h0]
      simp [List.replicate_succ]
  rw [key n _ g1 (by rw [g4]; exact h2) (by rw [g3]) (g2 h2 hw), gu, List.nil_append]

/-- Oil that sinks is refused at the first release. -/
theorem C371_sinks (s : St) (w : World) (ops : List Op) (hf : w.rhoWater < w.rhoOil) (hw : w.weathers = true) (hb : s.on = true ∨ w.wanted = true) :
    (run w (.release :: ops) s).failed = true := by
  obtain ⟨h1, h2, -⟩ := fine_start w s hb
  have hrb : (start w s).rb = none := by
    have hon : (s.on || w.wanted) = true := by rcases hb with h | h <;> simp [h]
    simp only [start, hon, if_true, prepare]
  have e : (step w (start w s) .release).failed = true := by
    unfold step initData
    rw [if_neg (by simp [h1.failed])]
    simp only [h2, hw, hrb, buoyancy, hf, if_true, Bool.not_true, Bool.or_self, Bool.false_eq_true, if_false]
  unfold run
  rw [List.foldl_cons]
  generalize step w (start w s) .release = t at e
  induction ops generalizing t with
  | nil => exact e
  | cons op r ih =>
    rw [List.foldl_cons]
    refine ih _ ?_
    unfold step
    rw [if_pos e]
    exact e

example : (run heavy [.weather, .switch false, .switch true, .release, .weather, .switch false, .weather, .switch true, .weather]
    { history [(true, light, [.release, .weather])] fresh with on := true }).failed = false :=
  (C371_partial [(true, light, [.release, .weather])] true heavy [.weather, .switch false, .switch true] _ (by norm_num [heavy]) (.inl rfl)
    (by decide) (by simp [run, start, heavy, step, weather, prepare])).1

/-- While spreading is off, however many runs there are, it remembers what it worked with when it was on. -/
theorem C371_kept (h : List (Bool × World × List Op)) (hh : ∀ x ∈ h, x.1 = false ∧ x.2.1.wanted = false ∧ ∀ op ∈ x.2.2, op ≠ .switch true)
    (s : St) : (history h s).rb = s.rb ∧ (history h s).lim = s.lim := by
  have keep : ∀ (w : World) (ops : List Op) (s : St), (∀ op ∈ ops, op ≠ .switch true) → s.on = false →
      (ops.foldl (step w) s).rb = s.rb ∧ (ops.foldl (step w) s).lim = s.lim := by
    intro w ops
    induction ops with
    | nil => intro s _ _; exact ⟨rfl, rfl⟩
    | cons op r ih =>
      intro s ho hs
      have key : (step w s op).on = false ∧ (step w s op).rb = s.rb ∧ (step w s op).lim = s.lim := by
        have := ho op (by simp)
        cases hf : s.failed <;> cases op <;> simp_all [step, initData, weather]
      obtain ⟨k1, k2, k3⟩ := key
      obtain ⟨i1, i2⟩ := ih _ (fun op h => ho op (by simp [h])) k1
      exact ⟨i1.trans k2, i2.trans k3⟩
  induction h generalizing s with
  | nil => exact ⟨rfl, rfl⟩
  | cons x r ih =>
    obtain ⟨b, w, ops⟩ := x
    obtain ⟨h1, h2, h3⟩ := hh _ List.mem_cons_self
    obtain ⟨i1, i2⟩ := ih (fun y hy => hh y (by simp [hy])) (run w ops { s with on := b })
    simp only at h1 h2 h3
    have e : (start w { s with on := b }).on = false ∧ (start w { s with on := b }).rb = s.rb ∧ (start w { s with on := b }).lim = s.lim := by
      simp [start, h1, h2]
    obtain ⟨k1, k2⟩ := keep w ops _ h3 e.1
    exact ⟨i1.trans (k1.trans e.2.1), i2.trans (k2.trans e.2.2)⟩

end Verif.Spread.State
