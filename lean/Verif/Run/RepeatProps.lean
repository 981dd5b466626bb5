import Verif.Run.RepeatModel
import Mathlib.Data.List.Forall2

/-!
# Runs can be repeated (C305), models in one process (C306), the forecast with and without uncertainty (C307)
-/

namespace Verif.Run.Repeat

variable {γ E D R : Type}

/-! ## What is asked for -/

/-- The settings of a mover: everything but what it keeps from step to step. -/
def Mover.settings : Mover γ E D R → (Bool × Cfg γ E D R) ⊕ (Bool → Nat → List E → Rand γ (List D))
  | .keeps on c _ => .inl (on, c)
  | .free f => .inr f

/-- Two models with the same settings, in whatever state their movers, elements, clock and generators are. -/
def SameSettings (m m' : Model γ E D R) : Prop :=
  m.world = m'.world ∧ m.movers.map Mover.settings = m'.movers.map Mover.settings ∧ m.unc.isSome = m'.unc.isSome

/-- A computation that uses no random numbers up. -/
def Quiet {α : Type} (f : Rand γ α) : Prop := ∀ g, (f g).2 = g

/-- A computation whose result does not depend on random numbers. -/
def Steady {α : Type} (f : Rand γ α) : Prop := ∀ g g', (f g).1 = (f g').1

/-- No part of a model uses random numbers. -/
def Mover.Quiet : Mover γ E D R → Prop
  | .keeps _ c _ => (∀ σ, Repeat.Quiet (c.row σ)) ∧ (∀ e, Repeat.Quiet (c.windage e)) ∧
      ∀ a b d rows k els, Repeat.Quiet (c.perturb a b d rows k els)
  | .free f => ∀ u k els, Repeat.Quiet (f u k els)

def Model.Quiet (m : Model γ E D R) : Prop :=
  (∀ u k h els, Repeat.Quiet (m.world.release u k h els)) ∧ (∀ k els, Repeat.Quiet (m.world.refloat k els)) ∧
    (∀ u k els, Repeat.Quiet (m.world.after u k els)) ∧ ∀ x ∈ m.movers, x.Quiet

/-- No part of a model lets the forecast depend on random numbers. -/
def Mover.Steady : Mover γ E D R → Prop
  | .keeps _ c _ => ∀ e, Repeat.Steady (c.windage e)
  | .free f => ∀ k els, Repeat.Steady (f false k els)

def Model.Steady (m : Model γ E D R) : Prop :=
  (∀ k h els, Repeat.Steady (m.world.release false k h els)) ∧ (∀ k els, Repeat.Steady (m.world.refloat k els)) ∧
    (∀ k els, Repeat.Steady (m.world.after false k els)) ∧ ∀ x ∈ m.movers, x.Steady

/-! ## Leftovers of a mover are not read -/

/-- Two states that cannot be told apart: the start of the model matters once the first step is over, the standard deviations
when there is a list. -/
structure Sim (c : Cfg γ E D R) (s s' : St R) : Prop where
  first : s.first = s'.first
  list : s.list = s'.list
  setAt : s.setAt = s'.setAt
  start : s.first = false → s.start = s'.start
  sigs : s.missing c = false → s.sig2 = s'.sig2 ∧ s.sigT = s'.sigT ∧ s.diff = s'.diff

theorem missing_eq {c : Cfg γ E D R} {s s' : St R} (h : s.list = s'.list) : s.missing c = s'.missing c := by
  unfold St.missing; rw [h]

theorem rows_eq {s s' : St R} (h : s.list = s'.list) : s.rows = s'.rows := by unfold St.rows; rw [h]

theorem begin_sim (c : Cfg γ E D R) (s s' : St R) : Sim c s.begin s'.begin :=
  ⟨rfl, rfl, rfl, fun h => absurd h nofun, fun h => absurd h nofun⟩

/-- As `Sim`, after the start of the model has been set and before the diffusion is. -/
structure Near (c : Cfg γ E D R) (s s' : St R) : Prop where
  first : s.first = s'.first
  list : s.list = s'.list
  setAt : s.setAt = s'.setAt
  start : s.start = s'.start
  sigs : s.missing c = false → s.sig2 = s'.sig2 ∧ s.sigT = s'.sigT

theorem update_near {c : Cfg γ E D R} {s s' : St R} (h : Near c s s') (num : Nat) (el : Rat) (g : Gens γ) :
    Near c (update c num el s g).1 (update c num el s' g).1 ∧ (update c num el s g).2 = (update c num el s' g).2 := by
  have hm := missing_eq (c := c) h.list
  have hr := rows_eq h.list
  unfold update
  by_cases h1 : el < c.delay
  · rw [if_pos h1, if_pos h1]
    by_cases h2 : c.cpp = true
    · rw [if_pos h2, if_pos h2]
      refine ⟨⟨h.first, rfl, ?_, h.start, fun hh => absurd hh nofun⟩, rfl⟩
      show (if s.list = none then s.setAt else 0) = (if s'.list = none then s'.setAt else 0)
      rw [h.list, h.setAt]
    · rw [if_neg h2, if_neg h2]; exact ⟨h, rfl⟩
  · rw [if_neg h1, if_neg h1]
    have hn : (if s.missing c = false ∧ s.rows.length < num then times (num - s.rows.length) (c.row s.sigT) g else ([], g))
        = (if s'.missing c = false ∧ s'.rows.length < num then times (num - s'.rows.length) (c.row s'.sigT) g else ([], g)) := by
      rw [← hm, ← hr]
      split
      · rename_i hh; rw [(h.sigs hh.1).2]
      · rfl
    simp only []
    rw [hn, hm, hr, h.setAt]
    split
    · exact ⟨⟨h.first, rfl, rfl, h.start, fun _ => ⟨rfl, rfl⟩⟩, rfl⟩
    · split
      · exact ⟨⟨h.first, rfl, rfl, h.start, fun _ => ⟨rfl, rfl⟩⟩, rfl⟩
      · exact ⟨⟨h.first, rfl, rfl, h.start, fun _ => ⟨rfl, rfl⟩⟩, rfl⟩

/-- The certain elements leave the state alone, for the uncertain ones the diffusion is set. -/
theorem uncertainty_sim {c : Cfg γ E D R} {s s' : St R} (h : Sim c s s') (hs : s.start = s'.start) (unc : Bool) (k num : Nat)
    (g : Gens γ) : Sim c (uncertainty c unc k num s g).1 (uncertainty c unc k num s' g).1 ∧
      (uncertainty c unc k num s g).2 = (uncertainty c unc k num s' g).2 := by
  unfold uncertainty
  cases unc with
  | false => exact ⟨h, rfl⟩
  | true =>
    have he : elapsed c k s = elapsed c k s' := by unfold elapsed; rw [hs]
    have hn : Near c s s' := ⟨h.first, h.list, h.setAt, hs, fun hm => ⟨(h.sigs hm).1, (h.sigs hm).2.1⟩⟩
    have hu := update_near hn num (elapsed c k s') g
    simp only [if_true, he]
    refine ⟨⟨hu.1.first, hu.1.list, hu.1.setAt, fun _ => hu.1.start, fun hm => ?_⟩, hu.2⟩
    have hm' : (update c num (elapsed c k s') s g).1.missing c = false := hm
    exact ⟨(hu.1.sigs hm').1, (hu.1.sigs hm').2, rfl⟩

/-- The start of the model is not changed by the uncertainty. -/
theorem uncertainty_start (c : Cfg γ E D R) (unc : Bool) (k num : Nat) (s : St R) (g : Gens γ) :
    (uncertainty c unc k num s g).1.start = s.start := by
  unfold uncertainty update
  cases unc with
  | false => rfl
  | true => simp only [if_true]; split_ifs <;> rfl

/-- As `Sim`, in a step after the mover has been prepared for it. -/
structure Ready (c : Cfg γ E D R) (k : Nat) (s s' : St R) : Prop where
  sim : Sim c s s'
  start : c.active k = true → s.start = s'.start

theorem prep_sim {c : Cfg γ E D R} {s s' : St R} (h : Sim c s s') (unc : Bool) (k : Nat) (els : List E) (g : Gens γ) :
    Ready c k (prep c unc k els s g).1.2 (prep c unc k els s' g).1.2 ∧ (prep c unc k els s g).1.1 = (prep c unc k els s' g).1.1 ∧
      (prep c unc k els s g).2 = (prep c unc k els s' g).2 := by
  unfold prep
  by_cases ha : c.active k = true
  · rw [if_pos ha, if_pos ha]
    have h1 : Sim c (if s.first then { s with start := c.time k } else s) (if s'.first then { s' with start := c.time k } else s') ∧
        (if s.first then { s with start := c.time k } else s).start = (if s'.first then { s' with start := c.time k } else s').start := by
      rw [← h.first]
      by_cases hf : s.first = true
      · rw [if_pos hf, if_pos hf]
        exact ⟨⟨rfl, h.list, h.setAt, fun _ => rfl, h.sigs⟩, rfl⟩
      · rw [if_neg hf, if_neg hf]
        exact ⟨h, h.start (by simpa using hf)⟩
    obtain ⟨h1, h2⟩ := h1
    simp only []
    by_cases hc : c.cpp = true
    · rw [if_pos hc, if_pos hc]
      have hu := uncertainty_sim h1 h2 unc k els.length g
      refine ⟨⟨hu.1, fun _ => ?_⟩, ?_, ?_⟩
      · rw [uncertainty_start, uncertainty_start]; exact h2
      · simp only [hu.2]
      · simp only [hu.2]
    · rw [if_neg hc, if_neg hc]
      split
      · exact ⟨⟨h1, fun _ => h2⟩, rfl, rfl⟩
      · have hu := uncertainty_sim h1 h2 unc k els.length (windages c els g).2
        refine ⟨⟨hu.1, fun _ => ?_⟩, rfl, hu.2⟩
        rw [uncertainty_start, uncertainty_start]; exact h2
  · rw [if_neg ha, if_neg ha]; exact ⟨⟨h, fun hh => absurd hh ha⟩, rfl, rfl⟩

theorem move_sim {c : Cfg γ E D R} {s s' : St R} (h : Sim c s s') (unc : Bool) (k : Nat) (els : List E) (g : Gens γ) :
    move c unc k els s g = move c unc k els s' g := by
  unfold move
  rw [← missing_eq h.list, ← rows_eq h.list]
  split
  · split
    · rename_i hh
      have hm : s.missing c = false := by
        rw [Bool.and_eq_true] at hh; simpa using hh.2
      rw [(h.sigs hm).1, (h.sigs hm).2.1, (h.sigs hm).2.2]
    · rfl
  · rfl

theorem done_sim {c : Cfg γ E D R} {k : Nat} {s s' : St R} (h : Ready c k s s') (gone : E → Bool) (unc : Bool) (els : List E) :
    Ready c k (done c gone unc k els s) (done c gone unc k els s') := by
  unfold done
  rw [← missing_eq h.sim.list, ← rows_eq h.sim.list]
  by_cases ha : c.active k = true
  · have hst : s.start = s'.start := h.start ha
    rw [if_pos ha, if_pos ha]
    simp only []
    split
    · exact ⟨⟨rfl, h.sim.list, h.sim.setAt, fun _ => hst, h.sim.sigs⟩, fun _ => hst⟩
    · rename_i hno
      have hm : s.missing c = false := by
        revert hno; cases s.missing c <;> simp
      split
      · exact ⟨⟨rfl, rfl, rfl, fun _ => hst, fun hh => absurd hh nofun⟩, fun _ => hst⟩
      · exact ⟨⟨rfl, rfl, h.sim.setAt, fun _ => hst, fun _ => h.sim.sigs hm⟩, fun _ => hst⟩
  · rw [if_neg ha, if_neg ha]; exact h

/-! ## Movers and models -/

/-- Two movers with the same settings that cannot be told apart: nothing is asked of what a mover that is off has kept. -/
inductive Alike : Mover γ E D R → Mover γ E D R → Prop
  | keeps (on : Bool) (c : Cfg γ E D R) (s s' : St R) (h : on = true → Sim (cfgOf on c) s s') : Alike (.keeps on c s) (.keeps on c s')
  | free (f) : Alike (.free f) (.free f)

/-- As `Alike`, in a step after the movers have been prepared for it. -/
inductive AlikeIn (k : Nat) : Mover γ E D R → Mover γ E D R → Prop
  | keeps (on : Bool) (c : Cfg γ E D R) (s s' : St R) (h : on = true → Ready (cfgOf on c) k s s') :
      AlikeIn k (.keeps on c s) (.keeps on c s')
  | free (f) : AlikeIn k (.free f) (.free f)

theorem off_prep (c : Cfg γ E D R) (unc : Bool) (k : Nat) (els : List E) (s : St R) (g : Gens γ) :
    prep (cfgOf false c) unc k els s g = ((els, s), g) := by
  unfold prep cfgOf; simp

theorem off_move (c : Cfg γ E D R) (unc : Bool) (k : Nat) (els : List E) (s : St R) (g : Gens γ) :
    move (cfgOf false c) unc k els s g = ([], g) := by
  unfold move cfgOf; simp

theorem prep_alike {m m' : Mover γ E D R} (h : Alike m m') (k : Nat) (els : List E) (unc : Option (List E)) (g : Gens γ) :
    AlikeIn k (m.prep k els unc g).1.1 (m'.prep k els unc g).1.1 ∧ (m.prep k els unc g).1.2 = (m'.prep k els unc g).1.2 ∧
      (m.prep k els unc g).2 = (m'.prep k els unc g).2 := by
  cases h with
  | free f => exact ⟨.free f, rfl, rfl⟩
  | keeps on c s s' hs =>
    unfold Mover.prep
    cases on with
    | false =>
      cases unc with
      | none => simp only [off_prep]; exact ⟨.keeps _ _ _ _ (fun hh => absurd hh nofun), trivial, trivial⟩
      | some u => simp only [off_prep]; exact ⟨.keeps _ _ _ _ (fun hh => absurd hh nofun), trivial, trivial⟩
    | true =>
      have h1 := prep_sim (hs rfl) false k els g
      cases unc with
      | none =>
        simp only []
        exact ⟨.keeps _ _ _ _ (fun _ => h1.1), by rw [h1.2.1], h1.2.2⟩
      | some u =>
        have h2 := prep_sim h1.1.sim true k u (prep (cfgOf true c) false k els s g).2
        simp only []
        rw [← h1.2.2]
        exact ⟨.keeps _ _ _ _ (fun _ => h2.1), by rw [h1.2.1, h2.2.1], h2.2.2⟩

theorem prepAll_alike (k : Nat) : ∀ {ms ms' : List (Mover γ E D R)}, List.Forall₂ Alike ms ms' →
    ∀ (els : List E) (unc : Option (List E)) (g : Gens γ),
    List.Forall₂ (AlikeIn k) (prepAll k ms els unc g).1.1 (prepAll k ms' els unc g).1.1 ∧
      (prepAll k ms els unc g).1.2 = (prepAll k ms' els unc g).1.2 ∧ (prepAll k ms els unc g).2 = (prepAll k ms' els unc g).2
  | _, _, .nil, els, unc, g => ⟨.nil, rfl, rfl⟩
  | _, _, .cons (a := m) (b := m') (l₁ := ms) (l₂ := ms') h hs, els, unc, g => by
    have h1 := prep_alike h k els unc g
    have h2 := prepAll_alike k hs (m.prep k els unc g).1.2.1 (m.prep k els unc g).1.2.2 (m.prep k els unc g).2
    unfold prepAll
    simp only []
    rw [← h1.2.1, ← h1.2.2]
    refine ⟨.cons h1.1 h2.1, ?_, h2.2.2⟩
    rw [h2.2.1]

theorem move_alike {k : Nat} {m m' : Mover γ E D R} (h : AlikeIn k m m') (unc : Bool) (els : List E) (g : Gens γ) :
    m.move unc k els g = m'.move unc k els g := by
  cases h with
  | free f => rfl
  | keeps on c s s' hs =>
    unfold Mover.move
    cases on with
    | false => simp only [off_move]
    | true => exact move_sim (hs rfl).sim unc k els g

theorem each_alike {k : Nat} (unc : Bool) (els : List E) : ∀ {ms ms' : List (Mover γ E D R)}, List.Forall₂ (AlikeIn k) ms ms' →
    ∀ g : Gens γ, each (fun m => Mover.move unc k els m) ms g = each (fun m => Mover.move unc k els m) ms' g
  | _, _, .nil, _ => rfl
  | _, _, .cons h hs, g => by
    unfold each
    simp only [move_alike h unc els g, each_alike unc els hs]

theorem moveAll_alike {k : Nat} (w : World γ E D) (unc : Bool) {ms ms' : List (Mover γ E D R)} (h : List.Forall₂ (AlikeIn k) ms ms')
    (els : List E) (g : Gens γ) : moveAll w unc k ms els g = moveAll w unc k ms' els g := by
  unfold moveAll
  simp only [each_alike unc _ h]

theorem done_alike {k : Nat} {m m' : Mover γ E D R} (h : AlikeIn k m m') (gone : E → Bool) (els : List E) (unc : Option (List E)) :
    Alike (m.done gone k els unc) (m'.done gone k els unc) := by
  cases h with
  | free f => exact .free f
  | keeps on c s s' hs =>
    unfold Mover.done
    cases unc with
    | none =>
      simp only []
      refine .keeps _ _ _ _ (fun ho => ?_)
      exact (done_sim (hs ho) gone false els).sim
    | some u =>
      simp only []
      refine .keeps _ _ _ _ (fun ho => ?_)
      exact (done_sim (done_sim (hs ho) gone false els) gone true u).sim

theorem forall2_map {α β : Type} {r : α → α → Prop} {q : β → β → Prop} {f : α → β} (h : ∀ a b, r a b → q (f a) (f b)) :
    ∀ {l l' : List α}, List.Forall₂ r l l' → List.Forall₂ q (l.map f) (l'.map f)
  | _, _, .nil => .nil
  | _, _, .cons hh hs => .cons (h _ _ hh) (forall2_map h hs)

/-- Two models that cannot be told apart. -/
structure Twin (m m' : Model γ E D R) : Prop where
  world : m.world = m'.world
  els : m.els = m'.els
  unc : m.unc = m'.unc
  k : m.k = m'.k
  gens : m.gens = m'.gens
  settings : m.movers.map Mover.settings = m'.movers.map Mover.settings
  movers : m.k ≠ none → List.Forall₂ Alike m.movers m'.movers

theorem begin_alike : ∀ {ms ms' : List (Mover γ E D R)}, ms.map Mover.settings = ms'.map Mover.settings →
    List.Forall₂ Alike (ms.map Mover.begin) (ms'.map Mover.begin)
  | [], [], _ => .nil
  | [], _ :: _, h => absurd h nofun
  | _ :: _, [], h => absurd h nofun
  | m :: ms, m' :: ms', h => by
    rw [List.map_cons, List.map_cons, List.cons.injEq] at h
    refine .cons ?_ (begin_alike h.2)
    have h1 := h.1
    cases m with
    | free f =>
      cases m' with
      | free f' => simp only [Mover.settings, Sum.inr.injEq] at h1; subst h1; exact .free f
      | keeps _ _ _ => exact absurd h1 nofun
    | keeps on c s =>
      cases m' with
      | free f' => exact absurd h1 nofun
      | keeps on' c' s' =>
        simp only [Mover.settings, Sum.inl.injEq, Prod.mk.injEq] at h1
        obtain ⟨rfl, rfl⟩ := h1
        refine .keeps _ _ _ _ (fun ho => ?_)
        rw [if_pos ho, if_pos ho]
        exact begin_sim _ s s'

theorem alike_settings {m m' : Mover γ E D R} (h : Alike m m') : m.settings = m'.settings := by
  cases h <;> rfl

theorem forall2_settings : ∀ {ms ms' : List (Mover γ E D R)}, List.Forall₂ Alike ms ms' →
    ms.map Mover.settings = ms'.map Mover.settings
  | _, _, .nil => rfl
  | _, _, .cons h hs => by rw [List.map_cons, List.map_cons, alike_settings h, forall2_settings hs]

theorem step_twin {m m' : Model γ E D R} (h : Twin m m') : Twin (step m) (step m') := by
  obtain ⟨w, ms, els, unc, k, g⟩ := m
  obtain ⟨w', ms', els', unc', k', g'⟩ := m'
  obtain ⟨rfl, rfl, rfl, rfl, rfl, hset, hm⟩ := h
  cases k with
  | none =>
    exact ⟨rfl, rfl, rfl, rfl, rfl, forall2_settings (begin_alike hset), fun _ => begin_alike hset⟩
  | some k =>
    have hp := prepAll_alike k (hm nofun) (w.release false (k + 1) false els g).1
      (onUnc (w.release true (k + 1) false) unc (w.release false (k + 1) false els g).2).1
      (onUnc (w.release true (k + 1) false) unc (w.release false (k + 1) false els g).2).2
    have hmv := fun u els g => moveAll_alike w u hp.1 els g
    have hmv' : moveAll w true k _ = moveAll w true k _ := funext fun els => funext fun g => hmv true els g
    unfold step
    simp only []
    rw [← hp.2.1, ← hp.2.2, ← hmv false, ← hmv']
    have hd := fun els unc => forall2_map (fun a b hab => done_alike (k := k) (m := a) (m' := b) hab w.gone els unc) hp.1
    exact ⟨rfl, rfl, rfl, rfl, rfl, forall2_settings (hd _ _), fun _ => hd _ _⟩

theorem history_twin : ∀ (n : Nat) {m m' : Model γ E D R}, Twin m m' → history n m = history n m'
  | 0, _, _, _ => rfl
  | n + 1, m, m', h => by
    have hs := step_twin h
    unfold history
    rw [hs.els, hs.unc, history_twin n hs]

theorem rewind_twin (init : γ) {m m' : Model γ E D R} (h : SameSettings m m') : Twin (rewind init m) (rewind init m') := by
  refine ⟨h.1, rfl, ?_, rfl, rfl, h.2.1, fun hh => absurd rfl hh⟩
  have h3 := h.2.2
  unfold rewind
  cases hu : m.unc <;> cases hu' : m'.unc <;> rw [hu, hu'] at h3 <;> first | rfl | exact absurd h3 nofun

/-- C305: after a rewind a run depends on the settings only.  Whatever the movers have kept from runs before, whatever numbers were
drawn, wherever the run was: two models with the same settings show the same elements in every step after they were rewound. -/
theorem C305_settings (init : γ) (n : Nat) {m m' : Model γ E D R} (h : SameSettings m m') :
    history n (rewind init m) = history n (rewind init m') := history_twin n (rewind_twin init h)

theorem prep_settings (k : Nat) (m : Mover γ E D R) (els : List E) (unc : Option (List E)) (g : Gens γ) :
    (m.prep k els unc g).1.1.settings = m.settings ∧ ((m.prep k els unc g).1.2.2).isSome = unc.isSome := by
  cases m with
  | free f => exact ⟨rfl, rfl⟩
  | keeps on c s => cases unc <;> exact ⟨rfl, rfl⟩

theorem prepAll_settings (k : Nat) : ∀ (ms : List (Mover γ E D R)) (els : List E) (unc : Option (List E)) (g : Gens γ),
    ((prepAll k ms els unc g).1.1).map Mover.settings = ms.map Mover.settings ∧ ((prepAll k ms els unc g).1.2.2).isSome = unc.isSome
  | [], _, _, _ => ⟨rfl, rfl⟩
  | m :: ms, els, unc, g => by
    have h1 := prep_settings k m els unc g
    have h2 := prepAll_settings k ms (m.prep k els unc g).1.2.1 (m.prep k els unc g).1.2.2 (m.prep k els unc g).2
    unfold prepAll
    simp only [List.map_cons]
    rw [h1.1, h2.1, h2.2, h1.2]
    exact ⟨rfl, rfl⟩

theorem done_settings (gone : E → Bool) (k : Nat) (els : List E) (unc : Option (List E)) (m : Mover γ E D R) :
    (m.done gone k els unc).settings = m.settings := by
  cases m with
  | free f => rfl
  | keeps on c s => cases unc <;> rfl

theorem begin_settings (m : Mover γ E D R) : m.begin.settings = m.settings := by cases m <;> rfl

theorem onUnc_some (f : List E → Rand γ (List E)) (unc : Option (List E)) (g : Gens γ) : (onUnc f unc g).1.isSome = unc.isSome := by
  cases unc <;> rfl

theorem step_settings (m : Model γ E D R) : SameSettings (step m) m := by
  obtain ⟨w, ms, els, unc, k, g⟩ := m
  cases k with
  | none =>
    refine ⟨rfl, ?_, ?_⟩
    · show (ms.map Mover.begin).map Mover.settings = _
      rw [List.map_map]
      exact List.map_congr_left fun m _ => begin_settings m
    · exact onUnc_some _ _ _
  | some k =>
    refine ⟨rfl, ?_, ?_⟩
    · unfold step
      simp only [List.map_map]
      exact (List.map_congr_left fun m _ => done_settings _ _ _ _ m).trans (prepAll_settings k ms _ _ _).1
    · unfold step
      simp only []
      rw [onUnc_some, Option.isSome_map, onUnc_some, (prepAll_settings k ms _ _ _).2, onUnc_some]

theorem steps_settings : ∀ (n : Nat) (m : Model γ E D R), SameSettings (steps n m) m
  | 0, _ => ⟨rfl, rfl, rfl⟩
  | n + 1, m => by
    have h1 := steps_settings n (step m)
    have h2 := step_settings m
    exact ⟨h1.1.trans h2.1, h1.2.1.trans h2.2.1, h1.2.2.trans h2.2.2⟩

/-- C305: a model that has been run for any number of steps and is rewound shows the same run again. -/
theorem C305_again (init : γ) (j n : Nat) (m : Model γ E D R) : history n (rewind init (steps j m)) = history n (rewind init m) :=
  C305_settings init n (steps_settings j m)

/-! ## Models that use no random numbers -/

theorem each_quiet {α β : Type} {f : α → Rand γ β} (h : ∀ a, Quiet (f a)) : ∀ l : List α, Quiet (each f l)
  | [], _ => rfl
  | a :: as, g => by
    unfold each
    simp only []
    rw [each_quiet h as, h a]

theorem times_quiet {β : Type} {f : Rand γ β} (h : Quiet f) (n : Nat) : Quiet (times n f) := each_quiet (fun _ => h) _

theorem update_quiet {c : Cfg γ E D R} (h : ∀ σ, Quiet (c.row σ)) (num : Nat) (el : Rat) (s : St R) : Quiet (update c num el s) := by
  intro g
  unfold update
  split
  · split <;> rfl
  · have hn : (if s.missing c = false ∧ s.rows.length < num then times (num - s.rows.length) (c.row s.sigT) g else ([], g)).2 = g := by
      split
      · exact times_quiet (h _) _ g
      · rfl
    simp only []
    rw [hn]
    split
    · exact times_quiet (h _) _ g
    · split
      · exact times_quiet (h _) _ g
      · rfl

theorem prep_quiet {c : Cfg γ E D R} (h : ∀ σ, Quiet (c.row σ)) (hw : ∀ e, Quiet (c.windage e)) (unc : Bool) (k : Nat) (els : List E)
    (s : St R) : Quiet (prep c unc k els s) := by
  have hwin : Quiet (windages c els) := by
    intro g; unfold windages
    split
    · exact each_quiet hw els g
    · rfl
  have hu : ∀ s num, Quiet (uncertainty c unc k num s) := by
    intro s num g; unfold uncertainty
    split
    · exact update_quiet h _ _ s g
    · rfl
  intro g
  unfold prep
  split
  · simp only []
    split
    · rw [hwin, hu]
    · split
      · rfl
      · rw [hu, hwin]
  · rfl

theorem quiet_of_settings {m m' : Mover γ E D R} (h : m.settings = m'.settings) (hq : m.Quiet) : m'.Quiet := by
  cases m with
  | free f =>
    cases m' with
    | free f' => simp only [Mover.settings, Sum.inr.injEq] at h; subst h; exact hq
    | keeps _ _ _ => exact absurd h nofun
  | keeps on c s =>
    cases m' with
    | free f' => exact absurd h nofun
    | keeps on' c' s' =>
      simp only [Mover.settings, Sum.inl.injEq, Prod.mk.injEq] at h
      obtain ⟨rfl, rfl⟩ := h
      exact hq

theorem all_of_settings {P : Mover γ E D R → Prop} (hP : ∀ m m' : Mover γ E D R, m.settings = m'.settings → P m → P m')
    {ms ms' : List (Mover γ E D R)} (h : ms.map Mover.settings = ms'.map Mover.settings) (hq : ∀ x ∈ ms, P x) : ∀ x ∈ ms', P x := by
  intro x hx
  have : x.settings ∈ ms.map Mover.settings := by rw [h]; exact List.mem_map_of_mem hx
  obtain ⟨y, hy, hyx⟩ := List.mem_map.mp this
  exact hP y x hyx (hq y hy)

theorem quiet_settings {m m' : Model γ E D R} (h : SameSettings m m') (hq : m.Quiet) : m'.Quiet := by
  obtain ⟨h1, h2, h3, h4⟩ := hq
  rw [h.1] at h1 h2 h3
  exact ⟨h1, h2, h3, all_of_settings (fun _ _ => quiet_of_settings) h.2.1 h4⟩

theorem moverPrep_quiet {m : Mover γ E D R} (h : m.Quiet) (k : Nat) (els : List E) (unc : Option (List E)) : Quiet (m.prep k els unc) := by
  intro g
  cases m with
  | free f => rfl
  | keeps on c s =>
    have hp := fun u els s => prep_quiet (c := cfgOf on c) h.1 h.2.1 u k els s
    unfold Mover.prep
    cases unc with
    | none => exact hp false els s g
    | some u => simp only []; rw [hp, hp]

theorem prepAll_quiet (k : Nat) : ∀ {ms : List (Mover γ E D R)}, (∀ x ∈ ms, x.Quiet) → ∀ (els : List E) (unc : Option (List E)),
    Quiet (prepAll k ms els unc)
  | [], _, _, _, _ => rfl
  | m :: ms, h, els, unc, g => by
    unfold prepAll
    simp only []
    rw [prepAll_quiet k (fun x hx => h x (List.mem_cons_of_mem _ hx)), moverPrep_quiet (h m List.mem_cons_self)]

theorem each_quiet_mem {α β : Type} {f : α → Rand γ β} : ∀ {l : List α}, (∀ a ∈ l, Quiet (f a)) → Quiet (each f l)
  | [], _, _ => rfl
  | a :: as, h, g => by
    unfold each
    simp only []
    rw [each_quiet_mem (fun x hx => h x (List.mem_cons_of_mem _ hx)), h a List.mem_cons_self]

theorem move_quiet {m : Mover γ E D R} (h : m.Quiet) (unc : Bool) (k : Nat) (els : List E) : Quiet (m.move unc k els) := by
  intro g
  cases m with
  | free f => exact h unc k els g
  | keeps on c s =>
    show (move (cfgOf on c) unc k els s g).2 = g
    unfold move
    split
    · split
      · exact h.2.2 _ _ _ _ _ _ g
      · rfl
    · rfl

theorem moveAll_quiet {m : Model γ E D R} (h : m.Quiet) {ms : List (Mover γ E D R)} (hm : ∀ x ∈ ms, x.Quiet) (unc : Bool) (k : Nat)
    (els : List E) : Quiet (moveAll m.world unc k ms els) := by
  intro g
  unfold moveAll
  split
  · rfl
  · simp only []
    rw [h.2.2.1, each_quiet_mem (fun x hx => move_quiet (hm x hx) unc k _), h.2.1]

theorem onUnc_quiet {f : List E → Rand γ (List E)} (h : ∀ els, Quiet (f els)) (unc : Option (List E)) : Quiet (onUnc f unc) := by
  intro g
  cases unc with
  | none => rfl
  | some u => exact h u g

theorem step_quiet {m : Model γ E D R} (h : m.Quiet) : (step m).gens = m.gens := by
  unfold step
  split
  · simp only []
    rw [onUnc_quiet (h.1 true 0 false), h.1]
  · rename_i k hk
    have hms := all_of_settings (fun _ _ => quiet_of_settings)
      ((prepAll_settings k m.movers (m.world.release false (k + 1) false m.els m.gens).1
        (onUnc (m.world.release true (k + 1) false) m.unc (m.world.release false (k + 1) false m.els m.gens).2).1
        (onUnc (m.world.release true (k + 1) false) m.unc (m.world.release false (k + 1) false m.els m.gens).2).2).1).symm h.2.2.2
    simp only []
    rw [onUnc_quiet (h.1 true (k + 1) true), h.1, onUnc_quiet (fun els => moveAll_quiet h hms true k els), moveAll_quiet h hms,
      prepAll_quiet k h.2.2.2, onUnc_quiet (h.1 true (k + 1) false), h.1]

/-- C306, full statement: a model gives the same run when another model in the same process is stepped in between. -/
def C306_claim : Prop :=
  ∀ (γ E D R : Type) (init : γ) (n : Nat) (m m' : Model γ E D R), alternate n (rewind init m) m' = history n (rewind init m)

/-- A world with one element, released at the beginning, where nothing is random but what a mover draws. -/
def oneWorld : World Nat Nat Nat where
  release := fun _ k h els g => (if k = 0 ∧ h = false then [0] else els, g)
  refloat := fun _ els g => (els, g)
  shift := fun els ds => List.zipWith (· + ·) els ds
  after := fun _ _ els g => (els, g)
  gone := fun _ => false

/-- A mover that moves each element by the next number of the generator of C, as `RandomMover` does. -/
def diffuse : Mover Nat Nat Nat Unit := .free fun _ _ els g => (each (fun _ g => (g.c, { g with c := g.c + 1 })) els g)

/-- A model with diffusion. -/
def diffModel (unc : Option (List Nat)) : Model Nat Nat Nat Unit := ⟨oneWorld, [diffuse], [], unc, none, ⟨7, 7, 7⟩⟩

theorem C306_counterexample : ¬ C306_claim := by
  intro h
  have h1 := h Nat Nat Nat Unit 1 3 (diffModel none) (rewind 1 (diffModel none))
  revert h1
  decide

/-- C306: it does if the other model uses no random numbers. -/
theorem C306_partial : ∀ (n : Nat) (m m' : Model γ E D R), m'.Quiet → alternate n m m' = history n m
  | 0, _, _, _ => rfl
  | n + 1, m, m', h => by
    have hq : Model.Quiet { m' with gens := (step m).gens } := h
    have hb := step_quiet hq
    have hb' : (step { m' with gens := (step m).gens }).gens = (step m).gens := hb
    unfold alternate history
    simp only []
    rw [hb']
    have hq2 : (step { m' with gens := (step m).gens }).Quiet := by
      have hs := step_settings { m' with gens := (step m).gens }
      exact quiet_settings ⟨hs.1.symm, hs.2.1.symm, hs.2.2.symm⟩ hq
    rw [C306_partial n _ _ hq2]

/-! ## The forecast -/

/-- C307, full statement: the forecast is the same whether uncertainty is on or off. -/
def C307_claim : Prop :=
  ∀ (γ E D R : Type) (init : γ) (n : Nat) (m : Model γ E D R),
    (history n (rewind init { m with unc := some [] })).map Prod.fst = (history n (rewind init { m with unc := none })).map Prod.fst

theorem C307_counterexample : ¬ C307_claim := by
  intro h
  have h1 := h Nat Nat Nat Unit 1 3 (diffModel none)
  revert h1
  decide

theorem each_steady {α β : Type} {f : α → Rand γ β} (h : ∀ a, Steady (f a)) : ∀ l : List α, Steady (each f l)
  | [], _, _ => rfl
  | a :: as, g, g' => by
    unfold each
    simp only []
    rw [h a g g', each_steady h as (f a g).2 (f a g').2]

theorem windages_steady {c : Cfg γ E D R} (h : ∀ e, Steady (c.windage e)) (els : List E) : Steady (windages c els) := by
  intro g g'
  unfold windages
  split
  · exact each_steady h els g g'
  · rfl

theorem prep_steady {c : Cfg γ E D R} (h : ∀ e, Steady (c.windage e)) (k : Nat) (els : List E) (s s' : St R) (g g' : Gens γ) :
    (prep c false k els s g).1.1 = (prep c false k els s' g').1.1 := by
  unfold prep
  split
  · simp only []
    split
    · exact windages_steady h els _ _
    · split
      · rfl
      · exact windages_steady h els _ _
  · rfl

theorem moverPrep_steady {m m' : Mover γ E D R} (hs : m.settings = m'.settings) (h : m.Steady) (k : Nat) (els : List E)
    (unc unc' : Option (List E)) (g g' : Gens γ) : (m.prep k els unc g).1.2.1 = (m'.prep k els unc' g').1.2.1 := by
  cases m with
  | free f =>
    cases m' with
    | free f' => rfl
    | keeps _ _ _ => exact absurd hs nofun
  | keeps on c s =>
    cases m' with
    | free f' => exact absurd hs nofun
    | keeps on' c' s' =>
      simp only [Mover.settings, Sum.inl.injEq, Prod.mk.injEq] at hs
      obtain ⟨rfl, rfl⟩ := hs
      have hp := prep_steady (c := cfgOf on c) h k els s s' g g'
      cases unc <;> cases unc' <;> exact hp

theorem prepAll_steady (k : Nat) : ∀ {ms ms' : List (Mover γ E D R)}, ms.map Mover.settings = ms'.map Mover.settings →
    (∀ x ∈ ms, x.Steady) → ∀ (els : List E) (unc unc' : Option (List E)) (g g' : Gens γ),
    (prepAll k ms els unc g).1.2.1 = (prepAll k ms' els unc' g').1.2.1
  | [], [], _, _, _, _, _, _, _ => rfl
  | [], _ :: _, h, _, _, _, _, _, _ => absurd h nofun
  | _ :: _, [], h, _, _, _, _, _, _ => absurd h nofun
  | m :: ms, m' :: ms', h, hst, els, unc, unc', g, g' => by
    rw [List.map_cons, List.map_cons, List.cons.injEq] at h
    unfold prepAll
    simp only []
    rw [moverPrep_steady h.1 (hst m List.mem_cons_self) k els unc unc' g g']
    exact prepAll_steady k h.2 (fun x hx => hst x (List.mem_cons_of_mem _ hx)) _ _ _ _ _

theorem steady_of_settings {m m' : Mover γ E D R} (h : m.settings = m'.settings) (hq : m.Steady) : m'.Steady := by
  cases m with
  | free f =>
    cases m' with
    | free f' => simp only [Mover.settings, Sum.inr.injEq] at h; subst h; exact hq
    | keeps _ _ _ => exact absurd h nofun
  | keeps on c s =>
    cases m' with
    | free f' => exact absurd h nofun
    | keeps on' c' s' =>
      simp only [Mover.settings, Sum.inl.injEq, Prod.mk.injEq] at h
      obtain ⟨rfl, rfl⟩ := h
      exact hq

theorem move_steady {m m' : Mover γ E D R} (h : m.settings = m'.settings) (hst : m.Steady) (k : Nat) (els : List E) (g g' : Gens γ) :
    (m.move false k els g).1 = (m'.move false k els g').1 := by
  cases m with
  | free f =>
    cases m' with
    | free f' => simp only [Mover.settings, Sum.inr.injEq] at h; subst h; exact hst k els g g'
    | keeps _ _ _ => exact absurd h nofun
  | keeps on c s =>
    cases m' with
    | free f' => exact absurd h nofun
    | keeps on' c' s' =>
      simp only [Mover.settings, Sum.inl.injEq, Prod.mk.injEq] at h
      obtain ⟨rfl, rfl⟩ := h
      show (move (cfgOf on c) false k els s g).1 = (move (cfgOf on c) false k els s' g').1
      unfold move
      split <;> rfl

theorem moves_steady (k : Nat) (els : List E) : ∀ {ms ms' : List (Mover γ E D R)}, ms.map Mover.settings = ms'.map Mover.settings →
    (∀ x ∈ ms, x.Steady) → ∀ g g' : Gens γ,
    (each (fun m => Mover.move false k els m) ms g).1 = (each (fun m => Mover.move false k els m) ms' g').1
  | [], [], _, _, _, _ => rfl
  | [], _ :: _, h, _, _, _ => absurd h nofun
  | _ :: _, [], h, _, _, _ => absurd h nofun
  | m :: ms, m' :: ms', h, hst, g, g' => by
    rw [List.map_cons, List.map_cons, List.cons.injEq] at h
    unfold each
    simp only []
    rw [move_steady h.1 (hst m List.mem_cons_self) k els g g', moves_steady k els h.2 (fun x hx => hst x (List.mem_cons_of_mem _ hx))]

theorem moveAll_steady {m : Model γ E D R} (h : m.Steady) {ms ms' : List (Mover γ E D R)}
    (hset : ms.map Mover.settings = ms'.map Mover.settings) (hm : ∀ x ∈ ms, x.Steady) (k : Nat) (els : List E) (g g' : Gens γ) :
    (moveAll m.world false k ms els g).1 = (moveAll m.world false k ms' els g').1 := by
  unfold moveAll
  split
  · rfl
  · simp only []
    rw [h.2.1 k els g g', moves_steady k _ hset hm _ (m.world.refloat k els g').2]
    exact h.2.2.1 k _ _ _

theorem step_steady {m m' : Model γ E D R} (h : m.Steady) (hw : m.world = m'.world) (he : m.els = m'.els) (hk : m.k = m'.k)
    (hs : m.movers.map Mover.settings = m'.movers.map Mover.settings) : (step m).els = (step m').els ∧ (step m).k = (step m').k := by
  obtain ⟨w, ms, els, unc, k, g⟩ := m
  obtain ⟨w', ms', els', unc', k', g'⟩ := m'
  subst hw; subst he; subst hk
  cases k with
  | none => exact ⟨h.1 0 false els g g', rfl⟩
  | some k =>
    refine ⟨?_, rfl⟩
    unfold step
    simp only []
    rw [h.1 (k + 1) false els g g']
    rw [prepAll_steady k hs h.2.2.2 _ _
      (onUnc (w.release true (k + 1) false) unc' (w.release false (k + 1) false els g').2).1 _
      (onUnc (w.release true (k + 1) false) unc' (w.release false (k + 1) false els g').2).2]
    have hset := (prepAll_settings k ms (w.release false (k + 1) false els g').1
      (onUnc (w.release true (k + 1) false) unc (w.release false (k + 1) false els g).2).1
      (onUnc (w.release true (k + 1) false) unc (w.release false (k + 1) false els g).2).2).1
    have hset' := (prepAll_settings k ms' (w.release false (k + 1) false els g').1
      (onUnc (w.release true (k + 1) false) unc' (w.release false (k + 1) false els g').2).1
      (onUnc (w.release true (k + 1) false) unc' (w.release false (k + 1) false els g').2).2).1
    have hm := moveAll_steady h ((hset.trans hs).trans hset'.symm)
      (all_of_settings (fun _ _ => steady_of_settings) hset.symm h.2.2.2) k
    rw [hm _ _ (prepAll k ms' (w.release false (k + 1) false els g').1
      (onUnc (w.release true (k + 1) false) unc' (w.release false (k + 1) false els g').2).1
      (onUnc (w.release true (k + 1) false) unc' (w.release false (k + 1) false els g').2).2).2]
    exact h.1 (k + 1) true _ _ _

theorem history_steady : ∀ (n : Nat) {m m' : Model γ E D R}, m.Steady → m.world = m'.world → m.els = m'.els → m.k = m'.k →
    m.movers.map Mover.settings = m'.movers.map Mover.settings → (history n m).map Prod.fst = (history n m').map Prod.fst
  | 0, _, _, _, _, _, _, _ => rfl
  | n + 1, m, m', h, hw, he, hk, hs => by
    have h1 := step_steady h hw he hk hs
    have hset := step_settings m
    have hset' := step_settings m'
    have hst : (step m).Steady := by
      obtain ⟨a, b, c, d⟩ := h
      rw [← hset.1] at a b c
      exact ⟨a, b, c, all_of_settings (fun _ _ => steady_of_settings) hset.2.1.symm d⟩
    unfold history
    rw [List.map_cons, List.map_cons, history_steady n hst (hset.1.trans (hw.trans hset'.1.symm)) h1.1 h1.2
      (hset.2.1.trans (hs.trans hset'.2.1.symm))]
    show _ :: _ = _ :: _
    rw [h1.1]

/-- C307: the forecast is the same with uncertainty on and off if nothing in it is random: whatever the uncertain elements do to the
movers and draw from the generators, it does not reach the others. -/
theorem C307_partial (init : γ) (n : Nat) (m : Model γ E D R) (h : m.Steady) (u : List E) :
    (history n (rewind init { m with unc := some u })).map Prod.fst = (history n (rewind init { m with unc := none })).map Prod.fst :=
  history_steady (m := rewind init { m with unc := some u }) (m' := rewind init { m with unc := none }) n h rfl rfl rfl rfl

/-! ## Examples -/

/-- A mover of winds with leftovers of an earlier run, which draws rows from the generator of numpy. -/
def windLeft (cpp : Bool) (left : Rat) : Mover Nat Nat Nat Nat :=
  .keeps true ⟨cpp, true, fun _ => true, 0, 10800, fun k => 900 * k, 900, fun el => el / 900, fun el => el / 450, 1,
    fun σ g => (g.np * σ.num.toNat, { g with np := g.np + 1 }), fun e g => (e, g), fun _ els => els.map fun _ => 1,
    fun a b _ rows _ els g => (List.zipWith (fun r _ => r + a.num.toNat + b.num.toNat) rows els, g)⟩
    ⟨some [5, 6], left, left, false, left, left, left⟩

/-- Two elements, then one more in each step. -/
def growWorld : World Nat Nat Nat where
  release := fun _ k h els g => (if h then els ++ [100 * k] else if k = 0 then [1, 2] else els, g)
  refloat := fun _ els g => (els, g)
  shift := fun els ds => List.zipWith (· + ·) els ds
  after := fun _ _ els g => (els, g)
  gone := fun e => decide (150 < e)

def windModel (cpp : Bool) (left : Rat) : Model Nat Nat Nat Nat :=
  ⟨growWorld, [windLeft cpp left], [9], some [9, 9], some 4, ⟨3, 4, 5⟩⟩

/-- The leftovers are different, the runs after a rewind are the same and not trivial: the uncertain elements move differently from the
forecast. -/
example : windModel false 3 ≠ windModel false 4 ∧
    history 4 (rewind 1 (windModel false 3)) = history 4 (rewind 1 (windModel false 4)) ∧
    history 4 (rewind 1 (windModel true 3)) = history 4 (rewind 1 (windModel true 4)) ∧
    history 3 (rewind 1 (windModel true 3)) ≠ history 3 (windModel true 3) ∧
    ((history 4 (rewind 1 (windModel false 3))).map Prod.snd)[3]? ≠ some (((history 4 (rewind 1 (windModel false 3))).map Prod.fst)[3]?) := by
  refine ⟨fun h => ?_, ?_, ?_, ?_, ?_⟩
  · have h1 := congrArg Model.movers h
    simp [windModel, windLeft] at h1
  all_goals decide +kernel

/-- The model with the wind is not random in its forecast, so C307 applies. -/
example : (windModel true 3).Steady := by
  refine ⟨fun _ _ _ _ _ => rfl, fun _ _ _ _ => rfl, fun _ _ _ _ => rfl, ?_⟩
  intro x hx
  rw [show (windModel true 3).movers = [windLeft true 3] from rfl, List.mem_singleton] at hx
  subst hx
  intro e g g'
  rfl

/-- A model without movers uses no random numbers, so C306 applies. -/
example : (⟨oneWorld, [], [], none, none, ⟨7, 7, 7⟩⟩ : Model Nat Nat Nat Unit).Quiet :=
  ⟨fun _ _ _ _ _ => rfl, fun _ _ _ => rfl, fun _ _ _ _ => rfl, fun _ hx => absurd hx nofun⟩

end Verif.Run.Repeat
