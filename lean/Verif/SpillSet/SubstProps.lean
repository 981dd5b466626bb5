import Verif.SpillSet.SubstModel
/-!
# Spills of one substance: C274 to C277
-/
namespace Verif.SpillSet.Subst

/-- the spills that are switched on are of one substance -/
def Uniform (l : List Sp) : Prop := ∀ a ∈ l, ∀ b ∈ l, a.on = true → b.on = true → a.sub = b.sub

/-- the substance of spills that are switched on, the one that does not weather without such -/
def IsSub (l : List Sp) (s : Nat) : Prop :=
  (∀ a ∈ l, a.on = true → a.sub = s) ∧ ((∀ a ∈ l, a.on = false) → s = 0)

theorem check_some {l : List Sp} {s : Nat} : check l = some s ↔ Uniform l ∧ IsSub l s := by
  unfold check
  have hm : ∀ x, x ∈ (l.filter Sp.on).map Sp.sub ↔ ∃ a ∈ l, a.on = true ∧ a.sub = x := by
    intro x
    simp [List.mem_map, List.mem_filter, and_assoc]
  generalize hL : (l.filter Sp.on).map Sp.sub = L at hm
  cases L with
  | nil =>
    have hoff : ∀ a ∈ l, a.on = false := by
      intro a ha
      cases h : a.on with
      | false => rfl
      | true => exact absurd ((hm a.sub).2 ⟨a, ha, h, rfl⟩) (by simp)
    constructor
    · intro h
      have hs : 0 = s := Option.some.inj h
      subst hs
      exact ⟨fun a ha b _ h1 _ => (by rw [hoff a ha] at h1; cases h1), fun a ha h1 => (by rw [hoff a ha] at h1; cases h1), fun _ => rfl⟩
    · rintro ⟨_, _, h⟩
      rw [h hoff]
  | cons x r =>
    obtain ⟨a, ha, hon, hx⟩ := (hm x).1 (by simp)
    constructor
    · intro h
      have h' : (if r.all (fun t => t == x) then some x else none) = some s := h
      split at h'
      · rename_i hall
        have hs := Option.some.inj h'
        subst hs
        have key : ∀ b ∈ l, b.on = true → b.sub = x := by
          intro b hb hbon
          have := (hm b.sub).2 ⟨b, hb, hbon, rfl⟩
          rcases List.mem_cons.1 this with h1 | h1
          · exact h1
          · simpa using List.all_eq_true.1 hall _ h1
        exact ⟨fun b hb c hc h1 h2 => (key b hb h1).trans (key c hc h2).symm, key, fun h0 => (by rw [h0 a ha] at hon; cases hon)⟩
      · cases h'
    · rintro ⟨hu, hs, _⟩
      have hxs : x = s := by rw [← hx]; exact hs a ha hon
      have hall : r.all (fun t => t == x) = true := by
        rw [List.all_eq_true]
        intro t ht
        obtain ⟨b, hb, hbon, hbt⟩ := (hm t).1 (by simp [ht])
        have := hu b hb a ha hbon hon
        rw [hbt, hx] at this
        simpa using this
      show (if r.all (fun t => t == x) then some x else none) = some s
      rw [if_pos hall, hxs]

theorem check_none {l : List Sp} : check l = none ↔ ¬ Uniform l := by
  constructor
  · intro h hu
    by_cases h0 : ∃ a ∈ l, a.on = true
    · obtain ⟨a, ha, hon⟩ := h0
      have := check_some.2 (show Uniform l ∧ IsSub l a.sub from
        ⟨hu, fun b hb h1 => hu b hb a ha h1 hon, fun h2 => (by rw [h2 a ha] at hon; cases hon)⟩)
      rw [h] at this; cases this
    · have := check_some.2 (show Uniform l ∧ IsSub l 0 from ⟨hu, fun b hb h1 => absurd ⟨b, hb, h1⟩ h0, fun _ => rfl⟩)
      rw [h] at this; cases this
  · intro h
    cases hc : check l with
    | none => rfl
    | some s => exact absurd (check_some.1 hc).1 h

theorem recheck_true {nc : Nat → Option Nat} {c c' : Cont} (h : recheck nc c = (c', true)) :
    Uniform c.spills ∧ c'.spills = c.spills ∧ ∃ s, c'.sub = some s ∧ IsSub c.spills s ∧ c'.comps = (nc s).getD 1 := by
  unfold recheck at h
  cases hc : check c.spills with
  | none => rw [hc] at h; cases h
  | some s =>
    rw [hc] at h
    have := check_some.1 hc
    cases h
    exact ⟨this.1, rfl, s, rfl, this.2, rfl⟩

theorem recheck_false {nc : Nat → Option Nat} {c c' : Cont} (h : recheck nc c = (c', false)) : ¬ Uniform c.spills ∧ c' = c := by
  unfold recheck at h
  cases hc : check c.spills with
  | none => rw [hc] at h; cases h; exact ⟨check_none.1 hc, rfl⟩
  | some s => rw [hc] at h; cases h

theorem recheck_of {nc : Nat → Option Nat} {c : Cont} (h : Uniform c.spills) : ∃ c', recheck nc c = (c', true) ∧ c'.spills = c.spills := by
  rcases hr : recheck nc c with ⟨c', b⟩
  cases b with
  | true => exact ⟨c', rfl, (recheck_true hr).2.1⟩
  | false => exact absurd h (recheck_false hr).1

theorem recheck_not {nc : Nat → Option Nat} {c : Cont} (h : ¬ Uniform c.spills) : recheck nc c = (c, false) := by
  rcases hr : recheck nc c with ⟨c', b⟩
  cases b with
  | true => exact absurd (recheck_true hr).1 h
  | false => rw [(recheck_false hr).2]

/-! ## C275: a run has one substance -/

/-- what a container that takes part in a run is to be like -/
def Ready (nc : Nat → Option Nat) (c : Cont) : Prop :=
  Uniform c.spills ∧ ∃ s, c.sub = some s ∧ IsSub c.spills s ∧ c.comps = (nc s).getD 1

/-- **C275**: whatever was done with the spills, when a run is prepared without an error, then in the forecast and in the uncertainty run all spills that are
switched on are of one substance, the substance of the run is that one, and the arrays have its number of components. -/
theorem C275_ready (nc : Nat → Option Nat) (l : List Op) (p : Pair) (h : prepare nc (run nc {} l) = (p, true)) :
    Ready nc p.cert ∧ (p.flag = true → ∃ u, p.unc = some u ∧ Ready nc u) := by
  have key : ∀ c c' : Cont, recheck nc c = (c', true) → Ready nc c' := by
    intro c c' hr
    obtain ⟨h1, h2, s, h3, h4, h5⟩ := recheck_true hr
    exact ⟨h2 ▸ h1, s, h3, h2 ▸ h4, h5⟩
  generalize run nc {} l = q at h
  unfold prepare at h
  split at h
  · split at h
    · cases h
    · split at h
      · cases h
      · rename_i u _ _ c hc
        rcases hr : recheck nc u with ⟨u', b⟩
        rw [hr] at h
        cases h
        exact ⟨key _ _ hc, fun _ => ⟨u', rfl, key _ _ hr⟩⟩
  · rcases hr : recheck nc q.cert with ⟨c, b⟩
    rw [hr] at h
    cases h
    exact ⟨key _ _ hr, fun hf => absurd hf (by assumption)⟩

/-- **C275**, when: without uncertainty a run can be prepared exactly if the spills that are switched on are of one substance. -/
theorem C275_iff (nc : Nat → Option Nat) (p : Pair) (hf : p.flag = false) : (prepare nc p).2 = true ↔ Uniform p.cert.spills := by
  unfold prepare
  rw [hf]
  rcases hr : recheck nc p.cert with ⟨c, b⟩
  cases b with
  | true => simpa [hr] using (recheck_true hr).1
  | false => simpa [hr] using (recheck_false hr).1

/-- **C275**, off: spills that are switched off do not matter. -/
theorem C275_off (nc : Nat → Option Nat) (p : Pair) (hf : p.flag = false) :
    (prepare nc p).2 = (prepare nc { p with cert := { p.cert with spills := p.cert.spills.filter Sp.on } }).2 := by
  have h2 : Uniform p.cert.spills ↔ Uniform (p.cert.spills.filter Sp.on) := by
    constructor
    · intro h a ha b hb
      exact h a (List.mem_filter.1 ha).1 b (List.mem_filter.1 hb).1
    · intro h a ha b hb h1 h2
      exact h a (List.mem_filter.2 ⟨ha, h1⟩) b (List.mem_filter.2 ⟨hb, h2⟩) h1 h2
  exact Bool.eq_iff_iff.2 ((C275_iff nc p hf).trans (h2.trans (C275_iff nc { p with cert := { p.cert with spills := p.cert.spills.filter Sp.on } } hf).symm))

example : (prepare (fun s => some (s + 3)) (run (fun s => some (s + 3)) {}
    [.add ⟨1, true, 5⟩, .add ⟨2, false, 6⟩, .uncertain true, .add ⟨3, true, 5⟩])).2 = true := by decide

example : ((prepare (fun s => some (s + 3)) (run (fun s => some (s + 3)) {}
    [.add ⟨1, true, 5⟩, .add ⟨2, false, 6⟩, .set 1 true 7])).1.cert.sub,
    (prepare (fun s => some (s + 3)) (run (fun s => some (s + 3)) {}
    [.add ⟨1, true, 5⟩, .add ⟨2, false, 6⟩, .set 1 true 7])).1.cert.comps) = (some 7, 10) := by decide

example : (prepare (fun s => some (s + 3)) (run (fun s => some (s + 3)) {}
    [.add ⟨1, true, 5⟩, .add ⟨2, false, 6⟩, .set 2 true 6])).2 = false := by decide

/-! ## C274: a spill of another substance -/

/-- **C274**, as a user would have it: a spill that is refused is not there afterwards. -/
def C274_claim : Prop :=
  ∀ (nc : Nat → Option Nat) (l : List Op) (e : Sp), (add nc (run nc {} l) e).2 = false →
    (add nc (run nc {} l) e).1.cert.spills = (run nc {} l).cert.spills

/-- **C274 is false of the code**: the spills are looked at after the new one is among them, it stays. -/
theorem C274_counterexample : ¬ C274_claim := by
  intro h
  have := h (fun _ => none) [.add ⟨1, true, 5⟩] ⟨2, true, 6⟩ (by decide)
  revert this
  decide

/-- **C274**, out of step: with uncertainty on the refused spill is in the forecast and not in the uncertainty run. -/
theorem C274_step (nc : Nat → Option Nat) (p : Pair) (u : Cont) (e : Sp) (hu : p.unc = some u)
    (hn : e.id ∉ p.cert.spills.map Sp.id) (h : ¬ Uniform (p.cert.spills ++ [e])) :
    (add nc p e).2 = false ∧ (add nc p e).1.cert.spills = p.cert.spills ++ [e] ∧ (add nc p e).1.unc = some u := by
  have h1 : addC nc p.cert e = ({ p.cert with spills := p.cert.spills ++ [e] }, false) := by
    unfold addC
    rw [if_neg hn]
    exact recheck_not h
  unfold add
  rw [h1]
  exact ⟨rfl, rfl, hu⟩

/-- **C274** (what holds): a new spill is refused exactly if it makes spills that are switched on differ in substance; one that is not refused is behind the
others, also as a copy in the uncertainty run. Missing for the claim: a refused one stays. -/
theorem C274_partial (nc : Nat → Option Nat) (p : Pair) (e : Sp) (hn : e.id ∉ p.cert.spills.map Sp.id)
    (hs : p.flag = true → ∃ u, p.unc = some u ∧ u.spills = p.cert.spills) :
    ((add nc p e).2 = true ↔ Uniform (p.cert.spills ++ [e])) ∧
    ((add nc p e).2 = true → (add nc p e).1.cert.spills = p.cert.spills ++ [e] ∧
      (p.flag = true → ∃ u, (add nc p e).1.unc = some u ∧ u.spills = p.cert.spills ++ [e])) := by
  have ha : addC nc p.cert e = recheck nc { p.cert with spills := p.cert.spills ++ [e] } := by
    unfold addC; rw [if_neg hn]
  by_cases hU : Uniform (p.cert.spills ++ [e])
  · obtain ⟨c, h1, h2⟩ := recheck_of (nc := nc) (c := { p.cert with spills := p.cert.spills ++ [e] }) hU
    have ha' := ha.trans h1
    cases hf : p.flag with
    | false =>
      have e1 : add nc p e = ({ p with cert := c }, true) := by
        unfold add; rw [ha']; simp [hf]
      rw [e1]
      exact ⟨⟨fun _ => hU, fun _ => rfl⟩, fun _ => ⟨h2, fun h => absurd h (by simp)⟩⟩
    | true =>
      obtain ⟨u, hu, hus⟩ := hs hf
      obtain ⟨u', h3, h4⟩ := recheck_of (nc := nc) (c := { u with spills := u.spills ++ [e] }) (by rw [hus]; exact hU)
      have e1 : add nc p e = ({ p with cert := c, unc := some u' }, true) := by
        unfold add; rw [ha']; simp only [hf, hu, if_true, h3]
      rw [e1]
      exact ⟨⟨fun _ => hU, fun _ => rfl⟩, fun _ => ⟨h2, fun _ => ⟨u', rfl, by rw [h4]; show u.spills ++ [e] = _; rw [hus]⟩⟩⟩
  · have h1 := recheck_not (nc := nc) (c := { p.cert with spills := p.cert.spills ++ [e] }) hU
    have e1 : (add nc p e).2 = false := by
      unfold add; rw [ha.trans h1]
    rw [e1]
    exact ⟨⟨fun h => (by cases h), fun h => absurd h hU⟩, fun h => (by cases h)⟩

example : (add (fun _ => none) (run (fun _ => none) {} [.uncertain true, .add ⟨1, true, 5⟩]) ⟨2, true, 6⟩).2 = false ∧
    (add (fun _ => none) (run (fun _ => none) {} [.uncertain true, .add ⟨1, true, 5⟩]) ⟨2, true, 5⟩).2 = true := by decide

/-! ## C276: taking a refused spill out again -/

/-- **C276**, as a user would have it: a spill that was refused can be taken out, the spills are then as before. -/
def C276_claim : Prop :=
  ∀ (nc : Nat → Option Nat) (l : List Op) (e : Sp), e.id ∉ (run nc {} l).cert.spills.map Sp.id →
    Uniform (run nc {} l).cert.spills → (add nc (run nc {} l) e).2 = false →
    (remove nc (add nc (run nc {} l) e).1 e.id).2 = true ∧
    (remove nc (add nc (run nc {} l) e).1 e.id).1.cert.spills = (run nc {} l).cert.spills

/-- **C276 is false of the code**: with uncertainty on the place of the copy is looked up first, and there is none. -/
theorem C276_counterexample : ¬ C276_claim := by
  intro h
  have := h (fun _ => none) [.uncertain true, .add ⟨1, true, 5⟩] ⟨2, true, 6⟩ (by decide) (by
    intro a ha b hb _ _
    have e : (run (fun _ => none) {} [.uncertain true, .add ⟨1, true, 5⟩]).cert.spills = [⟨1, true, 5⟩] := by decide
    rw [e] at ha hb
    rw [List.mem_singleton.1 ha, List.mem_singleton.1 hb]) (by decide)
  revert this
  decide

/-- **C276**, stuck: with uncertainty on neither removing that spill nor a rewind helps, both end with an error and the spill stays. -/
theorem C276_stuck (nc : Nat → Option Nat) (p : Pair) (u : Cont) (e : Sp) (hf : p.flag = true) (hu : p.unc = some u)
    (hus : u.spills.length = p.cert.spills.length)
    (hn : e.id ∉ p.cert.spills.map Sp.id) (h : ¬ Uniform (p.cert.spills ++ [e])) :
    (remove nc (add nc p e).1 e.id).2 = false ∧ (remove nc (add nc p e).1 e.id).1.cert.spills = p.cert.spills ++ [e] ∧
    (rewind nc (add nc p e).1).2 = false ∧ (rewind nc (add nc p e).1).1.cert.spills = p.cert.spills ++ [e] := by
  have h1 : addC nc p.cert e = ({ p.cert with spills := p.cert.spills ++ [e] }, false) := by
    unfold addC
    rw [if_neg hn]
    exact recheck_not h
  have e1 : (add nc p e).1 = { p with cert := { p.cert with spills := p.cert.spills ++ [e] } } := by
    unfold add; rw [h1]
  have hix : ((p.cert.spills ++ [e]).map Sp.id).idxOf e.id = p.cert.spills.length := by
    rw [List.map_append, List.idxOf_append, if_neg hn]
    simp
  have hd : delC nc u p.cert.spills.length = (u, false) := by
    unfold delC
    rw [if_neg (by omega)]
  have e2 : remove nc (add nc p e).1 e.id = ((add nc p e).1, false) := by
    rw [e1]
    unfold remove
    have hm : e.id ∈ (p.cert.spills ++ [e]).map Sp.id := by simp
    simp only [hm, hf, hu, if_true, hix, hd]
  have e3 : rewind nc (add nc p e).1 = ({ p with cert := { p.cert with spills := p.cert.spills ++ [e], sub := none, comps := 1 } }, false) := by
    rw [e1]
    unfold rewind rewindC
    rw [recheck_not (by exact h)]
  rw [e2, e3]
  exact ⟨rfl, by rw [e1], rfl, rfl⟩

/-- **C276** (what holds): without uncertainty a refused spill can be taken out, and the spills are as before. Missing for the claim: uncertainty. -/
theorem C276_partial (nc : Nat → Option Nat) (p : Pair) (e : Sp) (hf : p.flag = false)
    (hn : e.id ∉ p.cert.spills.map Sp.id) (hU : Uniform p.cert.spills) (h : (add nc p e).2 = false) :
    (remove nc (add nc p e).1 e.id).2 = true ∧ (remove nc (add nc p e).1 e.id).1.cert.spills = p.cert.spills := by
  have hN : ¬ Uniform (p.cert.spills ++ [e]) := by
    intro hc
    have := ((C274_partial nc p e hn (fun h => by rw [hf] at h; cases h)).1).2 hc
    rw [h] at this; cases this
  have h1 : addC nc p.cert e = ({ p.cert with spills := p.cert.spills ++ [e] }, false) := by
    unfold addC
    rw [if_neg hn]
    exact recheck_not hN
  have e1 : (add nc p e).1 = { p with cert := { p.cert with spills := p.cert.spills ++ [e] } } := by
    unfold add; rw [h1]
  have hix : ((p.cert.spills ++ [e]).map Sp.id).idxOf e.id = p.cert.spills.length := by
    rw [List.map_append, List.idxOf_append, if_neg hn]
    simp
  have her : (p.cert.spills ++ [e]).eraseIdx p.cert.spills.length = p.cert.spills := by
    rw [List.eraseIdx_append_of_length_le (Nat.le_refl _)]
    simp
  obtain ⟨c, h2, h3⟩ := recheck_of (nc := nc) (c := p.cert) hU
  have hd : delC nc { p.cert with spills := p.cert.spills ++ [e] } p.cert.spills.length = (c, true) := by
    unfold delC
    rw [if_pos (by simp)]
    simp only [her]
    exact h2
  have hm : e.id ∈ (p.cert.spills ++ [e]).map Sp.id := by simp
  rw [e1]
  unfold remove
  simp only [hm, hf, if_true, hix, hd]
  exact ⟨rfl, h3⟩

/-! ## C277: switching uncertainty on -/

/-- **C277**, as a user would have it: with uncertainty on there is an uncertainty run. -/
def C277_claim : Prop := ∀ (nc : Nat → Option Nat) (l : List Op), (run nc {} l).flag = true → (run nc {} l).unc.isSome

/-- **C277 is false of the code**: the flag is set before the copies are made, and when a copy is refused there are none. -/
theorem C277_counterexample : ¬ C277_claim := by
  intro h
  have := h (fun _ => none) [.add ⟨1, true, 5⟩, .add ⟨2, true, 5⟩, .set 2 true 6, .uncertain true] (by decide)
  revert this
  decide

theorem uniform_sub {l m : List Sp} (h : Uniform m) (hs : ∀ x ∈ l, x ∈ m) : Uniform l :=
  fun a ha b hb h1 h2 => h a (hs a ha) b (hs b hb) h1 h2

theorem copies_spec (nc : Nat → Option Nat) (l : List Sp) (u : Cont) :
    (Uniform (u.spills ++ l) → ∃ u', copies nc u l = some u' ∧ u'.spills = u.spills ++ l) ∧
    (∀ u', copies nc u l = some u' → u'.spills = u.spills ++ l ∧ (Uniform u.spills → Uniform (u.spills ++ l))) := by
  induction l generalizing u with
  | nil =>
    refine ⟨fun _ => ⟨u, rfl, by simp⟩, ?_⟩
    intro u' h
    cases h
    exact ⟨by simp, fun h => by simpa using h⟩
  | cons e l ih =>
    have hap : u.spills ++ e :: l = (u.spills ++ [e]) ++ l := by simp
    constructor
    · intro hU
      rw [hap] at hU
      obtain ⟨u1, h1, h2⟩ := recheck_of (nc := nc) (c := { u with spills := u.spills ++ [e] })
        (uniform_sub hU (fun x hx => List.mem_append_left _ hx))
      obtain ⟨u', h3, h4⟩ := (ih u1).1 (by rw [h2]; exact hU)
      refine ⟨u', ?_, by rw [h4, h2, hap]⟩
      simp only [copies, h1, h3]
    · intro u' h
      rcases hr : recheck nc { u with spills := u.spills ++ [e] } with ⟨u1, b⟩
      simp only [copies, hr] at h
      cases b with
      | false => cases h
      | true =>
        simp only at h
        obtain ⟨h1, h2, _⟩ := recheck_true hr
        obtain ⟨h3, h4⟩ := (ih u1).2 u' h
        rw [h2] at h3 h4
        exact ⟨by rw [h3, hap], fun _ => by rw [hap]; exact h4 h1⟩

/-- **C277** (what holds): switched on with spills of one substance there is a copy of each of them, in order, and the forecast is as it was; switched off
there is none. Missing for the claim: spills that differ. -/
theorem C277_partial (nc : Nat → Option Nat) (p : Pair) (hf : p.flag = false) :
    ((uncertain nc p true).2 = true ↔ Uniform p.cert.spills) ∧
    ((uncertain nc p true).2 = true → (uncertain nc p true).1.flag = true ∧ (uncertain nc p true).1.cert = p.cert ∧
      ∃ u, (uncertain nc p true).1.unc = some u ∧ u.spills = p.cert.spills) ∧
    ∀ q : Pair, q.flag = true → (uncertain nc q false).1 = { q with flag := false, unc := none } := by
  obtain ⟨k1, k2⟩ := copies_spec nc p.cert.spills {}
  have hnil : Uniform (({} : Cont).spills) := by intro a ha; cases ha
  have hq : ∀ q : Pair, q.flag = true → (uncertain nc q false).1 = { q with flag := false, unc := none } := by
    intro q hq
    unfold uncertain
    simp [hq]
  cases hc : copies nc {} p.cert.spills with
  | none =>
    have e1 : uncertain nc p true = ({ p with flag := true }, false) := by
      unfold uncertain; simp [hf, hc]
    rw [e1]
    refine ⟨⟨fun h => (by cases h), fun h => ?_⟩, fun h => (by cases h), hq⟩
    obtain ⟨u', h1, _⟩ := k1 (by simpa using h)
    rw [hc] at h1; cases h1
  | some u =>
    have e1 : uncertain nc p true = ({ p with flag := true, unc := some u }, true) := by
      unfold uncertain; simp [hf, hc]
    rw [e1]
    obtain ⟨h1, h2⟩ := k2 u hc
    exact ⟨⟨fun _ => by simpa using h2 hnil, fun _ => rfl⟩, fun _ => ⟨rfl, rfl, u, rfl, by simpa using h1⟩, hq⟩

/-- **C277**, after the error: neither adding a spill nor removing one nor preparing a run is possible until uncertainty is switched off, which itself ends
with an error, but helps. -/
theorem C277_error (nc : Nat → Option Nat) (p : Pair) (hf : p.flag = true) (hu : p.unc = none) :
    (∀ e, (add nc p e).2 = false) ∧ (∀ i, (remove nc p i).2 = false) ∧ (prepare nc p).2 = false ∧ (rewind nc p).2 = false ∧
    (uncertain nc p false).2 = false ∧ (uncertain nc p false).1.flag = false := by
  refine ⟨fun e => ?_, fun i => ?_, ?_, ?_, ?_, ?_⟩
  · unfold add
    rcases addC nc p.cert e with ⟨c, b⟩
    cases b <;> simp [hf, hu]
  · unfold remove
    split
    · simp [hu]
    · rfl
  · unfold prepare; simp [hf, hu]
  · unfold rewind
    rcases rewindC nc p.cert with ⟨c, b⟩
    cases b <;> simp [hf, hu]
  · unfold uncertain; simp [hf, hu]
  · unfold uncertain; simp [hf]

example : ((run (fun _ => none) {} [.add ⟨1, true, 5⟩, .add ⟨2, true, 5⟩, .uncertain true]).unc.map Cont.spills) =
    some [⟨1, true, 5⟩, ⟨2, true, 5⟩] := by decide

/-- **C277**, rewind: with uncertainty on, a rewind without error leaves the forecast and the uncertainty run with the same spills and substance. -/
theorem C277_rewind (nc : Nat → Option Nat) (p q : Pair) (hf : p.flag = true) (h : rewind nc p = (q, true)) :
    ∃ u, q.unc = some u ∧ u.spills = q.cert.spills ∧ Ready nc q.cert ∧ q.cert.spills = p.cert.spills := by
  unfold rewind at h
  rcases hr : rewindC nc p.cert with ⟨c, b⟩
  rw [hr] at h
  cases b with
  | false => cases h
  | true =>
    obtain ⟨r1, r2, s, r3, r4, r5⟩ := recheck_true (show recheck nc _ = (c, true) from hr)
    have r2' : c.spills = p.cert.spills := r2
    have hready : Ready nc c := ⟨r2 ▸ r1, s, r3, r2 ▸ r4, r5⟩
    simp only [hf, if_true] at h
    split at h
    · cases h
    · rename_i u hu
      rcases hr2 : rewindC nc u with ⟨u', b'⟩
      rw [hr2] at h
      cases b' with
      | false => cases h
      | true =>
        simp only at h
        split at h
        · rename_i heq
          cases h
          exact ⟨u', rfl, heq.symm, hready, r2'⟩
        · split at h
          · rename_i u'' hu''
            cases h
            exact ⟨u'', rfl, by simpa using ((copies_spec nc c.spills {}).2 u'' hu'').1, hready, r2'⟩
          · cases h

end Verif.SpillSet.Subst
