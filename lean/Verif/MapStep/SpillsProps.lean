import Verif.MapStep.Props
import Mathlib.Algebra.BigOperators.Group.List.Basic
import Mathlib.Tactic.Ring
import Mathlib.Tactic.Linarith

/-!
# C355: spills do not disturb each other

A run with two spills (or two sets of spills), and the runs with one of them each. The movers and the losses by weathering are functions of
the element (C83 and C91 say so of weathering; a current, a wind or a tide is a function of place and time).  What could couple the spills is
the order of the elements in the arrays, and the random numbers of refloating, which are handed out in that order (`maps/map.py:1116-1154`).
-/

namespace Verif.MapStep.Spills
open Verif.Geom Verif.MapStep

/-- What happens in a run: the releases of the one spill and of the other in a step (`model.py:1237-1268` goes through the spills in
order), and the rest of the step: movers as functions of the place, losses as functions of the element. -/
inductive Ev where
  | rel (a b : List New)
  | step (p : ℚ) (rs : List ℚ) (fs : List (P3 → P3)) (loss : Elem → ℚ)

/-- Any element: never looked at. -/
def no : Elem := ⟨.zero, .zero, .zero, 0, 0, 0, false⟩

/-- The array that a mover returns: it is asked after refloating (`model.py:990-1001`). -/
def deltas (es : List Elem) (fs : List (P3 → P3)) : List (Nat → P3) := fs.map fun f i => f (es.getD i no).pos

/-- A step with such movers and losses, in terms of `MapStep.Model` (as `stepR`). -/
def step (M : RMap) (p : ℚ) (rs : List ℚ) (fs : List (P3 → P3)) (loss : Elem → ℚ) (sc : SC) : Option SC :=
  (moveElements M p rs (deltas (refloat M.hl p sc.els rs) fs) sc).map fun s => remove (weather (fun i => loss (s.els.getD i no)) s)

/-- A run in which the releases are chosen by `pick`. -/
def runOf (M : RMap) (pick : List New → List New → List New) : List Ev → SC → Option SC
  | [], sc => some sc
  | .rel a b :: evs, sc => runOf M pick evs (release M (pick a b) sc)
  | .step p rs fs loss :: evs, sc => (step M p rs fs loss sc).bind (runOf M pick evs)

/-- It is a run of the model of `MapStep`. -/
theorem runOf_run (M : RMap) (pick : List New → List New → List New) (evs : List Ev) : ∀ sc sc', runOf M pick evs sc = some sc' →
    ∃ ops, run M ops sc = some sc' := by
  induction evs with
  | nil => intro sc sc' h; exact ⟨[], h⟩
  | cons ev evs ih =>
    intro sc sc' h
    cases ev with
    | rel a b =>
      obtain ⟨ops, ho⟩ := ih _ _ h
      exact ⟨.rel (pick a b) :: ops, ho⟩
    | step p rs fs loss =>
      simp only [runOf, step] at h
      cases hm : moveElements M p rs (deltas (refloat M.hl p sc.els rs) fs) sc with
      | none => rw [hm] at h; cases h
      | some s =>
        rw [hm] at h
        obtain ⟨ops, ho⟩ := ih _ _ h
        refine ⟨.step p rs (deltas (refloat M.hl p sc.els rs) fs) (fun i => loss (s.els.getD i no)) :: ops, ?_⟩
        simp only [run, exec, stepR, hm]
        exact ho

/-- The run with both spills, with the first only, with the second only. -/
def both (M : RMap) (evs : List Ev) : Option SC := runOf M (· ++ ·) evs .empty
def first (M : RMap) (evs : List Ev) : Option SC := runOf M (fun a _ => a) evs .empty
def second (M : RMap) (evs : List Ev) : Option SC := runOf M (fun _ b => b) evs .empty

/-- The elements with the tag `b`. -/
def pick (b : Bool) (t : List (Bool × Elem)) : List Elem := (t.filter fun x => x.1 == b).map Prod.snd

/-- `s` is made of `s1` and `s2`: every element belongs to one of them, those of each in their order, with the same places, statuses, masses
and fates; and the figures of the mass balance add up. -/
structure MadeOf (s s1 s2 : SC) : Prop where
  els : ∃ t : List (Bool × Elem), t.map Prod.snd = s.els ∧ pick true t = s1.els ∧ pick false t = s2.els
  beached : s.beached = s1.beached + s2.beached
  offMap : s.offMap = s1.offMap + s2.offMap
  lost : s.lost = s1.lost + s2.lost
  released : s.released = s1.released + s2.released

/-- The claim. -/
def C355_claim : Prop :=
  ∀ (M : RMap) (evs : List Ev) (s s1 s2 : SC), (∀ r ∈ M.ratios, 0 < r) → both M evs = some s → first M evs = some s1 →
    second M evs = some s2 → MadeOf s s1 s2

/-! ## Steps as maps -/

/-- Refloating without chance. -/
def ref0 (hl : ℚ) (e : Elem) : Elem := if e.status = onLand ∧ hl = 0 then float e else e

theorem refloat_map (hl p : ℚ) (h : hl ≤ 0) (es : List Elem) : ∀ rs, refloat hl p es rs = es.map (ref0 hl) := by
  induction es with
  | nil => intro rs; rfl
  | cons e es ih =>
    intro rs
    simp only [refloat, List.map_cons, ref0, refloats, not_lt.2 h, if_false]
    by_cases hs : e.status = onLand
    · rw [if_pos hs, ih]
      by_cases h0 : hl = 0
      · simp [hs, h0]
      · have : hl < 0 := lt_of_le_of_ne h h0
        simp [this, h0]
    · rw [if_neg hs, ih]
      simp [hs]

theorem mapIdx_self {α β : Type} (d : α) (F : α → α → β) (l : List α) :
    l.mapIdx (fun i e => F e (l.getD i d)) = l.map fun e => F e e := by
  apply List.ext_getElem?
  intro n
  simp only [List.getElem?_mapIdx, List.getElem?_map, List.getD_eq_getElem?_getD]
  cases h : l[n]? with
  | none => rfl
  | some a => simp

/-- Moving one element by functions of its place. -/
def moveF (fs : List (P3 → P3)) (e : Elem) : Elem :=
  { e with nxt := fs.foldl (fun a f => a.add (if e.status = inWater then f e.pos else .zero)) e.pos }

theorem move_deltas (es : List Elem) (fs : List (P3 → P3)) (i : Nat) (e : Elem) :
    move (deltas es fs) i e = { e with nxt := fs.foldl (fun a f => a.add (if e.status = inWater then f (es.getD i no).pos else .zero)) e.pos } := by
  unfold move deltas
  rw [List.foldl_map]

/-- An element before the bounds are looked at, and at the end of the move. -/
def mid (M : RMap) (fs : List (P3 → P3)) (e : Elem) : Elem := offOne M.bounds (beachT M (moveF fs (ref0 M.hl e)))
def done (M : RMap) (fs : List (P3 → P3)) (e : Elem) : Elem := arrive (fateOne (markOne (mid M fs e)))

/-- What an element loses, and the element after it. -/
def lossOf (loss : Elem → ℚ) (e : Elem) : ℚ := if weathers e then loss e else 0
def lose (loss : Elem → ℚ) (e : Elem) : Elem := if weathers e then { e with mass := e.mass - loss e } else e

/-- A step in closed form. -/
theorem step_eq (M : RMap) (hr : ∀ r ∈ M.ratios, 0 < r) (hl : M.hl ≤ 0) (p : ℚ) (rs : List ℚ) (fs : List (P3 → P3)) (loss : Elem → ℚ)
    (sc : SC) : step M p rs fs loss sc = some
      { els := ((sc.els.map (done M fs)).map (lose loss)).filter (fun e => e.status ≠ toBeRemoved)
        beached := massOf 3 (sc.els.map (mid M fs))
        offMap := sc.offMap + massOf 7 (sc.els.map (mid M fs))
        lost := sc.lost + ((sc.els.map (done M fs)).map (lossOf loss)).sum
        released := sc.released } := by
  unfold step
  rw [moveElements_eq M hr]
  have e1 : refloat M.hl p sc.els rs = sc.els.map (ref0 M.hl) := refloat_map _ _ hl _ _
  rw [e1]
  have e2 : (sc.els.map (ref0 M.hl)).mapIdx (fin M (deltas (sc.els.map (ref0 M.hl)) fs)) = sc.els.map (done M fs) := by
    have := mapIdx_self no (fun e x : Elem => arrive (fateOne (markOne (offOne M.bounds (beachT M
      { e with nxt := fs.foldl (fun a f => a.add (if e.status = inWater then f x.pos else .zero)) e.pos }))))) (sc.els.map (ref0 M.hl))
    rw [List.map_map] at this
    unfold fin
    simp only [move_deltas]
    exact this
  have e3 : (sc.els.map (ref0 M.hl)).mapIdx (fun i e => offOne M.bounds (beachT M (move (deltas (sc.els.map (ref0 M.hl)) fs) i e))) =
      sc.els.map (mid M fs) := by
    have := mapIdx_self no (fun e x : Elem => offOne M.bounds (beachT M
      { e with nxt := fs.foldl (fun a f => a.add (if e.status = inWater then f x.pos else .zero)) e.pos })) (sc.els.map (ref0 M.hl))
    rw [List.map_map] at this
    simp only [move_deltas]
    exact this
  rw [e2, e3]
  simp only [Option.map_some, weather, remove]
  have e4 := mapIdx_self no (fun e x : Elem => if weathers e then { e with mass := e.mass - loss x } else e) (sc.els.map (done M fs))
  have e5 := mapIdx_self no (fun e x : Elem => if weathers e then loss x else 0) (sc.els.map (done M fs))
  rw [e4, e5]
  rfl

/-! ## Tagged elements -/

theorem pick_map (b : Bool) (f : Elem → Elem) (t : List (Bool × Elem)) : pick b (t.map fun x => (x.1, f x.2)) = (pick b t).map f := by
  unfold pick
  rw [List.filter_map, List.map_map, List.map_map]
  rfl

theorem pick_filter (b : Bool) (q : Elem → Bool) (t : List (Bool × Elem)) : pick b (t.filter fun x => q x.2) = (pick b t).filter q := by
  unfold pick
  rw [List.filter_map, List.filter_filter, List.filter_filter]
  congr 1
  apply List.filter_congr
  intro x _
  simp only [Function.comp]
  exact Bool.and_comm _ _

theorem pick_append (b : Bool) (s t : List (Bool × Elem)) : pick b (s ++ t) = pick b s ++ pick b t := by
  unfold pick; rw [List.filter_append, List.map_append]

theorem pick_tag (b c : Bool) (l : List Elem) : pick b (l.map fun e => (c, e)) = if c = b then l else [] := by
  unfold pick
  induction l with
  | nil => simp
  | cons e l ih => cases b <;> cases c <;> simp_all

/-- Sums over all are sums over the two. -/
theorem sum_pick (f : Elem → ℚ) (t : List (Bool × Elem)) :
    ((t.map Prod.snd).map f).sum = ((pick true t).map f).sum + ((pick false t).map f).sum := by
  induction t with
  | nil => simp [pick]
  | cons x t ih =>
    obtain ⟨b, e⟩ := x
    have : pick true ((b, e) :: t) = (if b then [e] else []) ++ pick true t ∧ pick false ((b, e) :: t) = (if b then [] else [e]) ++ pick false t := by
      cases b <;> exact ⟨rfl, rfl⟩
    rw [this.1, this.2, List.map_cons, List.map_cons, List.sum_cons, ih]
    cases b <;> simp <;> ring

theorem massOf_sum (st : Nat) (l : List Elem) : massOf st l = (l.map fun e => if e.status = st then e.mass else 0).sum := by
  unfold massOf
  induction l with
  | nil => rfl
  | cons e l ih =>
    by_cases h : e.status = st
    · simp [h, ih]
    · simp [h, ih]

/-! ## C355 -/

theorem release_made (M : RMap) (a b : List New) {s s1 s2 : SC} (h : MadeOf s s1 s2) :
    MadeOf (release M (a ++ b) s) (release M a s1) (release M b s2) := by
  obtain ⟨⟨t, h1, h2, h3⟩, hb, ho, hl, hrel⟩ := h
  refine ⟨⟨t ++ ((a.map (mkElem M)).map fun e => (true, e)) ++ ((b.map (mkElem M)).map fun e => (false, e)), ?_, ?_, ?_⟩, hb, ho, hl, ?_⟩
  · simp [release, h1, Function.comp_def]
  · rw [pick_append, pick_append, pick_tag, pick_tag, h2]; simp [release]
  · rw [pick_append, pick_append, pick_tag, pick_tag, h3]; simp [release]
  · simp only [release, List.map_append, List.sum_append, hrel]; ring

theorem step_made (M : RMap) (hr : ∀ r ∈ M.ratios, 0 < r) (hl : M.hl ≤ 0) (p : ℚ) (rs : List ℚ) (fs : List (P3 → P3)) (loss : Elem → ℚ)
    {s s1 s2 : SC} (h : MadeOf s s1 s2) : ∃ r r1 r2, step M p rs fs loss s = some r ∧ step M p rs fs loss s1 = some r1 ∧
      step M p rs fs loss s2 = some r2 ∧ MadeOf r r1 r2 := by
  refine ⟨_, _, _, step_eq M hr hl p rs fs loss s, step_eq M hr hl p rs fs loss s1, step_eq M hr hl p rs fs loss s2, ?_⟩
  obtain ⟨⟨t, h1, h2, h3⟩, hb, ho, hlo, hrel⟩ := h
  have tm : ∀ f : Elem → Elem, (t.map fun x => (x.1, f x.2)).map Prod.snd = s.els.map f := by
    intro f; rw [← h1, List.map_map, List.map_map]; rfl
  have mass : ∀ (st : Nat) (f : Elem → Elem), massOf st (s.els.map f) = massOf st (s1.els.map f) + massOf st (s2.els.map f) := by
    intro st f
    rw [massOf_sum, massOf_sum, massOf_sum, ← tm f, sum_pick, pick_map, pick_map, h2, h3]
  refine ⟨⟨((t.map fun x => (x.1, done M fs x.2)).map fun x => (x.1, lose loss x.2)).filter fun x => decide (x.2.status ≠ toBeRemoved),
    ?_, ?_, ?_⟩, ?_, ?_, ?_, hrel⟩
  · simp only [← h1, List.map_map, List.filter_map]
    rfl
  · rw [pick_filter true (fun e => decide (e.status ≠ toBeRemoved)), pick_map, pick_map, h2]
  · rw [pick_filter false (fun e => decide (e.status ≠ toBeRemoved)), pick_map, pick_map, h3]
  · exact mass 3 (mid M fs)
  · simp only [mass 7 (mid M fs), ho]; ring
  · simp only [← tm (done M fs), sum_pick, pick_map, h2, h3, hlo]; ring

/-- The part that holds: on a map where refloating is not by chance (a half-life of zero, or none), every run with both spills is made of
the runs with one of them each, whatever is released when, and whatever the movers and the losses. -/
theorem C355_partial (M : RMap) (hr : ∀ r ∈ M.ratios, 0 < r) (hl : M.hl ≤ 0) (evs : List Ev) :
    ∃ s s1 s2, both M evs = some s ∧ first M evs = some s1 ∧ second M evs = some s2 ∧ MadeOf s s1 s2 := by
  have : ∀ s s1 s2, MadeOf s s1 s2 → ∃ r r1 r2, runOf M (· ++ ·) evs s = some r ∧ runOf M (fun a _ => a) evs s1 = some r1 ∧
      runOf M (fun _ b => b) evs s2 = some r2 ∧ MadeOf r r1 r2 := by
    induction evs with
    | nil => intro s s1 s2 h; exact ⟨s, s1, s2, rfl, rfl, rfl, h⟩
    | cons ev evs ih =>
      intro s s1 s2 h
      cases ev with
      | rel a b => exact ih _ _ _ (release_made M a b h)
      | step p rs fs loss =>
        obtain ⟨r, r1, r2, e, e1, e2, hm⟩ := step_made M hr hl p rs fs loss h
        simp only [runOf, e, e1, e2, Option.bind_some]
        exact ih _ _ _ hm
  exact this _ _ _ ⟨⟨[], rfl, rfl, rfl⟩, by simp [SC.empty], by simp [SC.empty], by simp [SC.empty], by simp [SC.empty]⟩

/-- In particular a spill of which nothing is released changes nothing at all. -/
theorem C355_nothing (M : RMap) (evs : List Ev) (h : ∀ a b, Ev.rel a b ∈ evs → b = []) : both M evs = first M evs := by
  have : ∀ s, runOf M (· ++ ·) evs s = runOf M (fun a _ => a) evs s := by
    induction evs with
    | nil => intro s; rfl
    | cons ev evs ih =>
      intro s
      have ih' := ih fun a b hm => h a b (List.mem_cons_of_mem _ hm)
      cases ev with
      | rel a b =>
        have hb := h a b (by simp)
        subst hb
        simp only [runOf, List.append_nil]
        exact ih' _
      | step p rs fs loss =>
        simp only [runOf]
        cases step M p rs fs loss s with
        | none => rfl
        | some r => exact ih' r
  exact this _

/-- The order in which the spills are in the model does not matter either: the same elements, in another order. -/
theorem C355_order (M : RMap) (hr : ∀ r ∈ M.ratios, 0 < r) (hl : M.hl ≤ 0) (evs : List Ev) (s s' : SC) (hs : both M evs = some s)
    (hs' : runOf M (fun a b => b ++ a) evs .empty = some s') : s.els.Perm s'.els := by
  have perm : ∀ t : List (Bool × Elem), (t.map Prod.snd).Perm (pick true t ++ pick false t) := by
    intro t
    induction t with
    | nil => exact .refl _
    | cons x t ih =>
      obtain ⟨b, e⟩ := x
      cases b
      · exact (ih.cons e).trans (List.perm_middle.symm)
      · exact ih.cons e
  let sw : Ev → Ev := fun ev => match ev with | .rel a b => .rel b a | .step p rs fs l => .step p rs fs l
  have e : ∀ (evs : List Ev) (g : List New → List New → List New) (x : SC), runOf M g (evs.map sw) x = runOf M (fun a b => g b a) evs x := by
    intro evs
    induction evs with
    | nil => intro g x; rfl
    | cons ev evs ih =>
      intro g x
      cases ev with
      | rel a b => exact ih g _
      | step p rs fs l =>
        simp only [List.map_cons, runOf, sw]
        cases step M p rs fs l x with
        | none => rfl
        | some r => exact ih g r
  obtain ⟨r, r1, r2, q, q1, q2, hm⟩ := C355_partial M hr hl evs
  obtain ⟨r', r1', r2', q', q1', q2', hm'⟩ := C355_partial M hr hl (evs.map sw)
  have a1 := e evs (· ++ ·) .empty
  have a2 := e evs (fun a _ => a) .empty
  have a3 := e evs (fun _ b => b) .empty
  simp only [both, first, second] at q q1 q2 q' q1' q2' hs
  rw [a1, hs'] at q'
  rw [a2, q2] at q1'
  rw [a3, q1] at q2'
  rw [q] at hs
  cases hs; cases q'; cases q1'; cases q2'
  obtain ⟨t, h1, h2, h3⟩ := hm.els
  obtain ⟨t', h1', h2', h3'⟩ := hm'.els
  rw [← h1, ← h1']
  refine (perm t).trans (.trans ?_ (perm t').symm)
  rw [h2, h3, h2', h3']
  exact List.perm_append_comm

/-- Two elements on the same shore, one of each spill, and two random numbers. -/
def shore : List Ev :=
  [.rel [⟨⟨1/2, 1/2, 0⟩, 10, 2, false⟩] [⟨⟨1/2, 1/2, 0⟩, 20, 2, false⟩], .step (1/2) [] [fun _ => ⟨2, 0, 0⟩] (fun _ => 0),
    .step (1/2) [3/4, 1/4] [] (fun _ => 0)]

/-- The claim fails in the code when refloating is by chance: alone, the second spill gets the first random number and stays ashore; beside
the first spill it gets the second one and floats. -/
theorem C355_counterexample : ¬ C355_claim := by
  intro h
  have h0 : (both (demoMap2 1) shore).map (fun sc => sc.els.map fun e => e.status) = some [3, 2] := by decide +kernel
  have h1 : (first (demoMap2 1) shore).map (fun sc => sc.els.map fun e => e.status) = some [3] := by decide +kernel
  have h2 : (second (demoMap2 1) shore).map (fun sc => sc.els.map fun e => e.status) = some [3] := by decide +kernel
  cases e0 : both (demoMap2 1) shore with
  | none => rw [e0] at h0; cases h0
  | some s =>
    cases e1 : first (demoMap2 1) shore with
    | none => rw [e1] at h1; cases h1
    | some s1 =>
      cases e2 : second (demoMap2 1) shore with
      | none => rw [e2] at h2; cases h2
      | some s2 =>
        rw [e0] at h0; rw [e1] at h1; rw [e2] at h2
        simp only [Option.map_some, Option.some.injEq] at h0
        simp only [Option.map_some, Option.some.injEq] at h1
        simp only [Option.map_some, Option.some.injEq] at h2
        obtain ⟨t, p0, p1, p2⟩ := (h _ shore s s1 s2 (by decide) e0 e1 e2).els
        have k := sum_pick (fun e => (e.status : ℚ)) t
        rw [p0, p1, p2] at k
        have c : ∀ l : List Elem, (l.map fun e => (e.status : ℚ)) = (l.map fun e => e.status).map fun n : Nat => (n : ℚ) := by
          intro l; rw [List.map_map]; rfl
        rw [c, c, c, h0, h1, h2] at k
        norm_num at k

/-- A run with two spills of which one beaches. -/
example : (both (demoMap2 (-1)) [.rel [⟨⟨1/2, 1/2, 0⟩, 10, 2, false⟩] [⟨⟨1/2, 3/2, 0⟩, 20, 2, false⟩],
    .step (1/2) [] [fun _ => ⟨2, 0, 0⟩] (fun _ => 1)]).map (fun sc => (sc.els.map fun e => (e.status, e.mass), sc.beached, sc.released)) =
    some ([(3, 10), (2, 19)], 10, 30) := by decide +kernel

end Verif.MapStep.Spills
