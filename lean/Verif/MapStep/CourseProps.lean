import Verif.MapStep.EastProps
import Verif.MapStep.CallsModel

/-!
# C353: where the oil goes does not depend on how it weathers

Two runs with the same places of release, displacements and random numbers, on the same map, but with any weatherers, responses, amounts and
substances.  The model is that of `MapStep.Calls`.
-/

namespace Verif.MapStep.Course
open Verif.Geom Verif.MapStep Verif.MapStep.Calls
open Verif.Land (checkLayersOne)

/-! ## What the course of a run is -/

/-- A release of the same places: no mass, no flags. -/
def blank (n : New) : New := ⟨n.pos, 0, 0, false⟩

/-- What of an operation has to do with transport: the places of release; the steps without weathering.  The marking of elements for a
response is left out. -/
def bare : Calls.Op → List Calls.Op
  | .rel ns => [.rel (ns.map blank)]
  | .prep _ => []
  | .step p rs ds _ => [.step p rs ds []]

/-- What one sees of the transport: positions and statuses. -/
def course (s : Calls.St) : List (P3 × Nat) := s.sc.els.map fun e => (e.pos, e.status)

/-! ## Elements that go together -/

structure Same (e e' : Elem) : Prop where
  pos : e'.pos = e.pos
  nxt : e'.nxt = e.nxt
  lwp : e'.lwp = e.lwp
  status : e'.status = e.status

theorem refloat_same (hl p : ℚ) {es es' : List Elem} (h : List.Forall₂ Same es es') :
    ∀ rs, List.Forall₂ Same (refloat hl p es rs) (refloat hl p es' rs) := by
  induction h with
  | nil => intro rs; exact .nil
  | @cons e e' es es' h _ ih =>
    intro rs
    simp only [refloat, h.status]
    by_cases h3 : e.status = onLand
    · simp only [if_pos h3]
      refine .cons ?_ (ih _)
      by_cases hr : refloats hl p (rs.headD 1) = true
      · simp only [if_pos hr]; exact ⟨h.lwp, h.nxt, h.lwp, rfl⟩
      · simp only [if_neg hr]; exact h
    · simp only [if_neg h3]
      exact .cons h (ih _)

theorem move_same {e e' : Elem} (h : Same e e') (ds : List (Nat → P3)) (i : Nat) : Same (move ds i e) (move ds i e') := by
  refine ⟨h.pos, ?_, h.lwp, h.status⟩
  unfold move
  simp only [h.pos, h.status]

theorem beach_same {M : RMap} {e e' r : Elem} (h : Same e e') (hr : beachOne M e = some r) : ∃ r', beachOne M e' = some r' ∧ Same r r' := by
  have h1 : (resurface e').pos = (resurface e).pos := h.pos
  have h2 : (resurface e').nxt = (resurface e).nxt := by unfold resurface; rw [h.nxt]
  have h3 : (resurface e').lwp = (resurface e).lwp := h.lwp
  have h4 : (resurface e').status = (resurface e).status := h.status
  unfold beachOne at hr ⊢
  simp only [h1, h2, h3, h4] at hr ⊢
  cases hc : checkLayersOne M.grid M.ratios ⟨M.pixel (resurface e).pos, M.pixel (resurface e).nxt, (resurface e).status, M.pixel (resurface e).lwp⟩ with
  | none => rw [hc] at hr; cases hr
  | some c =>
    rw [hc] at hr
    simp only [Option.some.injEq] at hr ⊢
    refine ⟨_, rfl, ?_⟩
    subst hr
    by_cases hs : c.status = onLand
    · simp only [if_pos hs]
      split
      · exact ⟨rfl, rfl, rfl, rfl⟩
      · exact ⟨rfl, rfl, rfl, rfl⟩
    · simp only [if_neg hs]
      split
      · exact ⟨rfl, rfl, rfl, rfl⟩
      · exact ⟨rfl, rfl, rfl, rfl⟩

theorem off_same {b : List Pt} {e e' : Elem} (h : Same e e') : Same (offOne b e) (offOne b e') := by
  unfold offOne
  rw [h.nxt]
  split
  · exact h
  · exact ⟨h.pos, rfl, h.lwp, rfl⟩

theorem end_same {e e' : Elem} (h : Same e e') : Same (arrive (fateOne (markOne e))) (arrive (fateOne (markOne e'))) := by
  have hm : Same (markOne e) (markOne e') := by
    unfold markOne
    rw [h.status]
    split
    · exact ⟨h.pos, h.nxt, h.lwp, rfl⟩
    · exact h
  exact ⟨hm.nxt, hm.nxt, hm.lwp, hm.status⟩

theorem mapM_same {M : RMap} {l l' : List Elem} (h : List.Forall₂ Same l l') :
    ∀ r, l.mapM (beachOne M) = some r → ∃ r', l'.mapM (beachOne M) = some r' ∧ List.Forall₂ Same r r' := by
  induction h with
  | nil => intro r hr; exact ⟨[], rfl, by cases hr; exact .nil⟩
  | @cons e e' l l' h _ ih =>
    intro r hr
    rw [List.mapM_cons] at hr
    cases hb : beachOne M e with
    | none => rw [hb] at hr; cases hr
    | some b =>
      cases hm : l.mapM (beachOne M) with
      | none => rw [hb, hm] at hr; cases hr
      | some bs =>
        rw [hb, hm] at hr
        obtain ⟨b', hb', h1⟩ := beach_same h hb
        obtain ⟨bs', hm', h2⟩ := ih bs hm
        refine ⟨b' :: bs', ?_, ?_⟩
        · rw [List.mapM_cons, hb', hm']; rfl
        · cases hr; exact .cons h1 h2

abbrev SameS (a b : SC) : Prop := List.Forall₂ Same a.els b.els

theorem moveElements_same {M : RMap} {p : ℚ} {rs : List ℚ} {ds : List (Nat → P3)} {a b r : SC} (h : SameS a b)
    (hr : moveElements M p rs ds a = some r) : ∃ r', moveElements M p rs ds b = some r' ∧ SameS r r' := by
  have h1 := refloat_same M.hl p h rs
  have h2 := East.forall₂_mapIdx (S := Same) h1 (fun i x y hxy => move_same hxy ds i)
  unfold moveElements rasterBeach at hr ⊢
  simp only at hr ⊢
  cases hm : ((refloat M.hl p a.els rs).mapIdx (move ds)).mapM (beachOne M) with
  | none => rw [hm] at hr; cases hr
  | some bs =>
    obtain ⟨bs', hm', h3⟩ := mapM_same h2 bs hm
    rw [hm] at hr
    rw [hm']
    simp only [Option.some.injEq] at hr ⊢
    subst hr
    refine ⟨_, rfl, ?_⟩
    simp only [SameS, setOff, List.map_map]
    rw [List.forall₂_map_left_iff, List.forall₂_map_right_iff]
    exact h3.imp fun _ _ hxy => end_same (off_same hxy)

theorem remove_same {a b : SC} (h : SameS a b) : SameS (remove a) (remove b) := by
  unfold SameS remove at *
  simp only
  revert h
  generalize a.els = l
  generalize b.els = l'
  intro h
  induction h with
  | nil => exact .nil
  | @cons e e' l l' h _ ih =>
    simp only [List.filter_cons, h.status]
    split
    · exact .cons h ih
    · exact ih

theorem same_refl (l : List Elem) : List.Forall₂ Same l l := List.forall₂_same.2 fun _ _ => ⟨rfl, rfl, rfl, rfl⟩

theorem same_trans {a b c : Elem} (h : Same a b) (h' : Same b c) : Same a c :=
  ⟨h'.pos.trans h.pos, h'.nxt.trans h.nxt, h'.lwp.trans h.lwp, h'.status.trans h.status⟩

/-- Weathering changes masses only. -/
theorem weather_same (cs : List Call) : ∀ (s : Calls.St) (l : List Elem), List.Forall₂ Same s.sc.els l → List.Forall₂ Same (weatherAll cs s).sc.els l := by
  induction cs with
  | nil => intro s l h; exact h
  | cons c cs ih =>
    intro s l h
    refine ih (call c s) l ?_
    show List.Forall₂ Same (callEls c s.sc.els) l
    unfold callEls
    have := East.forall₂_mapIdx (S := Same) (f := fun i e => if inView c.flag e then { e with mass := e.mass - c.loss s.sc.els i } else e)
      (g := fun _ e => e) h (by
        intro i x y hxy
        split
        · exact ⟨hxy.pos, hxy.nxt, hxy.lwp, hxy.status⟩
        · exact hxy)
    rwa [show l.mapIdx (fun _ e => e) = l by
      apply List.ext_getElem?
      intro n
      simp] at this

theorem mark_same (f : Nat → Elem → Nat) (sc : SC) (l : List Elem) (h : List.Forall₂ Same sc.els l) : List.Forall₂ Same (mark f sc).els l := by
  unfold mark
  have := East.forall₂_mapIdx (S := Same) (f := fun i e => { e with fate := f i e }) (g := fun _ e => e) h (by
    intro i x y hxy
    exact ⟨hxy.pos, hxy.nxt, hxy.lwp, hxy.status⟩)
  rwa [show l.mapIdx (fun _ e => e) = l by
    apply List.ext_getElem?
    intro n
    simp] at this

theorem release_same {M : RMap} (ns : List New) {a b : SC} (h : SameS a b) : SameS (release M ns a) (release M (ns.map blank) b) := by
  unfold SameS release
  simp only
  refine List.rel_append h ?_
  rw [List.map_map, List.forall₂_map_left_iff, List.forall₂_map_right_iff, List.forall₂_same]
  intro n _
  exact ⟨rfl, rfl, rfl, rfl⟩

theorem run_bare {M : RMap} : ∀ (ops : List Calls.Op) {a b r : Calls.St}, SameS a.sc b.sc → Calls.run M ops a = some r →
    ∃ r', Calls.run M (ops.flatMap bare) b = some r' ∧ SameS r.sc r'.sc := by
  intro ops
  induction ops with
  | nil => intro a b r h hr; cases hr; exact ⟨b, rfl, h⟩
  | cons o os ih =>
    intro a b r h hr
    cases o with
    | rel ns =>
      exact ih (a := { a with sc := release M ns a.sc }) (b := { b with sc := release M (ns.map blank) b.sc }) (release_same ns h) hr
    | prep f => exact ih (a := { a with sc := mark f a.sc }) (mark_same f a.sc b.sc.els h) hr
    | step p rs ds cs =>
      simp only [Calls.run, Calls.exec, stepC] at hr
      cases hm : moveElements M p rs ds a.sc with
      | none => rw [hm] at hr; cases hr
      | some x =>
        rw [hm] at hr
        obtain ⟨x', hx', hx⟩ := moveElements_same h hm
        have hw : SameS (remove (weatherAll cs { a with sc := x }).sc) (remove x') :=
          remove_same (weather_same cs { a with sc := x } x'.els hx)
        obtain ⟨r', h1, h2⟩ := ih (b := { b with sc := remove x' }) hw hr
        refine ⟨r', ?_, h2⟩
        rw [List.flatMap_cons]
        simp only [bare, List.cons_append, List.nil_append, Calls.run, Calls.exec, stepC, hx']
        exact h1

theorem course_same {a b : Calls.St} (h : SameS a.sc b.sc) : course b = course a := by
  unfold course
  revert h
  unfold SameS
  generalize a.sc.els = l
  generalize b.sc.els = l'
  intro h
  induction h with
  | nil => rfl
  | cons h _ ih => simp only [List.map_cons, h.pos, h.status, ih]

/-! ## C353 -/

/-- **C353**: the course of a run is that of the same run without weathering, without responses and with elements that have no mass. -/
theorem C353_bare (M : RMap) (ops : List Calls.Op) (s : Calls.St) (h : Calls.run M ops Calls.St.empty = some s) :
    ∃ s', Calls.run M (ops.flatMap bare) Calls.St.empty = some s' ∧ course s' = course s := by
  obtain ⟨s', h1, h2⟩ := run_bare ops (b := Calls.St.empty) List.Forall₂.nil h
  exact ⟨s', h1, course_same h2⟩

/-- **C353**: two runs that differ only in weatherers, responses, amounts and substances take the same course. -/
theorem C353_same (M : RMap) (ops ops' : List Calls.Op) (hb : ops.flatMap bare = ops'.flatMap bare) (s s' : Calls.St)
    (h : Calls.run M ops Calls.St.empty = some s) (h' : Calls.run M ops' Calls.St.empty = some s') : course s = course s' := by
  obtain ⟨r, h1, h2⟩ := C353_bare M ops s h
  obtain ⟨r', h1', h2'⟩ := C353_bare M ops' s' h'
  rw [hb] at h1
  rw [← h2, ← h2', Option.some.inj (h1.symm.trans h1')]

/-- Half of a tonne evaporates, or ten tonnes are marked and nothing evaporates: the element beaches at the same place. -/
example : ∃ s s', Calls.run (demoMap2 1) [.rel [⟨⟨1/2, 1/2, 0⟩, 1000, 2, false⟩], .step (1/2) [] [fun _ => ⟨2, 0, 0⟩] [⟨0, 2, fun _ _ => 500⟩]]
      Calls.St.empty = some s ∧
    Calls.run (demoMap2 1) [.rel [⟨⟨1/2, 1/2, 0⟩, 10000, 2, true⟩], .prep (fun _ _ => 8), .step (1/2) [] [fun _ => ⟨2, 0, 0⟩] []] Calls.St.empty = some s' ∧
    course s = [(⟨5/2, 1/2, 0⟩, 3)] ∧ course s' = [(⟨5/2, 1/2, 0⟩, 3)] := by
  refine ⟨_, _, (Option.some_get (by decide +kernel)).symm, (Option.some_get (by decide +kernel)).symm, ?_, ?_⟩ <;> decide +kernel

end Verif.MapStep.Course
