import Verif.Release.SavedModel

namespace Verif.Release.Saved

/-- What a user can read of a release. -/
structure Shown where
  cls : Cls
  time : Int
  stop : Int
  num : Option Nat
  per : Option Nat
  mass : ℚ
  custom : Option (List Int)
  retain : Bool
  tz : Int
  name : String
  startPos : Option Int
  endPos : Option Int
  features : Option Int
  bounds : Option Int
  res : Option (Nat × Nat)
  dist : Option Int
deriving DecidableEq

def shown (o : Obj) : Shown :=
  ⟨o.cls, o.time, o.endTime, o.num, o.per, o.mass, o.custom, o.retain, o.tz, o.name, o.startPos, o.endPoint, o.features, o.bounds, o.res, o.dist⟩

/-- A release as it is in a working model: one number of elements, a mass that is not below 0, an end that is not before the start. -/
def Sound (o : Obj) : Prop := (o.num.isSome ↔ o.per = none) ∧ 0 ≤ o.mass ∧ o.time ≤ o.endTime

/-- C247 in full: a release that was built and may have been given another number of elements per step is saved and loaded with all its settings. -/
def C247_claim : Prop := ∀ (e : Env) (c : Cls) (a : Args) (o : Obj), build e c a = .ok o →
  (∃ o', reload e o = .ok o' ∧ shown o' = shown o) ∧ ∀ k, ∃ o', reload e { o with num := none, per := some k } = .ok o' ∧ shown o' = shown { o with num := none, per := some k }

/-- C247, what holds: a release from given positions, from a point or line with a number of elements in all, or from polygons is loaded with all its settings,
if positions at the release are not retained. -/
theorem C247_partial (e : Env) (o : Obj) (hs : Sound o) (hr : o.retain = false)
    (hb : o.bounds = none ∧ o.res = none ∧ o.dist = none)
    (h : (o.cls = .base ∧ o.custom ≠ none ∧ o.startPos = none ∧ o.endPos = none ∧ o.features = none) ∨
      (o.cls = .pointLine ∧ o.num ≠ none ∧ o.startPos ≠ none ∧ o.features = none) ∨
      (o.cls = .polygon ∧ o.features ≠ none ∧ o.startPos = none ∧ o.endPos = none)) :
    ∃ o', reload e o = .ok o' ∧ shown o' = shown o := by
  obtain ⟨hn, hm, ht⟩ := hs
  obtain ⟨cls, time, stop, num, per, mass, custom, retain, tz, name, sp, ep, feat, bounds, res, dist, plume, file⟩ := o
  simp only [Obj.endTime] at hn hm ht hr hb h
  obtain ⟨rfl, rfl, rfl⟩ := hb
  subst hr
  have hlt : ¬ stop.getD time < time := not_lt.mpr ht
  have hmax : max mass 0 = mass := max_eq_left hm
  rcases h with ⟨rfl, h1, rfl, rfl, rfl⟩ | ⟨rfl, h1, h2, rfl⟩ | ⟨rfl, h1, rfl, rfl⟩
  · cases custom with
    | none => exact absurd rfl h1
    | some l =>
      cases num with
      | some n =>
        have hp : per = none := hn.mp rfl
        subst hp
        simp [reload, save, build, baseInit, baseCentroid, bind, Except.bind, Obj.endTime, hlt, hmax, shown, Obj.endPoint]
      | none =>
        cases per with
        | none => exact absurd (hn.mpr rfl) (by simp)
        | some k => simp [reload, save, build, baseInit, baseCentroid, bind, Except.bind, Obj.endTime, hlt, hmax, shown, Obj.endPoint]
  · cases num with
    | none => exact absurd rfl h1
    | some n =>
      have hp : per = none := hn.mp rfl
      subst hp
      cases sp with
      | none => exact absurd rfl h2
      | some p =>
        cases ep <;> simp [reload, save, build, baseInit, pointInit, baseCentroid, bind, Except.bind, Obj.endTime, hlt, hmax, shown, Obj.endPoint]
  · cases feat with
    | none => exact absurd rfl h1
    | some f =>
      cases num with
      | some n =>
        have hp : per = none := hn.mp rfl
        subst hp
        simp [reload, save, build, baseInit, baseCentroid, bind, Except.bind, Obj.endTime, hlt, hmax, shown, Obj.endPoint]
      | none =>
        cases per with
        | none => exact absurd (hn.mpr rfl) (by simp)
        | some k => simp [reload, save, build, baseInit, baseCentroid, bind, Except.bind, Obj.endTime, hlt, hmax, shown, Obj.endPoint]

example : Sound { cls := .polygon, time := 5, stop := some 9, num := none, per := some 10, mass := 3, custom := none, retain := false, tz := 0, name := "slick", startPos := none, endPos := none, features := some 7, bounds := none, res := none, dist := none, plume := none, file := none } := by
  refine ⟨by simp, by decide, by decide⟩

/-- C247, a point or line release of a fixed number of elements in each step: whatever the number was, the loaded release has a thousand elements. -/
theorem C247_lost (e : Env) (o o' : Obj) (hc : o.cls = .pointLine) (hn : o.num = none) (h : reload e o = .ok o') : o'.num = some 1000 ∧ o'.per = none := by
  obtain ⟨cls, time, stop, num, per, mass, custom, retain, tz, name, sp, ep, feat, bounds, res, dist, plume, file⟩ := o
  simp only at hc hn
  subst hc hn
  simp only [reload, save, build, baseInit, pointInit, baseCentroid, bind, Except.bind, Obj.endTime, Bool.false_eq_true, false_and, if_false] at h
  cases sp with
  | none => revert h; split <;> simp_all
  | some p =>
    revert h
    by_cases hlt : stop.getD time < time
    · simp [hlt]
    · simp [hlt]
      rintro rfl
      exact ⟨rfl, rfl⟩

/-- C247 fails: a release of a fixed number of elements in each step is loaded as one of a thousand elements. -/
theorem C247_counterexample : ¬ C247_claim := by
  intro h
  obtain ⟨_, hk⟩ := h ⟨0, 0, ""⟩ .pointLine { time := some 5, startPos := some 1 } _ rfl
  obtain ⟨o', h1, h2⟩ := hk 10
  have h3 := (C247_lost _ _ _ rfl rfl h1).1
  have h4 := congrArg Shown.num h2
  simp only [shown] at h4
  rw [h3] at h4
  cases h4

/-- C247, grids of elements, subsurface releases, plumes and releases from a file: no save file of one of them can be loaded again. -/
theorem C247_never (e : Env) (o : Obj) (hc : o.cls = .grid ∨ o.cls = .subsurface ∨ ((o.cls = .plume ∨ o.cls = .fromFile) ∧ o.custom = none)) :
    ∃ x, reload e o = .error x := by
  obtain ⟨cls, time, stop, num, per, mass, custom, retain, tz, name, sp, ep, feat, bounds, res, dist, plume, file⟩ := o
  simp only at hc
  rcases hc with rfl | rfl | ⟨rfl | rfl, rfl⟩
  · exact ⟨.typeError, by simp [reload, save, build, baseCentroid, bind, Except.bind]⟩
  · simp only [reload, save, build, baseCentroid, bind, Except.bind, Bool.false_eq_true, false_and, if_false, true_or, if_true]
    split
    · exact ⟨_, rfl⟩
    · exact ⟨_, rfl⟩
  · exact ⟨.typeError, rfl⟩
  · exact ⟨.typeError, rfl⟩

/-- C248 in full: a release has the number of elements, in all or in each step, and the time zone it was built with. -/
def C248_claim : Prop := ∀ (e : Env) (c : Cls) (a : Args) (o : Obj), build e c a = .ok o → (a.num ≠ none → o.num = a.num ∧ o.per = none) ∧ (a.per ≠ none → o.per = a.per ∧ o.num = none)

/-- C248 fails: a point or line release does not take over the number of elements in each step. -/
theorem C248_counterexample : ¬ C248_claim := by
  intro h
  have := (h ⟨0, 0, ""⟩ .pointLine { time := some 5, startPos := some 1, per := some 10 } _ rfl).2 (by decide)
  exact absurd this.1 (by decide)

/-- C248, what holds: every kind of release takes over the total number of elements if it takes one; releases from positions, from polygons and plumes also take over
the number in each step; both numbers together are refused. -/
theorem C248_partial (e : Env) (c : Cls) (a : Args) (o : Obj) (h : build e c a = .ok o) :
    (a.num ≠ none → o.num = a.num ∧ o.per = none) ∧ (a.per ≠ none → c = .base ∨ c = .polygon ∨ c = .plume → o.per = a.per ∧ o.num = none) ∧ o.mass = max (a.mass.getD 0) 0
      ∧ o.retain = a.retain.getD false ∧ o.tz = a.tz.getD e.tz0 ∧ o.name = a.name.getD e.auto := by
  have key : ∀ (c : Cls) (b : Args) (o : Obj), baseInit e c b = .ok o → (b.num ≠ none → o.num = b.num ∧ o.per = none) ∧ (b.per ≠ none → o.per = b.per ∧ o.num = none)
      ∧ o.mass = max (b.mass.getD 0) 0 ∧ o.retain = b.retain.getD false ∧ o.tz = b.tz.getD e.tz0 ∧ o.name = b.name.getD e.auto := by
    intro c b o hb
    unfold baseInit at hb
    split at hb
    · cases hb
    · split at hb
      · cases hb
      · rename_i hboth
        have fin : (b.num ≠ none → (if b.num = none ∧ b.per = none then some 1000 else b.num) = b.num ∧ b.per = none) ∧
            (b.per ≠ none → b.per = b.per ∧ (if b.num = none ∧ b.per = none then some 1000 else b.num) = none) := by
          constructor
          · intro h1
            refine ⟨if_neg (fun x => h1 x.1), ?_⟩
            by_contra h2
            exact hboth ⟨h1, h2⟩
          · intro h1
            refine ⟨rfl, ?_⟩
            rw [if_neg (fun x => h1 x.2)]
            by_contra h2
            exact hboth ⟨h2, h1⟩
        simp only at hb
        split at hb
        · cases hb
        · split at hb
          · cases hb
          · injection hb with hb
            subst hb
            exact ⟨fin.1, fin.2, rfl, rfl, rfl, rfl⟩
        · injection hb with hb
          subst hb
          exact ⟨fin.1, fin.2, rfl, rfl, rfl, rfl⟩
  have keyP : ∀ (c : Cls) (b : Args) (o : Obj), pointInit e c b = .ok o → (b.num ≠ none → o.num = b.num ∧ o.per = none)
      ∧ o.mass = max (b.mass.getD 0) 0 ∧ o.retain = b.retain.getD false ∧ o.tz = b.tz.getD e.tz0 ∧ o.name = b.name.getD e.auto := by
    intro c b o hb
    unfold pointInit at hb
    cases hx : baseInit e c { b with per := none, startPos := none, endPos := none } with
    | error x => rw [hx] at hb; cases hb
    | ok x =>
      rw [hx] at hb
      obtain ⟨k1, _, k3⟩ := key _ _ _ hx
      simp only [bind, Except.bind] at hb
      split at hb
      · cases hb
      · injection hb with hb
        subst hb
        exact ⟨k1, k3⟩
  cases c with
  | base =>
    obtain ⟨k1, k2, k3⟩ := key _ _ _ h
    exact ⟨k1, fun h _ => k2 h, k3⟩
  | pointLine =>
    obtain ⟨k1, k3⟩ := keyP _ _ _ h
    exact ⟨k1, fun _ h => by simp at h, k3⟩
  | polygon =>
    simp only [build] at h
    split at h
    · cases h
    · cases hx : baseInit e .polygon { a with features := none } with
      | error x => rw [hx] at h; cases h
      | ok x =>
        rw [hx] at h
        simp only [bind, Except.bind] at h
        injection h with h
        subst h
        obtain ⟨k1, k2, k3⟩ := key _ _ _ hx
        exact ⟨k1, fun h _ => k2 h, k3⟩
  | grid =>
    simp only [build] at h
    split at h
    · cases h
    · rename_i hg
      simp only [not_or, not_not] at hg
      cases hx : baseInit e .grid { a with bounds := none, res := none } with
      | error x => rw [hx] at h; cases h
      | ok x =>
        rw [hx] at h
        simp only [bind, Except.bind] at h
        injection h with h
        subst h
        obtain ⟨_, _, k3⟩ := key _ _ _ hx
        exact ⟨fun hn => absurd hg.2.1 hn, fun _ h => by simp at h, k3⟩
  | subsurface =>
    simp only [build] at h
    cases hx : pointInit e .subsurface { a with dist := none } with
    | error x => rw [hx] at h; cases h
    | ok x =>
      rw [hx] at h
      simp only [bind, Except.bind] at h
      split at h
      · cases h
      · injection h with h
        subst h
        obtain ⟨k1, k3⟩ := keyP _ _ _ hx
        exact ⟨k1, fun _ h => by simp at h, k3⟩
  | plume =>
    simp only [build] at h
    cases hx : baseInit e .plume { a with stop := none, startPos := none, plume := none } with
    | error x => rw [hx] at h; cases h
    | ok x =>
      rw [hx] at h
      simp only [bind, Except.bind] at h
      split at h
      · cases h
      · cases h
      · injection h with h
        subst h
        obtain ⟨k1, k2, k3⟩ := key _ _ _ hx
        exact ⟨k1, fun h _ => k2 h, k3⟩
  | fromFile =>
    simp only [build] at h
    split at h
    · cases h
    · rename_i hg
      simp only [not_or, not_not] at hg
      cases hx : baseInit e .fromFile { a with file := none } with
      | error x => rw [hx] at h; cases h
      | ok x =>
        rw [hx] at h
        simp only [bind, Except.bind] at h
        injection h with h
        subst h
        obtain ⟨_, _, k3⟩ := key _ _ _ hx
        exact ⟨fun hn => absurd hg.2.1 hn, fun _ h => by simp at h, k3⟩

/-- C248, subsurface releases: one with retained positions, a time zone or given positions cannot be built. -/
theorem C248_refused (e : Env) (a : Args) (h : a.retain ≠ none ∨ a.tz ≠ none ∨ a.custom ≠ none) : ∃ x, build e .subsurface a = .error x := by
  have : initializerTakes a = false := by
    unfold initializerTakes
    rcases h with h | h | h <;> simp [h]
  simp only [build, bind, Except.bind]
  split
  · exact ⟨_, rfl⟩
  · rw [if_pos (Or.inr this)]
    exact ⟨_, rfl⟩

example : (build ⟨0, 0, "r"⟩ .subsurface { time := some 5, startPos := some 1, dist := some 3, num := some 10 }).toOption.map (·.num) = some (some 10) := by decide +kernel

end Verif.Release.Saved
