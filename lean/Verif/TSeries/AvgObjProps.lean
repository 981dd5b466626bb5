import Verif.TSeries.AvgObjModel
import Verif.TSeries.AvgProps
import Mathlib.Tactic.Positivity

/-!
# Which wind the running average is of

C354. The comment of both `prepare_…` methods is "Make sure we are up to date with the referenced
time series".
-/

namespace Verif.TSeries.AvgObj

variable (spd : ℚ × ℚ → ℚ)

/-! ## C354: the running average is the one of the wind as it is -/

/-- The claim: a running average that has been prepared for a step holds the average of its wind
and of its hours as they are then, as taken at some time. -/
def C354_claim : Prop :=
  ∀ (spd : ℚ × ℚ → ℚ) (o o' : Obj) (mt : Int), prepareStep spd o mt = .ok o' →
    ∃ w t, o'.wind = some w ∧ average spd w o'.hours t = some o'.stored

/-- Where the stored series comes from: nothing (the single zero of an object without a wind), or
a wind, a number of hours and a time. -/
def From (s : List (Int × Option ℚ)) (src : Option (W × Nat × Int)) : Prop :=
  match src with
  | none => s = [(0, some 0)]
  | some (w, h, t) => average spd w h t = some s

theorem average_ne {w : W} {h : Nat} {t : Int} {s : List (Int × Option ℚ)}
    (e : average spd w h t = some s) : s ≠ [] := by
  unfold average at e
  split at e
  · cases e
  · cases e
  · cases e; simp

theorem From.ne {s : List (Int × Option ℚ)} {src : Option (W × Nat × Int)} (h : From spd s src) :
    s ≠ [] := by
  cases src with
  | none => rw [show s = [(0, some 0)] from h]; simp
  | some p => exact average_ne spd h

/-- A run that is prepared renews the average: whatever was done to the object before, it is that
of the wind and the hours of now, and nothing else of the object changes. -/
theorem C354_run (o o' : Obj) (mt : Int) (h : prepareRun spd o mt = .ok o') :
    ∃ w, o.wind = some w ∧ o'.wind = some w ∧ o'.hours = o.hours ∧
      average spd w o.hours mt = some o'.stored := by
  unfold prepareRun renew at h
  split at h
  · cases h
  · rename_i w hw
    simp only [hw] at h
    split at h
    · rename_i s hs
      cases h
      exact ⟨w, hw, rfl, rfl, hs⟩
    · cases h

/-- … so two objects of the same wind and hours agree after it, whatever they held. -/
theorem C354_run_same (a b : Obj) (mt : Int) (hw : a.wind = b.wind) (hh : a.hours = b.hours) :
    prepareRun spd a mt = prepareRun spd b mt := by
  unfold prepareRun renew
  obtain ⟨aw, ah, as⟩ := a
  obtain ⟨bw, bh, bs⟩ := b
  simp only at hw hh
  subst hw hh
  cases aw <;> rfl

/-- Without a wind there is no run. -/
theorem C354_run_none (o : Obj) (mt : Int) (h : o.wind = none) :
    prepareRun spd o mt = .notSet := by
  unfold prepareRun; rw [h]

/-- A step leaves the object alone while its series reaches the time, and renews the average
otherwise. -/
theorem C354_step (o o' : Obj) (mt : Int) (h : prepareStep spd o mt = .ok o') :
    (inRange o.stored mt = some true ∧ o' = o) ∨
    (inRange o.stored mt = some false ∧ ∃ w, o.wind = some w ∧ o'.wind = some w ∧
      o'.hours = o.hours ∧ average spd w o.hours mt = some o'.stored) := by
  unfold prepareStep at h
  split at h
  · cases h
  · rename_i hr
    cases h
    exact .inl ⟨hr, rfl⟩
  · rename_i hr
    refine .inr ⟨hr, ?_⟩
    unfold renew at h
    split at h
    · cases h
    · rename_i w hw
      split at h
      · rename_i s hs
        cases h
        exact ⟨w, hw, hw, rfl, hs⟩
      · cases h

/-- What is in range, said plainly: one value is good for all times, several reach from the first
to the last. -/
theorem C354_inRange (s : List (Int × Option ℚ)) (mt : Int) (x y : Int × Option ℚ)
    (hx : s.head? = some x) (hy : s.getLast? = some y) :
    inRange s mt = some true ↔ s.length = 1 ∨ (x.1 ≤ mt ∧ mt ≤ y.1) := by
  match s, hx, hy with
  | [a], hx, hy => simp [inRange]
  | a :: b :: l, hx, hy =>
    simp only [List.head?_cons, Option.some.injEq] at hx
    subst hx
    rw [List.getLast?_cons_cons] at hy
    rw [List.getLast?_eq_some_getLast (by simp), Option.some.injEq] at hy
    simp [inRange, hy]

/-- Invariant over everything that can be done: the stored series is always a whole average of
one wind, one number of hours and one time (never a mixture), or the zero of an object made with
nothing. -/
theorem C354_origin (ops : List Op) : ∀ (o o' : Obj),
    (∃ src, From spd o.stored src) → applyAll spd o ops = .ok o' →
      ∃ src, From spd o'.stored src := by
  induction ops with
  | nil => intro o o' hs h; cases h; exact hs
  | cons op ops ih =>
    intro o o' hs h
    unfold applyAll at h
    split at h
    · rename_i o1 h1
      refine ih o1 o' ?_ h
      cases op with
      | hours k => cases h1; exact hs
      | wind w => cases h1; exact hs
      | run mt =>
        obtain ⟨w, _, _, _, ha⟩ := C354_run spd o o1 mt h1
        exact ⟨some (w, _, _), ha⟩
      | step mt =>
        rcases C354_step spd o o1 mt h1 with ⟨_, rfl⟩ | ⟨_, w, _, _, _, ha⟩
        · exact hs
        · exact ⟨some (w, _, _), ha⟩
    · exact absurd h (by rename_i hne; exact fun e => hne o' e)

/-- … it holds of every object that is made: a wind that is given is the one averaged, whatever
series is given beside it. -/
theorem C354_made (wind : Option W) (series : Option (List TV)) (hours : Nat) (o : Obj)
    (h : make spd wind series hours = .ok o) :
    o.hours = hours ∧
    match wind, series with
    | none, none => o.wind = none ∧ From spd o.stored none
    | some w, _ => o.wind = some w ∧ From spd o.stored (some (w, hours, 0))
    | none, some ts =>
      o.wind = some ⟨ts, false⟩ ∧ From spd o.stored (some (⟨ts, false⟩, hours, 0)) := by
  unfold make at h
  rcases wind with _ | w <;> rcases series with _ | ts <;> simp only at h ⊢
  · cases h; exact ⟨rfl, rfl, rfl⟩
  all_goals
    split at h
    · rename_i s hs
      cases h
      exact ⟨rfl, rfl, hs⟩
    · cases h

/-- Operations that leave wind and hours alone. -/
def Quiet : Op → Prop
  | .hours _ => False
  | .wind _ => False
  | _ => True

/-- The part that holds: when wind and hours are left alone after the object is made with a wind
(or after a run is prepared), the stored series is at every later moment the average of them. -/
theorem C354_partial (ops : List Op) : ∀ (o o' : Obj) (w : W), (∀ op ∈ ops, Quiet op) →
    o.wind = some w → (∃ t, average spd w o.hours t = some o.stored) →
    applyAll spd o ops = .ok o' →
      o'.wind = some w ∧ o'.hours = o.hours ∧ ∃ t, average spd w o'.hours t = some o'.stored := by
  induction ops with
  | nil => intro o o' w _ hw hs h; cases h; exact ⟨hw, rfl, hs⟩
  | cons op ops ih =>
    intro o o' w hq hw hs h
    unfold applyAll at h
    have hq0 := hq op (by simp)
    have hqr := fun p hp => hq p (List.mem_cons_of_mem op hp)
    split at h
    · rename_i o1 h1
      cases op with
      | hours k => exact hq0.elim
      | wind w => exact hq0.elim
      | run mt =>
        obtain ⟨w1, e1, e2, e3, ha⟩ := C354_run spd o o1 mt h1
        rw [hw] at e1; cases e1
        obtain ⟨r1, r2, r3⟩ := ih o1 o' w hqr e2 ⟨mt, by rw [e3]; exact ha⟩ h
        exact ⟨r1, by rw [r2, e3], r3⟩
      | step mt =>
        rcases C354_step spd o o1 mt h1 with ⟨_, rfl⟩ | ⟨_, w1, e1, e2, e3, ha⟩
        · exact ih _ o' w hqr hw hs h
        · rw [hw] at e1; cases e1
          obtain ⟨r1, r2, r3⟩ := ih o1 o' w hqr e2 ⟨mt, by rw [e3]; exact ha⟩ h
          exact ⟨r1, by rw [r2, e3], r3⟩
    · rename_i hne
      exact absurd h (hne o')

/-- Two hours of wind. -/
def two : W := ⟨[⟨0, 6, 0⟩, ⟨3600, 6, 0⟩, ⟨7200, 6, 0⟩], true⟩

/-- The same hours, a stronger wind. -/
def strong : W := ⟨[⟨0, 9, 0⟩, ⟨3600, 9, 0⟩, ⟨7200, 9, 0⟩], true⟩

theorem span_two (t : Int) : avgSpan two.ts t = (0, 7200) := by
  unfold avgSpan
  rw [if_neg (by decide)]
  rfl

theorem two_avg (t : Int) : average Prod.fst two 1 t =
    some [(0, some 6), (3600, some 6), (7200, some 6)] := by
  have e : ∀ k : Int, k ∈ [-3600, 0, 3600, 7200] → getTimeValue two.ts true k = .ok (6, 0) := by
    decide +kernel
  have e1 := e (-3600) (by simp)
  have e2 := e 0 (by simp)
  have e3 := e 3600 (by simp)
  have e4 := e 7200 (by simp)
  have hs : avgStep two.ts = 3600 := by decide +kernel
  have hc : avgCount two.ts t = 3 := by
    unfold avgCount
    rw [span_two, hs]
    decide +kernel
  have hr : runningAverage Prod.fst two.ts two.extrap 1 t =
      some [(0, some 6), (3600, some 6), (7200, some 6)] := by
    unfold runningAverage
    rw [if_neg (by decide), hc, hs, span_two]
    simp [avgOuter, avgLoop, sample, e1, e2, e3, e4, show two.extrap = true from rfl]
  unfold average
  rw [hr]

/-- The object of the weaker wind whose series still is that of the stronger one. -/
def stale : Obj := ⟨some two, 1, [(0, some 9), (3600, some 9), (7200, some 9)]⟩

/-- It is what is left when the wind is changed after the object is made. -/
theorem stale_reached : ∃ o, make Prod.fst (some strong) none 1 = .ok o ∧
    applyAll Prod.fst o [.wind (some two), .step 3600] = .ok stale :=
  ⟨⟨some strong, 1, [(0, some 9), (3600, some 9), (7200, some 9)]⟩, by decide +kernel,
    by decide +kernel⟩

/-- The claim fails in the code: a wind that is changed during a run is not noticed by the steps
as long as the stored series reaches the time. -/
theorem C354_counterexample : ¬ C354_claim := by
  intro h
  obtain ⟨w, t, hw, ht⟩ := h Prod.fst stale stale 3600 (by decide +kernel)
  cases hw
  have := two_avg t
  rw [show stale.hours = 1 from rfl, this] at ht
  revert ht
  decide +kernel

/-- … and the same of the hours: setting them changes the average only when a run is prepared or
the series is left. -/
theorem C354_hours (o : Obj) (h : Nat) (mt : Int) (hr : inRange o.stored mt = some true) :
    applyAll spd o [.hours h, .step mt] = .ok { o with hours := h } := by
  simp [applyAll, apply, prepareStep, hr]

example : inRange stale.stored 3600 = some true := by decide +kernel

/-! ### The average reaches the time of the step -/

theorem outer_times (ts : List TV) (e : Bool) (mt : Int) (H : Nat) (start step : Int) (n : Nat) :
    ∀ (i : Nat) (vel : ℚ × ℚ) (out : List (Int × Option ℚ)),
      avgOuter spd ts e mt H start step n i vel = some out →
        out.map Prod.fst =
          (List.range n).map (fun (k : Nat) => start + ((i + k : Nat) : Int) * step) := by
  induction n with
  | zero => intro i vel out h; cases h; rfl
  | succ n ih =>
    intro i vel out h
    simp only [avgOuter] at h
    split at h
    · cases h
    · split at h
      · cases h
      · rename_i rest hrest
        cases h
        rw [List.map_cons, ih _ _ _ hrest, List.range_succ_eq_map, List.map_cons, List.map_map]
        congr 1
        apply List.map_congr_left
        intro k _
        simp only [Function.comp, Nat.succ_eq_add_one]
        congr 3
        omega

theorem average_times (w : W) (H : Nat) (mt : Int) (s : List (Int × Option ℚ))
    (h : average spd w H mt = some s) :
    s.map Prod.fst = (List.range (avgCount w.ts mt)).map
      (fun (k : Nat) => (avgSpan w.ts mt).1 + (k : Int) * avgStep w.ts) := by
  unfold average at h
  split at h
  · cases h
  · cases h
  · rename_i x l hr
    cases h
    unfold runningAverage at hr
    split at hr
    · cases hr
    · rw [outer_times spd _ _ _ _ _ _ _ _ _ _ hr]
      simp

/-- The wind covers more than two days. -/
def Long (ts : List TV) : Prop := (at' ts (ts.length - 1)).time - (at' ts 0).time > 48 * 3600

/-- When the wind covers more than two days and has the time of the step, the average that is
held after the step is prepared has it too, whatever it was before. -/
theorem C354_reaches (o o' : Obj) (w : W) (mt : Int) (hw : o.wind = some w)
    (hl : Long w.ts) (h0 : mt ≠ 0) (hasc : Ascending w.ts)
    (h : prepareStep spd o mt = .ok o') : inRange o'.stored mt = some true := by
  rcases C354_step spd o o' mt h with ⟨hr, rfl⟩ | ⟨_, w1, e1, _, _, ha⟩
  · exact hr
  · rw [hw] at e1; cases e1
    have ht := average_times spd w _ mt _ ha
    have hsp : (avgSpan w.ts mt).1 = mt := by
      unfold avgSpan
      unfold Long at hl
      simp only
      rw [if_pos hl, if_neg h0]
    have hst := avgStep_pos w.ts hasc
    rw [hsp] at ht
    have hne := average_ne spd ha
    generalize o'.stored = s at ht hne
    match s, ht, hne with
    | [a], _, _ => rfl
    | a :: b :: l, ht, _ =>
      have hlast : ∀ x ∈ (a :: b :: l), mt ≤ x.1 := by
        intro x hx
        have : x.1 ∈ (a :: b :: l).map Prod.fst := List.mem_map_of_mem hx
        rw [ht, List.mem_map] at this
        obtain ⟨k, _, hk⟩ := this
        have : 0 ≤ (k : Int) * avgStep w.ts := by positivity
        omega
      have hfirst : a.1 = mt := by
        have : ((a :: b :: l).map Prod.fst).head? = some a.1 := rfl
        rw [ht] at this
        cases hc : avgCount w.ts mt with
        | zero => rw [hc] at this; simp at this
        | succ n => rw [hc, List.range_succ_eq_map] at this; simp at this; exact this.symm
      have h2 := hlast ((b :: l).getLast (by simp)) (List.mem_cons_of_mem _ (List.getLast_mem _))
      simp [inRange, hfirst, h2]

/-- Three days of wind, a value every day. -/
def days : W := ⟨[⟨0, 6, 0⟩, ⟨86400, 6, 0⟩, ⟨172800, 6, 0⟩, ⟨259200, 6, 0⟩], true⟩

example : Long days.ts := by unfold Long; decide

/-- It is not so of a wind of two days or less whose hours do not come out even: the average then
ends before the wind does, and preparing the step does not help. -/
theorem C354_counterexample_reach : ∃ (o o' : Obj) (w : W), o.wind = some w ∧
    Ascending w.ts ∧ (at' w.ts 0).time ≤ 5000 ∧ 5000 ≤ (at' w.ts (w.ts.length - 1)).time ∧
    prepareStep Prod.fst o 5000 = .ok o' ∧ inRange o'.stored 5000 = some false := by
  refine ⟨⟨some ⟨[⟨0, 6, 0⟩, ⟨5400, 6, 0⟩], true⟩, 1, [(0, some 6), (3600, some 6)]⟩,
    ⟨some ⟨[⟨0, 6, 0⟩, ⟨5400, 6, 0⟩], true⟩, 1, [(0, some 6), (3600, some 6)]⟩, _, rfl,
    (isAscending_iff _).1 (by decide), by decide, by decide, by decide +kernel,
    by decide +kernel⟩

end Verif.TSeries.AvgObj
