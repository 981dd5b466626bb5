import Verif.Roc.SeriesModel
import Mathlib.Data.List.Chain
import Mathlib.Tactic.Linarith
/-!
# The schedule of a response (C135)

A schedule is well-formed if it has a period, each period is of some length and periods follow one another. The specification speaks of the
periods only.
-/
namespace Verif.Roc

/-- each period has some length, and begins no earlier than the one before ends -/
def WF (ts : List Period) : Prop := ts ≠ [] ∧ (∀ p ∈ ts, p.1 < p.2) ∧ List.IsChain (fun p q : Period => p.2 ≤ q.1) ts

/-- a time at which a period begins or ends -/
def Boundary (ts : List Period) (x : Int) : Prop := ∃ p ∈ ts, x = p.1 ∨ x = p.2

/-- earlier periods end before later ones begin -/
theorem ordered {ts : List Period} (h : ∀ p ∈ ts, p.1 < p.2) (hc : List.IsChain (fun p q : Period => p.2 ≤ q.1) ts) {i j : Nat}
    {p q : Period} (hij : i < j) (hp : ts[i]? = some p) (hq : ts[j]? = some q) : p.2 ≤ q.1 := by
  induction ts generalizing i j p with
  | nil => simp at hp
  | cons a l ih =>
    cases l with
    | nil =>
      obtain ⟨j, rfl⟩ : ∃ k, j = k + 1 := ⟨j - 1, by omega⟩
      simp at hq
    | cons b l =>
      have hc' := (List.isChain_cons_cons.1 hc)
      obtain ⟨j, rfl⟩ : ∃ k, j = k + 1 := ⟨j - 1, by omega⟩
      have ih' := @ih (fun p hp => h p (List.mem_cons_of_mem _ hp)) hc'.2
      simp only [List.getElem?_cons_succ] at hq
      cases i with
      | succ i => exact ih' (show i < j by omega) (by simpa using hp) hq
      | zero =>
        simp only [List.getElem?_cons_zero, Option.some.injEq] at hp
        subst hp
        cases j with
        | zero => simp only [List.getElem?_cons_zero, Option.some.injEq] at hq; subst hq; exact hc'.1
        | succ j =>
          have h1 := ih' (i := 0) (j := j + 1) (p := b) (by omega) (by simp) hq
          have h2 := h b (by simp)
          omega

theorem mem_of_get {ts : List Period} {i : Nat} {p : Period} (h : ts[i]? = some p) : p ∈ ts := List.mem_of_getElem? h

/-- The period of a time is the only one that contains it. -/
theorem C135_index {ts : List Period} (h : WF ts) (t : Int) (i : Nat) :
    indexOf ts t = some i ↔ ∃ p, ts[i]? = some p ∧ p.1 ≤ t ∧ t < p.2 := by
  unfold indexOf
  rw [List.findIdx?_eq_some_iff_getElem]
  constructor
  · rintro ⟨hi, hp, _⟩
    exact ⟨ts[i], by simp [hi], by simpa using hp⟩
  · rintro ⟨p, hp, h1, h2⟩
    obtain ⟨hi, rfl⟩ := List.getElem?_eq_some_iff.1 hp
    refine ⟨hi, by simp [h1, h2], fun j hj => ?_⟩
    have hlt : j < ts.length := hj.trans hi
    have := ordered h.2.1 h.2.2 hj (List.getElem?_eq_getElem hlt) hp
    have h3 := h.2.1 _ (List.getElem_mem hlt)
    simp only [Bool.and_eq_true, decide_eq_true_eq, not_and]
    omega

/-- A time is within no period. -/
theorem C135_index_none (ts : List Period) (t : Int) :
    indexOf ts t = none ↔ ∀ p ∈ ts, ¬ (p.1 ≤ t ∧ t < p.2) := by
  unfold indexOf
  simp [List.findIdx?_eq_none_iff]

theorem gap_sound (ts : List Period) (t : Int) (k i : Nat) (h : gapAfter ts t k = some i) :
    ∃ j p q, i = k + j + 1 ∧ ts[j]? = some p ∧ ts[j + 1]? = some q ∧ p.2 ≤ t ∧ t < q.1 := by
  induction ts generalizing k with
  | nil => simp [gapAfter] at h
  | cons a l ih =>
    cases l with
    | nil => simp [gapAfter] at h
    | cons b l =>
      unfold gapAfter at h
      split at h
      · rename_i hc
        refine ⟨0, a, b, by simpa using h.symm, by simp, by simp, hc.1, hc.2⟩
      · obtain ⟨j, p, q, rfl, hp, hq, h1, h2⟩ := ih _ h
        exact ⟨j + 1, p, q, by omega, by simpa using hp, by simpa using hq, h1, h2⟩

/-- between the begin of the first and the end of the last period, a time within none is within a gap -/
theorem gap_complete (ts : List Period) (t : Int) (k : Nat) (f l : Period) (hf : ts.head? = some f) (hl : ts.getLast? = some l)
    (h1 : f.1 ≤ t) (h2 : t < l.2) (hn : ∀ p ∈ ts, ¬ (p.1 ≤ t ∧ t < p.2)) : gapAfter ts t k ≠ none := by
  induction ts generalizing k f with
  | nil => simp at hf
  | cons a r ih =>
    simp only [List.head?_cons, Option.some.injEq] at hf
    subst hf
    cases r with
    | nil =>
      simp at hl
      subst hl
      exact absurd ⟨h1, h2⟩ (hn _ (by simp))
    | cons b r =>
      unfold gapAfter
      split
      · simp
      · rename_i hc
        have ha := hn a (by simp)
        refine ih (k + 1) b (by simp) (by simpa using hl) ?_ (fun p hp => hn p (List.mem_cons_of_mem _ hp))
        omega

/-- The next period is the first that has not begun. -/
theorem C135_next {ts : List Period} (h : WF ts) (t : Int) :
    ∃ r, nextIndex ts t = .ok r ∧
      (∀ i, r = some i ↔ ∃ p, ts[i]? = some p ∧ t < p.1 ∧ ∀ j < i, ∀ q, ts[j]? = some q → q.1 ≤ t) ∧
      (r = none ↔ ∀ p ∈ ts, p.1 ≤ t) := by
  -- the first period not begun is unique
  have key : ∀ (r : Option Nat), nextIndex ts t = .ok r →
      (∀ i, r = some i → ∃ p, ts[i]? = some p ∧ t < p.1 ∧ ∀ j < i, ∀ q, ts[j]? = some q → q.1 ≤ t) →
      (r = none → ∀ p ∈ ts, p.1 ≤ t) → ∃ r, nextIndex ts t = .ok r ∧
      (∀ i, r = some i ↔ ∃ p, ts[i]? = some p ∧ t < p.1 ∧ ∀ j < i, ∀ q, ts[j]? = some q → q.1 ≤ t) ∧
      (r = none ↔ ∀ p ∈ ts, p.1 ≤ t) := by
    intro r hr h1 h2
    refine ⟨r, hr, fun i => ⟨h1 i, ?_⟩, h2, ?_⟩
    · rintro ⟨p, hp, hpt, hb⟩
      cases r with
      | none => exact absurd (h2 rfl p (mem_of_get hp)) (by omega)
      | some k =>
        obtain ⟨q, hq, hqt, hb'⟩ := h1 k rfl
        rcases Nat.lt_trichotomy i k with hlt | heq | hgt
        · exact absurd (hb' i hlt p hp) (by omega)
        · rw [heq]
        · exact absurd (hb k hgt q hq) (by omega)
    · intro hall
      cases r with
      | none => rfl
      | some k =>
        obtain ⟨q, hq, hqt, _⟩ := h1 k rfl
        exact absurd (hall q (mem_of_get hq)) (by omega)
  obtain ⟨hne, hlen, hc⟩ := id h
  obtain ⟨f, hf⟩ : ∃ f, ts.head? = some f := by cases ts with | nil => exact absurd rfl hne | cons a l => exact ⟨a, rfl⟩
  obtain ⟨l, hl⟩ : ∃ l, ts.getLast? = some l := ⟨ts.getLast hne, List.getLast?_eq_some_getLast hne⟩
  have hl' : ts[ts.length - 1]? = some l := by rw [← hl, List.getLast?_eq_getElem?]
  have hf' : ts[0]? = some f := by rw [← hf, List.head?_eq_getElem?]
  have hn : nextIndex ts t = (if l.2 ≤ t then .ok none
    else if t < f.1 then .ok (some 0)
    else match indexOf ts t with
      | some i => .ok (if i + 1 ≠ ts.length then some (i + 1) else none)
      | none => .ok (gapAfter ts t 0)) := by
    unfold nextIndex
    rw [hf, hl]
    rfl
  by_cases h1 : l.2 ≤ t
  · apply key none
    · rw [hn, if_pos h1]
    · simp
    · intro _ p hp
      obtain ⟨i, hi, rfl⟩ := List.getElem_of_mem hp
      rcases Nat.lt_or_ge i (ts.length - 1) with hlt | hge
      · have h2 := ordered hlen hc hlt (List.getElem?_eq_getElem hi) hl'
        have h3 := hlen _ (List.getElem_mem hi)
        have h4 := hlen _ (mem_of_get hl')
        omega
      · have : i = ts.length - 1 := by omega
        subst this
        have h3 := hlen _ (List.getElem_mem hi)
        have : ts[ts.length - 1] = l := by simpa [List.getElem?_eq_getElem hi] using hl'
        rw [this] at h3 ⊢
        omega
  · by_cases h2 : t < f.1
    · apply key (some 0)
      · rw [hn, if_neg h1, if_pos h2]
      · rintro i hi
        cases hi
        exact ⟨f, hf', h2, by simp⟩
      · simp
    · cases hi : indexOf ts t with
      | some i =>
        obtain ⟨p, hp, hp1, hp2⟩ := (C135_index h t i).1 hi
        have before : ∀ j ≤ i, ∀ q, ts[j]? = some q → q.1 ≤ t := by
          intro j hj q hq
          rcases Nat.lt_or_ge j i with hlt | hge
          · have := ordered hlen hc hlt hq hp
            have := hlen _ (mem_of_get hq)
            omega
          · have : j = i := by omega
            subst this
            rw [hp] at hq
            cases hq
            exact hp1
        have hil := (List.getElem?_eq_some_iff.1 hp).1
        apply key (if i + 1 ≠ ts.length then some (i + 1) else none)
        · rw [hn, if_neg h1, if_neg h2, hi]
        · intro k hk
          split at hk
          · rename_i hlen'
            cases hk
            have hk : i + 1 < ts.length := by omega
            refine ⟨ts[i + 1], List.getElem?_eq_getElem hk, ?_, fun j hj => before j (by omega)⟩
            have := ordered hlen hc (Nat.lt_succ_self i) hp (List.getElem?_eq_getElem hk)
            omega
          · exact absurd hk (by simp)
        · intro hk
          split at hk
          · exact absurd hk (by simp)
          · intro q hq
            obtain ⟨j, hj, rfl⟩ := List.getElem_of_mem hq
            exact before j (by omega) _ (List.getElem?_eq_getElem hj)
      | none =>
        have hno := (C135_index_none ts t).1 hi
        apply key (gapAfter ts t 0)
        · rw [hn, if_neg h1, if_neg h2, hi]
        · intro i hg
          obtain ⟨j, p, q, rfl, hp, hq, hp2, hq1⟩ := gap_sound ts t 0 i hg
          refine ⟨q, by simpa using hq, hq1, fun k hk r hr => ?_⟩
          rcases Nat.lt_or_ge k j with hlt | hge
          · have := ordered hlen hc hlt hr hp
            have := hlen _ (mem_of_get hp)
            have := hlen _ (mem_of_get hr)
            omega
          · have : k = j := by omega
            subst this
            rw [hp] at hr
            cases hr
            have := hlen _ (mem_of_get hp)
            omega
        · intro hg
          exact absurd hg (gap_complete ts t 0 f l hf hl (by omega) (by omega) hno)

/-- The time to the next boundary: none lies before it, and there is no answer only when all periods are over. -/
theorem C135_time {ts : List Period} (h : WF ts) (t : Int) :
    ∃ r, timeToNext ts t = .ok r ∧
      (∀ d, r = some d → 0 < d ∧ Boundary ts (t + d) ∧ ∀ x, Boundary ts x → x ≤ t ∨ t + d ≤ x) ∧
      (r = none → ∀ x, Boundary ts x → x ≤ t) := by
  obtain ⟨hne, hlen, hc⟩ := id h
  obtain ⟨n, hn, hs, hnone⟩ := C135_next h t
  unfold timeToNext
  cases hi : indexOf ts t with
  | some i =>
    obtain ⟨p, hp, hp1, hp2⟩ := (C135_index h t i).1 hi
    refine ⟨some (p.2 - t), by simp [hp], ?_, by simp⟩
    rintro d hd
    cases hd
    refine ⟨by omega, ⟨p, mem_of_get hp, Or.inr (by omega)⟩, ?_⟩
    rintro x ⟨q, hq, hx⟩
    obtain ⟨j, hj, rfl⟩ := List.getElem_of_mem hq
    have hl := hlen _ hq
    rcases Nat.lt_trichotomy j i with hlt | heq | hgt
    · have := ordered hlen hc hlt (List.getElem?_eq_getElem hj) hp
      omega
    · subst heq
      have : ts[j] = p := by simpa [List.getElem?_eq_getElem hj] using hp
      rw [this] at hx hl
      omega
    · have := ordered hlen hc hgt hp (List.getElem?_eq_getElem hj)
      omega
  | none =>
    have hno := (C135_index_none ts t).1 hi
    rw [hn]
    cases hr : n with
    | none =>
      refine ⟨none, rfl, by simp, ?_⟩
      rintro _ x ⟨q, hq, hx⟩
      have h1 := hnone.1 hr q hq
      have h2 := hno q hq
      have h3 := hlen q hq
      omega
    | some i =>
      obtain ⟨p, hp, hpt, hb⟩ := (hs i).1 hr
      refine ⟨some (p.1 - t), by simp [hp], ?_, by simp⟩
      rintro d hd
      cases hd
      refine ⟨by omega, ⟨p, mem_of_get hp, Or.inl (by omega)⟩, ?_⟩
      rintro x ⟨q, hq, hx⟩
      obtain ⟨j, hj, rfl⟩ := List.getElem_of_mem hq
      have hl := hlen _ hq
      rcases Nat.lt_or_ge j i with hlt | hge
      · have h1 := hb j hlt _ (List.getElem?_eq_getElem hj)
        have h2 := hno _ hq
        omega
      · rcases Nat.eq_or_lt_of_le hge with heq | hgt
        · subst heq
          have : ts[i] = p := by simpa [List.getElem?_eq_getElem hj] using hp
          rw [this] at hx hl
          omega
        · have := ordered hlen hc hgt hp (List.getElem?_eq_getElem hj)
          have := hlen _ (mem_of_get hp)
          omega

/-- how much of the step from `t` on lies within a period -/
def overlap (p : Period) (t dt : Int) : Int := max 0 (min (t + dt) p.2 - max t p.1)

/-- the full claim: a response works in the steps of which at least half lie within a period -/
def C135_claim : Prop := ∀ ts t dt, WF ts → 0 < dt → (isActive ts t dt = true ↔ ∃ p ∈ ts, dt ≤ 2 * overlap p t dt)

/-- False: a step that begins a second before the period is not worked in, though all but that second is within. -/
theorem C135_counterexample : ¬ C135_claim := by
  intro h
  have := (h [(1, 1000)] 0 900 ⟨by simp, by simp, List.IsChain.singleton _⟩ (by norm_num)).2 ⟨(1, 1000), by simp, by decide⟩
  revert this
  decide

/-- What holds: a response works only in steps that begin in a period and half of which is in it; it works in all steps that are within a
period; and when it works, it works at most half a step beyond the end. -/
theorem C135_partial {ts : List Period} (t dt : Int) (hdt : 0 < dt) :
    (isActive ts t dt = true → isOperating ts t = true ∧ ∃ p ∈ ts, dt ≤ 2 * overlap p t dt ∧ 2 * (t + dt) ≤ 2 * p.2 + dt) ∧
    (∀ p ∈ ts, p.1 ≤ t → t + dt ≤ p.2 → isActive ts t dt = true) ∧
    (∀ p ∈ ts, p.1 ≤ t → dt ≤ 2 * overlap p t dt → isActive ts t dt = true) := by
  unfold isActive overlap
  refine ⟨?_, ?_, ?_⟩
  · intro h
    simp only [List.any_eq_true, Bool.and_eq_true, decide_eq_true_eq] at h
    obtain ⟨p, hp, h1, h2⟩ := h
    refine ⟨?_, p, hp, ?_, by omega⟩
    · unfold isOperating
      rw [Option.isSome_iff_ne_none]
      intro hn
      exact (C135_index_none ts t).1 hn p hp ⟨h1, by omega⟩
    · omega
  · intro p hp h1 h2
    simp only [List.any_eq_true, Bool.and_eq_true, decide_eq_true_eq]
    exact ⟨p, hp, h1, by omega⟩
  · intro p hp h1 h2
    simp only [List.any_eq_true, Bool.and_eq_true, decide_eq_true_eq]
    exact ⟨p, hp, h1, by omega⟩

/-! concrete cases -/
example : WF [(0, 10), (20, 30)] := ⟨by simp, by decide, by simp [List.isChain_cons_cons]⟩
example : nextIndex [(0, 10), (20, 30)] 12 = .ok (some 1) ∧ timeToNext [(0, 10), (20, 30)] 12 = .ok (some 8) := by decide
example : timeToNext [(0, 10), (20, 30)] 30 = .ok none ∧ isActive [(0, 10), (20, 30)] 8 4 = true ∧
    isActive [(0, 10), (20, 30)] 8 5 = false := by decide

end Verif.Roc
