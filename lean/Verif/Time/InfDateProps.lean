import Verif.Time.InfDate
import Mathlib.Order.WithBot
import Mathlib.Data.Int.Order.Basic
/-!
# Properties C05, C06
-/
namespace Verif.InfDate

/-! ## Specification: the order on {-inf} ∪ ℤ ∪ {inf} -/

/-- the standard order with bottom and top added to the integers -/
abbrev Ext := WithBot (WithTop Int)

/-- meaning of a date in the standard order -/
def DT.toExt : DT → Ext
  | .minf => ⊥
  | .fin t => ((t : WithTop Int) : Ext)
  | .inf => ((⊤ : WithTop Int) : Ext)

/-- meaning of the six comparisons in the standard order -/
def Cmp.rel : Cmp → Ext → Ext → Prop
  | .lt, a, b => a < b
  | .le, a, b => a ≤ b
  | .eq, a, b => a = b
  | .ne, a, b => a ≠ b
  | .gt, a, b => b < a
  | .ge, a, b => b ≤ a

theorem fin_lt_inf (t : Int) : ((t : WithTop Int) : Ext) < ((⊤ : WithTop Int) : Ext) :=
  WithBot.coe_lt_coe.2 (WithTop.coe_lt_top t)

/-- **C05.** Every comparison of finite and infinite dates, written either way round, gives the answer of the
linear order in which `-inf` is least and `inf` greatest. -/
theorem C05_total_order (c : Cmp) (a b : DT) : eval c a b = true ↔ c.rel a.toExt b.toExt := by
  cases c <;> cases a <;> cases b <;>
    simp [eval, infMethod, minfMethod, finMethod, Cmp.rel, DT.toExt, Cmp.reflect] <;> exact fin_lt_inf _

theorem toExt_injective {a b : DT} (h : a.toExt = b.toExt) : a = b := by
  cases a <;> cases b <;> simp_all [DT.toExt]

/-- **C05**, the laws as a user sees them: `<` is a strict total order, compatible with `==`, and the four other
operators are the ones derived from these two. -/
theorem C05_laws (a b c : DT) :
    (eval .lt a a = false) ∧
    (eval .lt a b = true → eval .lt b c = true → eval .lt a c = true) ∧
    (eval .lt a b = true ∨ a = b ∨ eval .lt b a = true) ∧
    (eval .eq a b = true ↔ a = b) ∧
    (eval .ne a b = !eval .eq a b) ∧
    (eval .le a b = (eval .lt a b || eval .eq a b)) ∧
    (eval .gt a b = eval .lt b a) ∧
    (eval .ge a b = eval .le b a) := by
  refine ⟨?_, ?_, ?_, ?_, ?_, ?_, ?_, ?_⟩
  · cases a <;> simp [eval, infMethod, minfMethod, finMethod]
  · simp only [C05_total_order]; exact lt_trans
  · simp only [C05_total_order, Cmp.rel]
    rcases lt_trichotomy a.toExt b.toExt with h | h | h
    · exact Or.inl h
    · exact Or.inr (Or.inl (toExt_injective h))
    · exact Or.inr (Or.inr h)
  · rw [C05_total_order]; exact ⟨toExt_injective, fun h => h ▸ rfl⟩
  · cases a <;> cases b <;> simp [eval, infMethod, minfMethod, finMethod, Cmp.reflect, bne]
  · rw [Bool.eq_iff_iff, Bool.or_eq_true]
    simp only [C05_total_order, Cmp.rel]
    exact le_iff_lt_or_eq
  · rw [Bool.eq_iff_iff]; simp only [C05_total_order, Cmp.rel]
  · rw [Bool.eq_iff_iff]; simp only [C05_total_order, Cmp.rel]

/-- **C05**, negation swaps the two infinite dates, so it reverses their order. -/
theorem C05_neg (a b : DT) (a' b' : DT) (ha : neg a = some a') (hb : neg b = some b') :
    eval .lt a b = eval .lt b' a' := by
  cases a <;> cases b <;> simp [neg] at ha hb <;> subst ha <;> subst hb <;> rfl

/-- a finite `InfDateTime` exists exactly for the datetimes from 1970-01-01 to 2038-01-19 -/
theorem C05_range (t : Int) : mkFinite t = some (.fin t) ↔ minDatetime ≤ t ∧ t ≤ maxDatetime := by
  simp only [mkFinite, eval, finMethod, decide_eq_true_eq]
  split
  · simp; omega
  · split
    · simp; omega
    · simp; omega

example : eval .lt (.fin 3) .inf = true ∧ eval .gt .inf (.fin 3) = true ∧ eval .le .minf (.fin (-7)) = true ∧
    eval .ge (.fin 3) .inf = false := by decide

/-! ## C06 -/

/-- **C06 (1).** A range is accepted (by the constructor and by the setter) iff start < stop in the extended order. -/
theorem C06_range_accepted (start stop : DT) :
    checkStartStop start stop = true ↔ start.toExt < stop.toExt := by
  cases start <;> cases stop <;>
    simp [checkStartStop, eval, infMethod, minfMethod, finMethod, DT.toExt] <;> exact fin_lt_inf _

theorem C06_mk (on : Bool) (r : DT × DT) :
    (Process.mk? on r).isSome ↔ r.1.toExt < r.2.toExt := by
  rw [← C06_range_accepted]; unfold Process.mk?; split <;> simp_all

/-- **C06 (2).** After `prepare_for_model_step` the process is active iff it is on and the midpoint of the step lies
in the closed active range. -/
theorem C06_active_iff (p : Process) (t dt : Int) :
    (p.prepareStep t dt).active = true ↔
      p.on = true ∧ p.range.1.toExt ≤ (DT.fin (t + 500000 * dt)).toExt ∧
        (DT.fin (t + 500000 * dt)).toExt ≤ p.range.2.toExt := by
  simp only [Process.prepareStep, Bool.and_eq_true, C05_total_order, Cmp.rel]
  exact and_comm

/-- **C06 (3).** With the default range, a process that is on is active at every step. -/
theorem C06_default_always_active (p : Process) (h : p.range = defaultRange) (t dt : Int) :
    (p.prepareStep t dt).active = p.on := by
  rw [Bool.eq_iff_iff, C06_active_iff, h]
  simp [defaultRange, DT.toExt]

/-- **C06 (4).** Over consecutive steps of equal length (forward or backward) the active steps are contiguous. -/
theorem C06_contiguous (p : Process) (t0 dt : Int) (i j k : Nat) (hij : i ≤ j) (hjk : j ≤ k)
    (hi : (p.prepareStep (t0 + i * (1000000 * dt)) dt).active = true)
    (hk : (p.prepareStep (t0 + k * (1000000 * dt)) dt).active = true) :
    (p.prepareStep (t0 + j * (1000000 * dt)) dt).active = true := by
  rw [C06_active_iff] at *
  refine ⟨hi.1, ?_, ?_⟩
  · rcases Int.le_total 0 dt with h | h
    · refine le_trans hi.2.1 ?_
      simp only [DT.toExt, WithBot.coe_le_coe, WithTop.coe_le_coe]
      have : (i : Int) * (1000000 * dt) ≤ j * (1000000 * dt) :=
        Int.mul_le_mul_of_nonneg_right (by omega) (by omega)
      omega
    · refine le_trans hk.2.1 ?_
      simp only [DT.toExt, WithBot.coe_le_coe, WithTop.coe_le_coe]
      have : (k : Int) * (1000000 * dt) ≤ j * (1000000 * dt) :=
        Int.mul_le_mul_of_nonpos_right (by omega) (by omega)
      omega
  · rcases Int.le_total 0 dt with h | h
    · refine le_trans ?_ hk.2.2
      simp only [DT.toExt, WithBot.coe_le_coe, WithTop.coe_le_coe]
      have : (j : Int) * (1000000 * dt) ≤ k * (1000000 * dt) :=
        Int.mul_le_mul_of_nonneg_right (by omega) (by omega)
      omega
    · refine le_trans ?_ hi.2.2
      simp only [DT.toExt, WithBot.coe_le_coe, WithTop.coe_le_coe]
      have : (j : Int) * (1000000 * dt) ≤ i * (1000000 * dt) :=
        Int.mul_le_mul_of_nonpos_right (by omega) (by omega)
      omega

/-- **C06 (5).** Every process obtained through the API has start < stop, so there is always a time in its range. -/
theorem C06_range_invariant (on : Bool) (r : DT × DT) (p : Process) (h : Process.mk? on r = some p)
    (ops : List Op) :
    (ops.foldl Process.op p).range.1.toExt < (ops.foldl Process.op p).range.2.toExt := by
  have h0 : p.range.1.toExt < p.range.2.toExt := by
    unfold Process.mk? at h
    split at h
    · next hc => simp at h; subst h; exact (C06_range_accepted _ _).1 hc
    · simp at h
  clear h
  induction ops generalizing p with
  | nil => exact h0
  | cons o ops ih =>
    refine ih (p.op o) ?_
    cases o with
    | setOn b => exact h0
    | step t dt => exact h0
    | setRange r =>
      simp only [Process.op, Process.setRange]
      split
      · next hc => exact (C06_range_accepted _ _).1 hc
      · exact h0

/-- **C06 (6).** Two movers that share out the time line at `b`: every step is covered by at least one of them, and
by both only if the midpoint is exactly `b`. -/
theorem C06_handover (b : Int) (p q : Process) (hp : p.on = true) (hq : q.on = true)
    (hpr : p.range = (.minf, .fin b)) (hqr : q.range = (.fin b, .inf)) (t dt : Int) :
    ((p.prepareStep t dt).active = true ∨ (q.prepareStep t dt).active = true) ∧
    ((p.prepareStep t dt).active = true → (q.prepareStep t dt).active = true → t + 500000 * dt = b) := by
  simp only [C06_active_iff, hp, hq, hpr, hqr, DT.toExt, WithBot.coe_le_coe, WithTop.coe_le_coe, bot_le, le_top,
    true_and, and_true]
  constructor
  · omega
  · intro h1 h2; omega

/-- non-vacuity: a process with a finite range that is active at steps 1..2 of 0..3 -/
example : ∃ p, Process.mk? true (.fin 900000000, .fin 9000000000) = some p ∧
    (p.prepareStep 0 1000).active = false ∧ (p.prepareStep (1 * 1000000000) 1000).active = true ∧
    (p.prepareStep (8 * 1000000000) 1000).active = true ∧ (p.prepareStep (9 * 1000000000) 1000).active = false := by
  refine ⟨_, rfl, ?_⟩; decide

end Verif.InfDate
