import Verif.Mover.WindageModel
import Mathlib.Tactic.Ring
import Mathlib.Tactic.Linarith
import Mathlib.Tactic.NormNum
import Mathlib.Tactic.Positivity
import Mathlib.Tactic.FieldSimp

/-!
# C99: windage
-/

namespace Verif.Mover

/-- The windage of an element is within its range. -/
def InRange (w : Wd) : Prop := w.lo ≤ w.windage ∧ w.windage ≤ w.hi

/-- The generator delivers numbers between 0 and 1. -/
def Unit01 (r : Nat → ℝ) : Prop := ∀ i, 0 ≤ r i ∧ r i ≤ 1

/-- The operations of a run are those of a generator that works. -/
def WdOp.Fair : WdOp → Prop
  | .release _ _ _ r _ => Unit01 r
  | .step _ r => Unit01 r

/-- The claim: throughout every run, the windage of every element is in the range that was set for it. -/
def C99_claim : Prop := ∀ (ops : List WdOp) (ws : List Wd), (∀ op ∈ ops, op.Fair) →
  (∀ dt r, WdOp.step dt r ∈ ops → dt ≠ 0) → wdRun [] ops = some ws → ∀ w ∈ ws, InRange w

theorem uniform_between {lo hi r : ℝ} (h : lo ≤ hi) (h0 : 0 ≤ r) (h1 : r ≤ 1) : lo ≤ uniform lo hi r ∧ uniform lo hi r ≤ hi := by
  unfold uniform
  constructor
  · nlinarith
  · nlinarith

theorem sqrt_le_one_iff' {x : ℝ} : √x ≤ 1 ↔ x ≤ 1 := by
  rw [Real.sqrt_le_left (by norm_num)]; norm_num

/-- What a redraw does to each element. -/
theorem redraw_getElem {dt : ℝ} {r : Nat → ℝ} {ws ws' : List Wd} (h : redraw dt r ws = some ws') (i : Nat) (w : Wd)
    (hw : ws[i]? = some w) :
    w.lo ≤ w.hi ∧ ∃ w', ws'[i]? = some w' ∧ w'.lo = w.lo ∧ w'.hi = w.hi ∧ w'.persist = w.persist ∧
      (w.updated → w'.windage = uniform (w.scaled dt).1 (w.scaled dt).2 (r i)) ∧
      (¬ w.updated → w'.windage = w.windage ∨ (w'.windage = w.lo ∧ w.lo = w.hi)) := by
  unfold redraw at h
  simp only at h
  split at h
  · exact absurd h (by simp)
  rename_i hn
  push Not at hn
  have hmem : w ∈ ws := List.mem_of_getElem? hw
  obtain rfl := Option.some.inj h
  refine ⟨hn w hmem, ?_⟩
  rw [List.getElem?_mapIdx, hw, Option.map_some]
  refine ⟨_, rfl, rfl, rfl, rfl, fun hu => ?_, fun hu => ?_⟩
  · simp only [if_pos hu]
    split
    · rfl
    · rename_i hr
      push Not at hr
      have hp : (w.persist : ℝ) = |dt| := hr w hmem hu
      have hpos : (0 : ℝ) < w.persist := by exact_mod_cast hu.1
      have : (w.persist : ℝ) / |dt| = 1 := by rw [← hp]; exact div_self hpos.ne'
      simp only [Wd.scaled, this, Real.sqrt_one, mul_one]
      congr 1 <;> ring
  · simp only [if_neg hu]
    split
    · rename_i hs
      exact Or.inr ⟨rfl, hs w hmem⟩
    · exact Or.inl rfl

theorem redraw_length {dt : ℝ} {r : Nat → ℝ} {ws ws' : List Wd} (h : redraw dt r ws = some ws') : ws'.length = ws.length := by
  unfold redraw at h
  simp only at h
  split at h
  · exact absurd h (by simp)
  · obtain rfl := Option.some.inj h
    simp

/-- The new range has the same middle, and its width is that of the range times the root of persistence over step. -/
theorem C99_spread (w : Wd) (dt : ℝ) :
    (w.scaled dt).1 + (w.scaled dt).2 = w.lo + w.hi ∧
      (w.scaled dt).2 - (w.scaled dt).1 = (w.hi - w.lo) * √(w.persist / |dt|) := by
  constructor <;> simp only [Wd.scaled] <;> ring

/-- **C99**, the purpose of the rescaling: over a given time, the spread (mean square) of the distance travelled does not depend on
the length of the step.  `v` is the speed of the wind; the windage of each of the `n` steps of `dt` is uniform over the scaled range,
whose mean square deviation is the width squared over 12. -/
theorem C99_spread_independent (w : Wd) (dt v : ℝ) (n : ℝ) (hdt : dt ≠ 0) (hp : 0 < w.persist) :
    n * ((v * dt) ^ 2 * (((w.scaled dt).2 - (w.scaled dt).1) ^ 2 / 12)) =
      (n * |dt|) * w.persist * (v ^ 2 * ((w.hi - w.lo) ^ 2 / 12)) := by
  rw [(C99_spread w dt).2, mul_pow (w.hi - w.lo), Real.sq_sqrt (by positivity)]
  have h : |dt| ≠ 0 := abs_ne_zero.mpr hdt
  have h2 : dt ^ 2 = |dt| ^ 2 := (sq_abs dt).symm
  rw [mul_pow, h2]
  field_simp

/-- **C99**, one step: exactly when the step is at least as long as the persistence does the scaled range lie within the range. -/
theorem C99_within_iff (w : Wd) (dt : ℝ) (hdt : dt ≠ 0) (hw : w.lo < w.hi) :
    (w.lo ≤ (w.scaled dt).1 ∧ (w.scaled dt).2 ≤ w.hi) ↔ (w.persist : ℝ) ≤ |dt| := by
  have hd : 0 < |dt| := abs_pos.mpr hdt
  have hwd : 0 < w.hi - w.lo := by linarith
  have hs : √((w.persist : ℝ) / |dt|) ≤ 1 ↔ (w.persist : ℝ) ≤ |dt| := by
    rw [sqrt_le_one_iff', div_le_one hd]
  rw [← hs]
  simp only [Wd.scaled]
  constructor
  · rintro ⟨h1, -⟩
    by_contra hc
    push Not at hc
    nlinarith
  · intro h
    constructor <;> nlinarith

theorem mem_split {ws ws' : List Wd} {dt : ℝ} {r : Nat → ℝ} (h : redraw dt r ws = some ws') {w' : Wd} (hw : w' ∈ ws') :
    ∃ (i : Nat) (w : Wd), ws[i]? = some w ∧ ws'[i]? = some w' := by
  obtain ⟨i, hi⟩ := List.mem_iff_getElem?.mp hw
  have hlt : i < ws'.length := (List.getElem?_eq_some_iff.mp hi).1
  rw [redraw_length h] at hlt
  exact ⟨i, ws[i], List.getElem?_eq_getElem hlt, hi⟩

theorem draw_inRange {r : Nat → ℝ} {ws ws' : List Wd} (hr : Unit01 r) (h : draw r ws = some ws') : ∀ w ∈ ws', InRange w := by
  unfold draw at h
  split at h
  · exact absurd h (by simp)
  rename_i hn
  push Not at hn
  obtain rfl := Option.some.inj h
  intro w hw
  obtain ⟨i, hi⟩ := List.mem_iff_getElem?.mp hw
  rw [List.getElem?_mapIdx] at hi
  cases hx : ws[i]? with
  | none => rw [hx] at hi; exact absurd hi (by simp)
  | some x =>
    rw [hx, Option.map_some] at hi
    obtain rfl := Option.some.inj hi
    exact uniform_between (hn x (List.mem_of_getElem? hx)) (hr i).1 (hr i).2

/-- One step keeps elements in range that are not redrawn, or are redrawn over at least their persistence. -/
theorem redraw_inRange {dt : ℝ} {r : Nat → ℝ} {ws ws' : List Wd} (hdt : dt ≠ 0) (hr : Unit01 r) (h : redraw dt r ws = some ws')
    (i : Nat) (w w' : Wd) (hw : ws[i]? = some w) (hw' : ws'[i]? = some w') (hin : InRange w)
    (hok : w.updated → (w.persist : ℝ) ≤ |dt|) : InRange w' := by
  obtain ⟨hle, x, hx, hlo, hhi, -, hu, hnu⟩ := redraw_getElem h i w hw
  rw [hw'] at hx
  obtain rfl := Option.some.inj hx
  unfold InRange
  rw [hlo, hhi]
  by_cases hup : w.updated
  · rw [hu hup]
    have hd : 0 < |dt| := abs_pos.mpr hdt
    have hs : √((w.persist : ℝ) / |dt|) ≤ 1 := by
      rw [sqrt_le_one_iff', div_le_one hd]; exact hok hup
    have h0 := Real.sqrt_nonneg ((w.persist : ℝ) / |dt|)
    have hb : (w.scaled dt).1 ≤ (w.scaled dt).2 := by simp only [Wd.scaled]; nlinarith
    have h1 : w.lo ≤ (w.scaled dt).1 := by simp only [Wd.scaled]; nlinarith
    have h2 : (w.scaled dt).2 ≤ w.hi := by simp only [Wd.scaled]; nlinarith
    obtain ⟨g1, g2⟩ := uniform_between hb (hr i).1 (hr i).2
    exact ⟨h1.trans g1, g2.trans h2⟩
  · rcases hnu hup with e | ⟨e, e2⟩
    · rw [e]; exact hin
    · rw [e]; exact ⟨le_refl _, e2.le⟩

/-- **C99** for runs whose steps are at least as long as the finite persistences released: the windage of every element is in its
range at the end of every run, however many releases and steps, whatever the generator delivers. -/
theorem C99_in_range_partial (ops : List WdOp) (hf : ∀ op ∈ ops, op.Fair)
    (hd : ∀ dt r, WdOp.step dt r ∈ ops → dt ≠ 0 ∧
      ∀ lo hi p r' n, WdOp.release lo hi p r' n ∈ ops → 0 < p → p ≤ 900 → (p : ℝ) ≤ |dt|)
    (ws : List Wd) (h : wdRun [] ops = some ws) : ∀ w ∈ ws, InRange w := by
  have key : ∀ (ops' : List WdOp) (ws0 ws1 : List Wd), (∀ op ∈ ops', op ∈ ops) → wdRun ws0 ops' = some ws1 →
      (∀ w ∈ ws0, InRange w ∧ ∃ lo hi r' n, WdOp.release lo hi w.persist r' n ∈ ops) → ∀ w ∈ ws1, InRange w := by
    intro ops'
    induction ops' with
    | nil =>
      intro ws0 ws1 _ h h0 w hw
      obtain rfl := Option.some.inj h
      exact (h0 w hw).1
    | cons op ops' ih =>
      intro ws0 ws1 hsub h h0
      simp only [wdRun] at h
      obtain ⟨ws', hs, hrest⟩ := Option.bind_eq_some_iff.mp h
      refine ih ws' ws1 (fun o ho => hsub o (by simp [ho])) hrest ?_
      have hop := hsub op (by simp)
      cases op with
      | release lo hi p r n =>
        simp only [wdStep] at hs
        obtain ⟨new, hnew, rfl⟩ := Option.map_eq_some_iff.mp hs
        intro w hw
        rcases List.mem_append.mp hw with hw | hw
        · exact h0 w hw
        · refine ⟨draw_inRange (hf _ hop) hnew w hw, lo, hi, r, n, ?_⟩
          have hp : w.persist = p := by
            unfold initWindages draw at hnew
            split at hnew
            · exact absurd hnew (by simp)
            · obtain rfl := Option.some.inj hnew
              obtain ⟨i, hi'⟩ := List.mem_iff_getElem?.mp hw
              rw [List.getElem?_mapIdx] at hi'
              cases hx : (List.replicate n (⟨lo, hi, p, 0⟩ : Wd))[i]? with
              | none => rw [hx] at hi'; exact absurd hi' (by simp)
              | some x =>
                rw [hx, Option.map_some] at hi'
                obtain rfl := Option.some.inj hi'
                have := List.eq_of_mem_replicate (List.mem_of_getElem? hx)
                rw [this]
          rw [hp]; exact hop
      | step dt r =>
        simp only [wdStep] at hs
        split at hs
        · obtain rfl := Option.some.inj hs
          exact h0
        · intro w' hw'
          obtain ⟨i, w, hw, hwi⟩ := mem_split hs hw'
          obtain ⟨-, x, hx, -, -, hpx, -, -⟩ := redraw_getElem hs i w hw
          rw [hwi] at hx
          obtain rfl := Option.some.inj hx
          obtain ⟨hin, lo, hi, r', n, hrel⟩ := h0 w (List.mem_of_getElem? hw)
          obtain ⟨hdt, hlong⟩ := hd dt r hop
          refine ⟨redraw_inRange hdt (hf _ hop) hs i w w' hw hwi hin (fun hu => hlong lo hi _ r' n hrel hu.1 hu.2), lo, hi, r', n, ?_⟩
          rw [hpx]; exact hrel
  exact key ops [] ws (fun _ h => h) h (fun w hw => absurd hw (by simp))

/-- **C99**, infinite persistence: an element whose persistence is not positive, or is above 900 s, keeps its windage in every step
(or gets the one value possible, when no element has a range of more than one value). -/
theorem C99_infinite (dt : ℝ) (r : Nat → ℝ) (ws ws' : List Wd) (h : redraw dt r ws = some ws') (i : Nat) (w : Wd)
    (hw : ws[i]? = some w) (hp : w.persist ≤ 0 ∨ 900 < w.persist) (hin : InRange w) :
    ∃ w', ws'[i]? = some w' ∧ w'.windage = w.windage := by
  have hu : ¬ w.updated := by
    intro hu
    rcases hp with h | h
    · exact absurd hu.1 (by omega)
    · exact absurd hu.2 (by omega)
  obtain ⟨-, w', hw', -, -, -, -, hnu⟩ := redraw_getElem h i w hw
  refine ⟨w', hw', ?_⟩
  rcases hnu hu with e | ⟨e, e2⟩
  · exact e
  · rw [e]
    have h2 : w.windage ≤ w.lo := e2 ▸ hin.2
    exact le_antisymm hin.1 h2

/-- Infinite persistence through a run: the windage drawn at the release is the windage at the end. -/
theorem C99_infinite_run (ops : List WdOp) : ∀ (ws ws' : List Wd) (i : Nat) (w : Wd), wdRun ws ops = some ws' → ws[i]? = some w →
    w.persist ≤ 0 ∨ 900 < w.persist → InRange w → ∃ w', ws'[i]? = some w' ∧ w'.windage = w.windage := by
  induction ops with
  | nil =>
    intro ws ws' i w h hw _ _
    obtain rfl := Option.some.inj h
    exact ⟨w, hw, rfl⟩
  | cons op ops ih =>
    intro ws ws' i w h hw hp hin
    simp only [wdRun] at h
    obtain ⟨ws1, hs, hrest⟩ := Option.bind_eq_some_iff.mp h
    cases op with
    | release lo hi p r n =>
      simp only [wdStep] at hs
      obtain ⟨new, -, rfl⟩ := Option.map_eq_some_iff.mp hs
      refine ih _ ws' i w hrest ?_ hp hin
      have hlt : i < ws.length := (List.getElem?_eq_some_iff.mp hw).1
      rw [List.getElem?_append_left hlt]; exact hw
    | step dt r =>
      simp only [wdStep] at hs
      split at hs
      · rename_i he; rw [he] at hw; exact absurd hw (by simp)
      · obtain ⟨w1, hw1, e⟩ := C99_infinite dt r ws ws1 hs i w hw hp hin
        obtain ⟨-, x, hx, hlo, hhi, hpp, -, -⟩ := redraw_getElem hs i w hw
        rw [hw1] at hx
        obtain rfl := Option.some.inj hx
        have hin1 : InRange w1 := by unfold InRange; rw [hlo, hhi, e]; exact hin
        obtain ⟨w', hw', e'⟩ := ih ws1 ws' i w1 hrest hw1 (hpp ▸ hp) hin1
        exact ⟨w', hw', e'.trans e⟩

/-- A range the wrong way round is refused, and nothing else is. -/
theorem C99_refused (dt : ℝ) (r : Nat → ℝ) (ws : List Wd) : redraw dt r ws = none ↔ ∃ w ∈ ws, w.hi < w.lo := by
  unfold redraw
  simp only
  split <;> rename_i h <;> simp [h]

/-- **C99** fails for steps shorter than the persistence: the defaults (1 % to 4 %, 900 s) with a step of 100 s (any fair generator
may deliver 0) give a windage of −2 %. -/
theorem C99_counterexample : ¬ C99_claim := by
  intro h
  have hs : √((900 : ℝ) / |100|) = 3 := by
    rw [show (900 : ℝ) / |100| = 3 ^ 2 by norm_num [abs_of_pos]]
    exact Real.sqrt_sq (by norm_num)
  have hu : (⟨1 / 100, 4 / 100, 900, 1 / 100⟩ : Wd).updated := ⟨by norm_num, by norm_num⟩
  have hd : draw (fun _ => 0) [⟨1 / 100, 4 / 100, 900, 0⟩] = some [⟨1 / 100, 4 / 100, 900, 1 / 100⟩] := by
    unfold draw
    rw [if_neg (by norm_num)]
    simp [uniform]
  have hr : redraw 100 (fun _ => 0) [⟨1 / 100, 4 / 100, 900, 1 / 100⟩] = some [⟨1 / 100, 4 / 100, 900, -2 / 100⟩] := by
    unfold redraw
    rw [if_neg (by norm_num)]
    simp only [List.mapIdx_cons, List.mapIdx_nil, if_pos hu]
    rw [if_pos]
    · simp only [Wd.scaled, uniform]
      have : ((900 : Int) : ℝ) / |100| = 900 / |100| := by norm_num
      rw [this, hs]
      norm_num
    · refine ⟨_, List.mem_singleton.mpr rfl, hu, ?_⟩
      norm_num [abs_of_pos]
  have hrun : wdRun [] [.release (1 / 100) (4 / 100) 900 (fun _ => 0) 1, .step 100 (fun _ => 0)] =
      some [⟨1 / 100, 4 / 100, 900, -2 / 100⟩] := by
    simp only [wdRun, wdStep, initWindages, List.replicate, hd, Option.map_some, Option.bind_some, List.nil_append, hr]
    simp
  have := h _ _ (by intro op hop; simp only [List.mem_cons, List.not_mem_nil, or_false] at hop; rcases hop with rfl | rfl <;> exact fun _ => by norm_num)
    (by intro dt r hm; simp only [List.mem_cons, List.not_mem_nil, or_false, reduceCtorEq, false_or, WdOp.step.injEq] at hm; rw [hm.1]; norm_num)
    hrun _ (List.mem_singleton.mpr rfl)
  have h1 : (1 : ℝ) / 100 ≤ -2 / 100 := this.1
  norm_num at h1

/-- With a step of 900 s the defaults stay in range: the whole run, from a release to two steps. -/
example (r1 r2 r3 : Nat → ℝ) (h1 : Unit01 r1) (h2 : Unit01 r2) (h3 : Unit01 r3) (ws : List Wd)
    (h : wdRun [] [.release (1 / 100) (4 / 100) 900 r1 10, .step 900 r2, .step (-900) r3] = some ws) : ∀ w ∈ ws, InRange w := by
  refine C99_in_range_partial _ ?_ ?_ ws h
  · intro op hop
    simp only [List.mem_cons, List.not_mem_nil, or_false] at hop
    rcases hop with rfl | rfl | rfl
    · exact h1
    · exact h2
    · exact h3
  · intro dt r hm
    simp only [List.mem_cons, List.not_mem_nil, or_false, reduceCtorEq, false_or, WdOp.step.injEq] at hm
    have hdt : dt ≠ 0 ∧ |dt| = 900 := by rcases hm with ⟨rfl, -⟩ | ⟨rfl, -⟩ <;> norm_num
    refine ⟨hdt.1, ?_⟩
    intro lo hi p r' n hm' _ hp
    rw [hdt.2]
    exact_mod_cast hp

end Verif.Mover
