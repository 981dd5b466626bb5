import Verif.Shio.WaveModel

/-!
# C161, C162: speeds from heights, and repeated questions
-/

namespace Verif.Shio

/-! ## C161 -/

/-- Highs and lows in the order of time, at least two. -/
def Ordered (hl : List Ext) : Prop := 2 ≤ hl.length ∧ hl.Pairwise fun a b => a.time < b.time

/-- The smooth curve from one extreme to the next: the cubic through both that is level at both ends. -/
noncomputable def smooth (a b : Ext) (s : ℝ) : ℝ :=
  let x := (s - a.time) / (b.time - a.time)
  a.height + (b.height - a.height) * (3 * x ^ 2 - 2 * x ^ 3)

/-- The curve goes through both extremes and is level there. -/
theorem smooth_ends (a b : Ext) (h : a.time < b.time) :
    smooth a b a.time = a.height ∧ smooth a b b.time = b.height := by
  have h' : ((b.time : ℝ) - a.time) ≠ 0 := by
    have : (a.time : ℝ) < b.time := by exact_mod_cast h
    linarith
  constructor
  · simp [smooth]
  · simp only [smooth]
    rw [div_self h']
    ring

theorem smooth_deriv (a b : Ext) (h : a.time < b.time) (t : Int) :
    HasDerivAt (smooth a b) (getDeriv a.time a.height b.time b.height t / 3048) t := by
  have h1 : (1 : ℝ) ≤ (b.time : ℝ) - a.time := by
    have : a.time + 1 ≤ b.time := h
    have : (a.time : ℝ) + 1 ≤ b.time := by exact_mod_cast this
    linarith
  have hne : ((b.time : ℝ) - a.time) ≠ 0 := by linarith
  have hx : HasDerivAt (fun s : ℝ => (s - a.time) / (b.time - a.time)) (1 / ((b.time : ℝ) - a.time)) (t : ℝ) := by
    have := ((hasDerivAt_id (t : ℝ)).sub_const (a.time : ℝ)).div_const ((b.time : ℝ) - a.time)
    simpa using this
  have hd := (((hx.pow 2).const_mul 3).sub ((hx.pow 3).const_mul 2)).const_mul (b.height - a.height)
  have hd' := hd.const_add a.height
  have he : getDeriv a.time a.height b.time b.height t / 3048
      = (b.height - a.height) * (3 * ((2 : ℕ) * (((t : ℝ) - a.time) / (b.time - a.time)) ^ (2 - 1) * (1 / ((b.time : ℝ) - a.time)))
        - 2 * ((3 : ℕ) * (((t : ℝ) - a.time) / (b.time - a.time)) ^ (3 - 1) * (1 / ((b.time : ℝ) - a.time)))) := by
    unfold getDeriv
    push_cast
    rw [if_neg (by rw [not_lt]; linarith)]
    field_simp
    ring
  rw [he]
  exact hd'

/-- What the speed at a time between two extremes has to be. -/
def Right (scale : ℝ) (hl : List Ext) (t : Int) (u : ℝ) : Prop :=
  (∀ a ∈ hl, t = a.time → u = 0)
  ∧ ∀ l1 a b l2, hl = l1 ++ a :: b :: l2 → a.time ≤ t → t ≤ b.time →
      HasDerivAt (fun s => scale * 3048 * smooth a b s) u t

theorem lastTime_mem (hl : List Ext) (h : hl ≠ []) : ∃ a ∈ hl, lastTime hl = a.time := by
  induction hl with
  | nil => exact absurd rfl h
  | cons a l ih =>
    cases l with
    | nil => exact ⟨a, by simp, rfl⟩
    | cons b l =>
      obtain ⟨c, hc, hct⟩ := ih (by simp)
      exact ⟨c, List.mem_cons_of_mem _ hc, hct⟩

theorem lastTime_append (l1 l2 : List Ext) (h : l2 ≠ []) : lastTime (l1 ++ l2) = lastTime l2 := by
  induction l1 with
  | nil => rfl
  | cons a l ih =>
    rw [List.cons_append]
    cases h' : l ++ l2 with
    | nil => simp at h'; exact absurd h'.2 h
    | cons b m => rw [← ih, h']; rfl

/-- Derivative at both ends is zero. -/
theorem getDeriv_ends (t1 t2 : Int) (v1 v2 : ℝ) (h : t1 < t2) : getDeriv t1 v1 t2 v2 t1 = 0 ∧ getDeriv t1 v1 t2 v2 t2 = 0 := by
  have h1 : (1 : ℝ) ≤ (t2 : ℝ) - t1 := by
    have : t1 + 1 ≤ t2 := h
    have : (t1 : ℝ) + 1 ≤ t2 := by exact_mod_cast this
    linarith
  have hne : ((t2 : ℝ) - t1) ≠ 0 := by linarith
  unfold getDeriv
  push_cast
  rw [if_neg (by rw [not_lt]; linarith), if_neg (by rw [not_lt]; linarith)]
  constructor
  · simp
  · have : ((t2 : ℝ) - t1) / (3600 * (((t2 : ℝ) - t1) / 3600)) = 1 := by field_simp
    rw [this]; simp

/-- What the loop returns, for the rest of a list. -/
theorem convLoop_spec (scale : ℝ) (t last : Int) (l : List Ext) (h2 : 2 ≤ l.length)
    (ho : l.Pairwise fun a b => a.time < b.time) (hlast : last = lastTime l) (h1 : firstTime l ≤ t) (h3 : t ≤ last) :
    ∃ u, convLoop scale last t l = some u ∧ ((∃ a ∈ l, t = a.time) → u = 0)
      ∧ ((¬ ∃ a ∈ l, t = a.time) → ∃ l1 a b l2, l = l1 ++ a :: b :: l2 ∧ a.time < t ∧ t < b.time
          ∧ u = getDeriv a.time a.height b.time b.height t * scale) := by
  induction l with
  | nil => simp at h2
  | cons a l ih =>
    cases l with
    | nil => simp at h2
    | cons b l =>
      unfold convLoop
      by_cases hc : t = a.time ∨ t = last
      · rw [if_pos hc]
        refine ⟨0, rfl, fun _ => rfl, fun hn => ?_⟩
        exfalso; apply hn
        rcases hc with hc | hc
        · exact ⟨a, by simp, hc⟩
        · obtain ⟨c, hc1, hc2⟩ := lastTime_mem (a :: b :: l) (by simp)
          exact ⟨c, hc1, by rw [hc, hlast, hc2]⟩
      · rw [if_neg hc]
        rw [not_or] at hc
        have ha : a.time < t := by
          have : a.time ≤ t := h1
          omega
        by_cases hb : a.time < t ∧ t < b.time
        · rw [if_pos hb]
          refine ⟨_, rfl, ?_, fun _ => ⟨[], a, b, l, rfl, hb.1, hb.2, rfl⟩⟩
          rintro ⟨c, hc1, hc2⟩
          exfalso
          rw [List.pairwise_cons] at ho
          rw [List.mem_cons] at hc1
          rcases hc1 with rfl | hc1
          · omega
          · rw [List.mem_cons] at hc1
            rcases hc1 with rfl | hc1
            · omega
            · have := (List.pairwise_cons.1 ho.2).1 c hc1
              omega
        · rw [if_neg hb]
          have hbt : b.time ≤ t := by
            by_contra h; exact hb ⟨ha, by omega⟩
          have hl2 : 2 ≤ (b :: l).length := by
            cases l with
            | nil =>
              exfalso
              have : last = b.time := hlast
              omega
            | cons c l => simp
          obtain ⟨u, hu1, hu2, hu3⟩ := ih hl2 (List.pairwise_cons.1 ho).2 hlast hbt
          refine ⟨u, hu1, ?_, ?_⟩
          · rintro ⟨c, hc1, hc2⟩
            rw [List.mem_cons] at hc1
            rcases hc1 with rfl | hc1
            · omega
            · exact hu2 ⟨c, hc1, hc2⟩
          · intro hn
            obtain ⟨l1, x, y, l2, h1', h2', h3', h4'⟩ := hu3 (fun ⟨c, hc1, hc2⟩ => hn ⟨c, List.mem_cons_of_mem _ hc1, hc2⟩)
            exact ⟨a :: l1, x, y, l2, by rw [h1']; rfl, h2', h3', h4'⟩

theorem pair_unique {l1 l2 m1 m2 : List Ext} {a b c d : Ext} {t : Int}
    (ho : (l1 ++ a :: b :: l2).Pairwise fun a b => a.time < b.time) (he : l1 ++ a :: b :: l2 = m1 ++ c :: d :: m2)
    (h1 : a.time < t) (h2 : t < b.time) (h3 : c.time ≤ t) (h4 : t ≤ d.time) : a = c ∧ b = d := by
  induction l1 generalizing m1 with
  | nil =>
    cases m1 with
    | nil => simp at he; exact ⟨he.1, he.2.1⟩
    | cons e m1 =>
      exfalso
      simp only [List.nil_append, List.cons_append, List.cons.injEq] at he
      obtain ⟨rfl, he⟩ := he
      rw [List.nil_append, List.pairwise_cons, List.pairwise_cons] at ho
      have hc : c ∈ b :: l2 := by rw [he]; simp
      rw [List.mem_cons] at hc
      rcases hc with rfl | hc
      · omega
      · have := ho.2.1 c hc
        omega
  | cons e l1 ih =>
    cases m1 with
    | nil =>
      exfalso
      simp only [List.nil_append, List.cons_append, List.cons.injEq] at he
      obtain ⟨rfl, he⟩ := he
      rw [List.cons_append, List.pairwise_cons] at ho
      have hlt : ∀ x ∈ l1 ++ a :: b :: l2, d.time ≤ x.time := by
        intro x hx
        rw [he] at hx ho
        rw [List.mem_cons] at hx
        rcases hx with rfl | hx
        · exact le_refl _
        · exact le_of_lt ((List.pairwise_cons.1 ho.2).1 x hx)
      have := hlt a (by simp)
      omega
    | cons f m1 =>
      simp only [List.cons_append, List.cons.injEq] at he
      obtain ⟨rfl, he⟩ := he
      rw [List.cons_append, List.pairwise_cons] at ho
      exact ih ho.2 he

/-- **C161**: within the highs and lows, the speed of a standing wave is the rate of change of the smooth curve
through them, times the scale: zero at every high and low. -/
theorem C161 (scale : ℝ) (hl : List Ext) (ho : Ordered hl) (t : Int) (h1 : firstTime hl ≤ t) (h2 : t ≤ lastTime hl) :
    ∃ u, conv scale hl t = some u ∧ Right scale hl t u := by
  obtain ⟨u, hu1, hu2, hu3⟩ := convLoop_spec scale t _ hl ho.1 ho.2 rfl h1 h2
  refine ⟨u, hu1, fun a ha hta => hu2 ⟨a, ha, hta⟩, ?_⟩
  intro l1 a b l2 he ha hb
  have hab : a.time < b.time := by
    have := ho.2
    rw [he, List.pairwise_append] at this
    exact (List.pairwise_cons.1 this.2.1).1 b (by simp)
  have hd := (smooth_deriv a b hab t).const_mul (scale * 3048)
  have hu : u = scale * 3048 * (getDeriv a.time a.height b.time b.height t / 3048) := by
    by_cases hx : ∃ c ∈ hl, t = c.time
    · rw [hu2 hx]
      have : t = a.time ∨ t = b.time := by
        by_contra hcon
        rw [not_or] at hcon
        obtain ⟨c, hc, hct⟩ := hx
        have hp := ho.2
        rw [he] at hc hp
        rw [List.pairwise_append, List.pairwise_cons, List.pairwise_cons] at hp
        rw [List.mem_append, List.mem_cons, List.mem_cons] at hc
        rcases hc with hc | rfl | rfl | hc
        · have := hp.2.2 c hc a (by simp); omega
        · omega
        · omega
        · have := hp.2.1.2.1 c hc; omega
      rcases this with h | h
      · rw [h, (getDeriv_ends _ _ _ _ hab).1]; simp
      · rw [h, (getDeriv_ends _ _ _ _ hab).2]; simp
    · obtain ⟨m1, c, d, m2, hm, hc, hd', hu4⟩ := hu3 hx
      have := pair_unique (l1 := m1) (l2 := m2) (m1 := l1) (m2 := l2) (by rw [← hm]; exact ho.2) (by rw [← hm, he]) hc hd' ha hb
      rw [hu4, this.1, this.2]
      ring
  rw [hu]
  exact hd

/-- Between a low and a high the water runs in (positive for a positive scale), between a high and a low out. -/
theorem C161_sign (a b : Ext) (t : Int) (h1 : a.time < t) (h2 : t < b.time) :
    (a.height < b.height → 0 < getDeriv a.time a.height b.time b.height t)
    ∧ (b.height < a.height → getDeriv a.time a.height b.time b.height t < 0) := by
  have e1 : (0 : ℝ) < (t : ℝ) - a.time := by
    have : (a.time : ℝ) < t := by exact_mod_cast h1
    linarith
  have e2 : (0 : ℝ) < (b.time : ℝ) - t := by
    have : (t : ℝ) < b.time := by exact_mod_cast h2
    linarith
  have h3 : (1 : ℝ) ≤ (b.time : ℝ) - a.time := by
    have : a.time + 1 ≤ b.time := by omega
    have : (a.time : ℝ) + 1 ≤ b.time := by exact_mod_cast this
    linarith
  have e3 : (0 : ℝ) < (b.time : ℝ) - a.time := by linarith
  have key : getDeriv a.time a.height b.time b.height t
      = 3048 * 6 * (((t : ℝ) - a.time) * ((b.time : ℝ) - t) / ((b.time : ℝ) - a.time) ^ 3) * (b.height - a.height) := by
    unfold getDeriv
    push_cast
    rw [if_neg (by rw [not_lt]; linarith)]
    field_simp
    ring
  have hpos : 0 < 3048 * 6 * (((t : ℝ) - a.time) * ((b.time : ℝ) - t) / ((b.time : ℝ) - a.time) ^ 3) := by positivity
  rw [key]
  constructor
  · intro h; exact mul_pos hpos (by linarith)
  · intro h; exact mul_neg_of_pos_of_neg hpos (by linarith)

/-- Non-trivial case: three extremes six hours apart. -/
example : ∃ u, conv 1 [⟨0, 1⟩, ⟨21600, 5⟩, ⟨43200, 2⟩] 30000 = some u
    ∧ Right 1 [⟨0, 1⟩, ⟨21600, 5⟩, ⟨43200, 2⟩] 30000 u :=
  C161 1 _ ⟨by simp, by simp⟩ 30000 (by simp [firstTime]) (by simp [lastTime])

/-! ## C162 -/

/-- **C162, as stated**: the answer to a question depends on its time, not on earlier questions or on what the
caller's variable held. -/
def C162_claim : Prop :=
  ∀ (k : Kind) (scale : ℝ) (off : Bool) (ref : Int → ℝ) (hl : List Ext) (qs : List (Int × ℝ)) (t : Int) (v v' : ℝ),
    let compute := fun s => { computeCurrent off ref s with hl := hl }
    (get k scale compute (asked k scale compute none qs) t v).1 = (get k scale compute none t v').1

/-- Ranges agree on the times they share. -/
def Agree (compute : Int → Range) : Prop :=
  ∀ s t, (compute s).lo ≤ t → t ≤ (compute s).hi → (compute s).curve t = (compute t).curve t

/-- What is kept was computed for some time. -/
theorem asked_from (k : Kind) (scale : ℝ) (compute : Int → Range) (qs : List (Int × ℝ)) (st : Option Range)
    (h : ∀ r, st = some r → ∃ s, r = compute s) : ∀ r, asked k scale compute st qs = some r → ∃ s, r = compute s := by
  induction qs generalizing st with
  | nil => exact h
  | cons q qs ih =>
    obtain ⟨t, v⟩ := q
    apply ih
    intro r hr
    unfold get at hr
    cases st with
    | none => cases k <;> (simp only at hr; cases hr; exact ⟨t, rfl⟩)
    | some r0 =>
      simp only at hr
      split at hr
      · cases k with
        | current => exact h r hr
        | progressive => exact h r hr
        | height =>
          simp only at hr
          split at hr
          · exact h r hr
          · simp only at hr; cases hr; exact ⟨t, rfl⟩
      · cases k <;> (simp only at hr; cases hr; exact ⟨t, rfl⟩)

/-- **C162 (partial)**: for stations of currents whose ranges agree. -/
theorem C162_partial (scale : ℝ) (compute : Int → Range) (ha : Agree compute) (qs : List (Int × ℝ)) (t : Int) (v v' : ℝ) :
    (get .current scale compute (asked .current scale compute none qs) t v).1 = (get .current scale compute none t v').1
    ∧ (get .current scale compute none t v').1 = some ((compute t).curve t) := by
  have hfrom := asked_from .current scale compute qs none (by simp)
  refine ⟨?_, rfl⟩
  cases hst : asked .current scale compute none qs with
  | none => rfl
  | some r =>
    obtain ⟨s, rfl⟩ := hfrom r hst
    unfold get
    simp only
    split
    · rename_i h; simp only; rw [ha s t h.1 h.2]
    · rfl

/-- The loop after a computation finds what the later questions find, except at the last extreme. -/
theorem freshLoop_found (n t : Int) (l : List Ext) (v : ℝ) (hn : t ≠ n - 1)
    (ho : l.Pairwise fun a b => a.time < b.time) (hb : ∀ a ∈ l, t < a.time) : freshLoop n t l (v, true) = (v, true) := by
  induction l with
  | nil => rfl
  | cons a l ih =>
    cases l with
    | nil => rfl
    | cons b l =>
      have h1 := hb a (by simp)
      have n1 : ¬ (t = a.time ∨ t = n - 1) := by omega
      simp only [freshLoop, if_neg n1, Bool.true_eq_false, and_false, if_false]
      exact ih (List.pairwise_cons.1 ho).2 (fun c hc => hb c (List.mem_cons_of_mem _ hc))

theorem fresh_eq (scale : ℝ) (last n t : Int) (l : List Ext) (v : ℝ) (hn : t ≠ n - 1)
    (ho : l.Pairwise fun a b => a.time < b.time) (hlast : last = lastTime l) (h1 : firstTime l ≤ t) (h2 : t < last) (h3 : l ≠ []) :
    convLoop scale last t l = some ((freshLoop n t l (v, false)).1 * scale) := by
  induction l generalizing v with
  | nil => exact absurd rfl h3
  | cons a l ih =>
    cases l with
    | nil =>
      exfalso
      have e1 : last = a.time := hlast
      have e2 : a.time ≤ t := h1
      omega
    | cons b l =>
      have hab := (List.pairwise_cons.1 ho).1 b (by simp)
      have ho2 := (List.pairwise_cons.1 ho).2
      unfold convLoop
      by_cases hta : t = a.time
      · have n1 : t = a.time ∨ t = n - 1 := Or.inl hta
        simp only [freshLoop, if_pos n1, if_pos (show t = a.time ∨ t = last from Or.inl hta), Bool.true_eq_false, and_false, if_false]
        rw [freshLoop_found n t (b :: l) 0 hn ho2 ?_]
        · simp
        · intro c hc
          have := (List.pairwise_cons.1 ho).1 c hc
          omega
      · have n1 : ¬ (t = a.time ∨ t = n - 1) := by omega
        have n2 : ¬ (t = a.time ∨ t = last) := by omega
        have ha : a.time < t := by
          have : a.time ≤ t := h1
          omega
        simp only [freshLoop, if_neg n1, if_neg n2]
        by_cases hb : t < b.time
        · rw [if_pos ⟨ha, hb⟩]
          simp only [ha, hb, true_and, if_true]
          rw [freshLoop_found n t (b :: l) _ hn ho2 ?_]
          intro c hc
          rw [List.mem_cons] at hc
          rcases hc with rfl | hc
          · exact hb
          · have := (List.pairwise_cons.1 ho2).1 c hc
            omega
        · rw [if_neg (by omega)]
          simp only [hb, false_and, and_false, if_false]
          exact ih v ho2 hlast (by simp only [firstTime]; omega) (by simp)

/-- **C162 (partial), heights**: a question from the first to before the last extreme gets the same answer at first
as later (the time is not one of the first seconds of 1970). -/
theorem C162_height (scale : ℝ) (hl : List Ext) (ho : Ordered hl) (t : Int) (v : ℝ) (hn : t ≠ hl.length - 1)
    (h1 : firstTime hl ≤ t) (h2 : t < lastTime hl) : conv scale hl t = some (fresh scale hl t v) := by
  have := ho.1
  exact fresh_eq scale _ _ t hl v hn ho.2 rfl h1 h2 (by intro h; rw [h] at this; simp at this)

/-- The loop leaves the caller's value alone when the time is outside. -/
theorem freshLoop_none (n t : Int) (l : List Ext) (v : ℝ) (hn : t ≠ n - 1)
    (ho : l.Pairwise fun a b => a.time < b.time) (hb : t < firstTime l ∨ lastTime l ≤ t) :
    freshLoop n t l (v, false) = (v, false) := by
  induction l with
  | nil => rfl
  | cons a l ih =>
    cases l with
    | nil => rfl
    | cons b l =>
      have hab := (List.pairwise_cons.1 ho).1 b (by simp)
      have hlast : b.time ≤ lastTime (b :: l) := by
        obtain ⟨c, hc, hce⟩ := lastTime_mem (b :: l) (by simp)
        rw [hce]
        rw [List.mem_cons] at hc
        rcases hc with rfl | hc
        · exact le_refl _
        · exact le_of_lt ((List.pairwise_cons.1 (List.pairwise_cons.1 ho).2).1 c hc)
      have hb' : t < a.time ∨ lastTime (b :: l) ≤ t := hb
      have n1 : ¬ (t = a.time ∨ t = n - 1) := by
        rintro (h | h)
        · omega
        · exact hn h
      have n2 : ¬ (a.time < t ∧ t < b.time) := by omega
      simp only [freshLoop, if_neg n1]
      rw [if_neg (fun h => n2 ⟨h.1, h.2.1⟩)]
      exact ih (List.pairwise_cons.1 ho).2 (by simp only [firstTime]; omega)

/-- **C162 fails**: before the first extreme of the computed days, and from the last on, a standing wave has the
speed that the caller's variable held, times the scale: garbage, or the tide of the step before. -/
theorem C162_counterexample_height (scale : ℝ) (compute : Int → Range) (t : Int) (v : ℝ) (ho : Ordered (compute t).hl)
    (hn : t ≠ (compute t).hl.length - 1) (h : t < firstTime (compute t).hl ∨ lastTime (compute t).hl ≤ t) :
    (get .height scale compute none t v).1 = some (v * scale) := by
  unfold get
  simp only [fresh]
  rw [freshLoop_none _ t _ v hn ho.2 h]

/-- **C162 fails**: the first question to a progressive wave has no answer but the caller's value; the next has. -/
theorem C162_counterexample_progressive (scale : ℝ) (compute : Int → Range) (t : Int) (v v' : ℝ)
    (h : (compute t).lo ≤ t ∧ t ≤ (compute t).hi) :
    (get .progressive scale compute none t v).1 = some (v * scale)
    ∧ (get .progressive scale compute (asked .progressive scale compute none [(t, v)]) t v').1
        = some ((compute t).curve t * scale) := by
  refine ⟨rfl, ?_⟩
  simp only [asked, get]
  rw [if_pos h]

/-- **C162 fails**: noon of Monday 9 March 2026 is computed with daylight saving time, but not when the range of
Sunday noon is still there, which began before the switch: the tide is an hour off. -/
theorem C162_counterexample_dst (ref : Int → ℝ) :
    let noon : Int := 1773057600
    (Dates.civil noon).day = 9 ∧ (Dates.civil noon).month = 3 ∧ (Dates.civil noon).year = 2026
    ∧ (get .current 1 (computeCurrent false ref) none noon 0).1 = some (ref (noon - 3600))
    ∧ (get .current 1 (computeCurrent false ref) (asked .current 1 (computeCurrent false ref) none [(noon - 86400, 0)]) noon 0).1
        = some (ref noon) := by
  refine ⟨by decide, by decide, by decide, ?_, ?_⟩
  · have h : dst false (whenOf (beginOf 1773057600)) = true := by decide
    simp [get, computeCurrent, h]
  · have h : dst false (whenOf (beginOf 1772971200)) = false := by decide
    have h2 : beginOf 1772971200 = 1772928000 := by decide
    rw [h2] at h
    simp [get, asked, computeCurrent, h, h2]

theorem C162_counterexample : ¬ C162_claim := by
  intro h
  have := h .progressive 1 true (fun _ => 0) [] [] 0 0 1
  simp [get, asked] at this

/-- Non-trivial case of agreement: without daylight saving time. -/
example (ref : Int → ℝ) : Agree (computeCurrent true ref) := by
  intro s t _ _
  simp [computeCurrent, dst]

end Verif.Shio
