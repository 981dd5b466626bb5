import Verif.TSeries.Avg
import Verif.TSeries.Props

/-!
# C72: the running average of a wind is the average of the wind over the past hours

The claim: at every time of the running average, its value is the average, by hourly steps,
of the wind's speed over the given past hours, times before the data counting with the first
value (`OSSMTimeValue_c.cpp:1476`: "will get first value for any time before time zero").
-/

namespace Verif.TSeries

/-- `a` is the average of `s 0`, …, `s H` by the trapezoid rule. -/
def TrapAvg (s : Nat → ℚ) (H : Nat) (a : ℚ) : Prop :=
  a * H = ((List.range H).map (fun (j : Nat) => (s j + s (j + 1)) / 2)).sum

/-- `s j` is the speed of the wind `j` hours before `cur`, the end values held outside of
the data. -/
def PastSpeeds (spd : ℚ × ℚ → ℚ) (ts : List TV) (cur : Int) (H : Nat) (s : Nat → ℚ) : Prop :=
  ∀ j, j ≤ H → ∃ x, getTimeValue ts true (cur - j * 3600) = .ok x ∧ s j = spd x

/-- The claim in full. -/
def C72_claim : Prop :=
  ∀ (spd : ℚ × ℚ → ℚ) (ts : List TV) (e : Bool) (H : Nat) (mt : Int)
    (out : List (Int × Option ℚ)),
    Ascending ts → 0 < H → (at' ts 0).time ≤ mt → mt ≤ (at' ts (ts.length - 1)).time →
    runningAverage spd ts e H mt = some out →
    ∀ c a, (c, a) ∈ out → ∃ s y, PastSpeeds spd ts c H s ∧ a = some y ∧ TrapAvg s H y

/-- It fails: a steady wind of speed 6 for three hours, from the moment the model starts, has a
three hour running average of 1 at its start, because the hours before the data count as calm. -/
theorem C72_counterexample : ¬ C72_claim := by
  intro h
  have hasc : Ascending [⟨1000000, 6, 0⟩, ⟨1010800, 6, 0⟩] := (isAscending_iff _).1 (by decide)
  obtain ⟨s, y, hs, hy, ht⟩ := h (fun x => x.1) [⟨1000000, 6, 0⟩, ⟨1010800, 6, 0⟩] false 3 1000000
    [(1000000, some 1), (1003600, some 3), (1007200, some 5), (1010800, some 6)]
    hasc (by decide) (by decide) (by decide) (by decide +kernel) 1000000 (some 1) (by simp)
  have h6 : ∀ j, j ≤ 3 → s j = 6 := by
    intro j hj
    obtain ⟨x, hx, hsx⟩ := hs j hj
    have : getTimeValue [⟨1000000, 6, 0⟩, ⟨1010800, 6, 0⟩] true (1000000 - (j : Int) * 3600)
        = .ok (6, 0) := by
      rcases j with _ | _ | _ | _ | j
      · decide +kernel
      · decide +kernel
      · decide +kernel
      · decide +kernel
      · omega
    rw [this] at hx
    injection hx with hx
    rw [hsx, ← hx]
  injection hy with hy
  unfold TrapAvg at ht
  simp [List.range_succ, h6 0, h6 1, h6 2, h6 3] at ht
  rw [← hy] at ht
  norm_num at ht

/-- And with no past hours the value is not a number. -/
theorem C72_zero_hours : runningAverage (fun x => x.1) [⟨0, 6, 0⟩] false 0 0 =
    some [(0, none)] := by decide +kernel

/-! ## Where it holds -/

theorem in_range_ok (ts : List TV) (hasc : Ascending ts) (hn : 0 < ts.length) (t : Int)
    (h0 : (at' ts 0).time ≤ t) (h1 : t ≤ (at' ts (ts.length - 1)).time) :
    ∃ x, ∀ e, getTimeValue ts e t = .ok x := by
  have key : ∀ c : TV → ℚ, ∃ x, component ts c t = .ok x := by
    intro c
    by_cases l1 : ts.length = 1
    · exact ⟨_, by unfold component; rw [if_pos l1]⟩
    · by_cases l2 : ts.length = 2
      · obtain ⟨x, hx, _⟩ := line_ok (at' ts 0) (at' ts 1) c t (asc_lt hasc (by omega) (by omega))
        refine ⟨x, ?_⟩
        unfold component
        rw [if_neg l1, if_neg (by omega), if_neg (by omega), if_pos l2, hx]
      · obtain ⟨k, _, hk⟩ := component_in ts c t (by omega) h0 h1
        rcases hk with ⟨_, hk⟩ | ⟨_, _, _, ⟨_, hk⟩ | ⟨_, x, hk, _⟩⟩
        · exact ⟨_, hk⟩
        · exact ⟨_, hk⟩
        · exact ⟨x, hk⟩
  obtain ⟨x, hx⟩ := key TV.u
  obtain ⟨y, hy⟩ := key TV.v
  refine ⟨(x, y), fun e => ?_⟩
  rw [getTimeValue_in ts e t hn h0 h1, hx, hy]
  rfl

theorem head_at {ts : List TV} (hn : 0 < ts.length) : ts.head? = some (at' ts 0) := by
  rw [List.head?_eq_getElem?]; exact at'_get hn

theorem first_le_last {ts : List TV} (hasc : Ascending ts) (hn : 0 < ts.length) :
    (at' ts 0).time ≤ (at' ts (ts.length - 1)).time := by
  rcases Nat.eq_zero_or_pos (ts.length - 1) with h | h
  · rw [h]
  · exact le_of_lt (asc_lt hasc h (by omega))

/-- When samples are what the held wind is. -/
theorem sample_held (ts : List TV) (hasc : Ascending ts) (hn : 0 < ts.length) (e : Bool)
    (mt t : Int) (prev : ℚ × ℚ) (ht : t ≤ (at' ts (ts.length - 1)).time)
    (hor : e = true ∨ ts.length = 1 ∨ mt < (at' ts 0).time ∨ (at' ts 0).time ≤ t) :
    ∃ x, getTimeValue ts true t = .ok x ∧ sample ts e mt prev t = some x := by
  by_cases h0 : (at' ts 0).time ≤ t
  · obtain ⟨x, hx⟩ := in_range_ok ts hasc hn t h0 ht
    exact ⟨x, hx true, by unfold sample; rw [hx e]⟩
  · have hheld : getTimeValue ts true t = .ok ((at' ts 0).u, (at' ts 0).v) :=
      (C70_outside_held ts hasc t (at' ts 0)).1 (head_at hn) (by omega)
    refine ⟨_, hheld, ?_⟩
    rcases hor with rfl | h | h | h
    · unfold sample; rw [hheld]
    · match ts, h with
      | [p], _ =>
        unfold sample; rw [C70_single]; rfl
    · by_cases h1 : ts.length = 1
      · match ts, h1 with
        | [p], _ =>
          unfold sample; rw [C70_single]; rfl
      cases e with
      | true => unfold sample; rw [hheld]
      | false =>
        have herr : getTimeValue ts false t = .err := by
          refine C70_outside_refused ts (by omega) t (Or.inl ?_)
          intro p hp
          obtain ⟨i, hi⟩ := List.mem_iff_getElem?.1 hp
          rcases Nat.eq_zero_or_pos i with hi0 | hi0
          · subst hi0; rw [at'_eq hi] at h0; omega
          · have := hasc 0 i (at' ts 0) p (at'_get hn) hi hi0
            omega
        have hfirst : getTimeValue ts false (at' ts 0).time = .ok ((at' ts 0).u, (at' ts 0).v) :=
          C70_given_times ts false hasc 0 _ (at'_get hn)
        have hfl := first_le_last hasc hn
        unfold sample
        rw [herr]
        simp only [if_pos h, hfirst]
        rw [if_neg (by omega)]
    · exact absurd h h0

/-- The inner loop adds up the trapezoids. -/
theorem avgLoop_eq (spd : ℚ × ℚ → ℚ) (ts : List TV) (e : Bool) (mt cur : Int) (s : Nat → ℚ)
    (n : Nat) : ∀ (j : Nat) (vel : ℚ × ℚ) (acc : ℚ),
    (∀ k prev, j + 1 ≤ k → k < j + 1 + n →
      ∃ x, s k = spd x ∧ sample ts e mt prev (cur - k * 3600) = some x) →
    ∃ vel', avgLoop spd ts e mt cur n (j + 1) vel (s j) acc =
      some (vel', acc +
        ((List.range n).map (fun (k : Nat) => (s (j + k) + s (j + k + 1)) / 2)).sum) := by
  induction n with
  | zero => intro j vel acc _; exact ⟨vel, by simp [avgLoop]⟩
  | succ n ih =>
    intro j vel acc hs
    obtain ⟨x, hx, hsam⟩ := hs (j + 1) vel (le_refl _) (by omega)
    obtain ⟨vel', hv⟩ := ih (j + 1) x (acc + (s j + s (j + 1)) / 2)
      (fun k prev h1 h2 => hs k prev (by omega) (by omega))
    refine ⟨vel', ?_⟩
    simp only [avgLoop]
    rw [hsam]
    simp only
    rw [if_pos (Nat.succ_pos j), ← hx, hv, List.range_succ_eq_map, List.map_cons, List.map_map,
      List.sum_cons]
    have : ((fun (k : Nat) => (s (j + k) + s (j + k + 1)) / 2) ∘ Nat.succ) =
        (fun (k : Nat) => (s (j + 1 + k) + s (j + 1 + k + 1)) / 2) := by
      funext k
      show (s (j + (k + 1)) + s (j + (k + 1) + 1)) / 2 = _
      rw [show j + (k + 1) = j + 1 + k by omega]
    rw [this]
    simp only [Nat.add_zero]
    rw [add_assoc]

theorem avgStep_pos (ts : List TV) (hasc : Ascending ts) : 0 < avgStep ts := by
  have hd : ∀ d ∈ List.zipWith (fun p q : TV => q.time - p.time) ts ts.tail, 0 < d := by
    have h := (isAscending_iff ts).2 hasc
    clear hasc
    induction ts with
    | nil => intro d hd; simp at hd
    | cons p rest ih =>
      cases rest with
      | nil => intro d hd; simp at hd
      | cons q rest =>
        simp only [isAscending, Bool.and_eq_true, decide_eq_true_eq] at h
        intro d hd
        simp only [List.tail_cons, List.zipWith_cons_cons, List.mem_cons] at hd
        rcases hd with rfl | hd
        · omega
        · exact ih h.2 d (by simpa using hd)
  unfold avgStep
  generalize List.zipWith (fun p q : TV => q.time - p.time) ts ts.tail = ds at hd
  have : ∀ (ds : List Int) (a : Int), 0 < a → (∀ d ∈ ds, 0 < d) →
      0 < ds.foldl (fun st d => if d < st ∧ st > 0 then d else st) a := by
    intro ds
    induction ds with
    | nil => intro a ha _; exact ha
    | cons d ds ih =>
      intro a ha h
      rw [List.foldl_cons]
      refine ih _ ?_ (fun d' hd' => h d' (List.mem_cons_of_mem _ hd'))
      split
      · exact h d List.mem_cons_self
      · exact ha
  exact this ds 3600 (by decide) hd

/-- The times of the running average lie inside of the data. -/
theorem avg_time_le (ts : List TV) (hasc : Ascending ts) (hn : 0 < ts.length) (mt : Int)
    (hmt : mt ≤ (at' ts (ts.length - 1)).time) (i : Nat) (hi : i < avgCount ts mt) :
    (avgSpan ts mt).1 + i * avgStep ts ≤ (at' ts (ts.length - 1)).time := by
  have hst := avgStep_pos ts hasc
  have hfl := first_le_last hasc hn
  have hse : (avgSpan ts mt).1 ≤ (avgSpan ts mt).2 ∧
      (avgSpan ts mt).2 ≤ (at' ts (ts.length - 1)).time := by
    unfold avgSpan
    simp only
    split
    · split
      · constructor
        · show (at' ts 0).time ≤ (at' ts 0).time + 48 * 3600; omega
        · show (at' ts 0).time + 48 * 3600 ≤ _; omega
      · split
        · exact ⟨hmt, le_refl _⟩
        · constructor
          · show mt ≤ mt + 48 * 3600; omega
          · show mt + 48 * 3600 ≤ _; omega
    · exact ⟨hfl, le_refl _⟩
  unfold avgCount at hi
  simp only at hi
  generalize (avgSpan ts mt).1 = s at *
  generalize (avgSpan ts mt).2 = e at *
  split at hi
  · have : i = 0 := by omega
    subst this; simp; omega
  · have hnn : 0 ≤ e - s := by omega
    rw [Int.tdiv_eq_ediv_of_nonneg hnn] at hi
    have h1 : (i : Int) ≤ (e - s) / avgStep ts := by
      have := Int.ediv_nonneg hnn (le_of_lt hst)
      omega
    have h2 : (i : Int) * avgStep ts ≤ (e - s) / avgStep ts * avgStep ts :=
      Int.mul_le_mul_of_nonneg_right h1 (le_of_lt hst)
    have h3 := Int.ediv_mul_le (e - s) (ne_of_gt hst)
    omega

theorem avgOuter_spec (spd : ℚ × ℚ → ℚ) (ts : List TV) (e : Bool) (mt : Int) (H : Nat)
    (hH : 0 < H) (start step : Int) (good : Int → Prop)
    (hgood : ∀ c, good c → ∃ s, PastSpeeds spd ts c H s ∧
      ∀ k prev, k ≤ H → ∃ x, s k = spd x ∧ sample ts e mt prev (c - k * 3600) = some x)
    (n : Nat) : ∀ (i : Nat) (vel : ℚ × ℚ),
      (∀ k, i ≤ k → k < i + n → good (start + k * step)) →
      ∃ out, avgOuter spd ts e mt H start step n i vel = some out ∧
        out.map Prod.fst = (List.range n).map (fun (k : Nat) => start + ((i + k : Nat) : Int) * step) ∧
        ∀ c a, (c, a) ∈ out → ∃ s y, PastSpeeds spd ts c H s ∧ a = some y ∧ TrapAvg s H y := by
  induction n with
  | zero => intro i vel _; exact ⟨[], rfl, rfl, by simp⟩
  | succ n ih =>
    intro i vel hg
    obtain ⟨s, hps, hsam⟩ := hgood _ (hg i (le_refl _) (by omega))
    obtain ⟨x0, hx0, hs0⟩ := hsam 0 vel (Nat.zero_le _)
    obtain ⟨vel', hv⟩ := avgLoop_eq spd ts e mt (start + i * step) s H 0 x0 0
      (fun k prev h1 h2 => hsam k prev (by omega))
    have hloop : avgLoop spd ts e mt (start + i * step) (H + 1) 0 vel 0 0 =
        some (vel', ((List.range H).map (fun (k : Nat) => (s k + s (k + 1)) / 2)).sum) := by
      simp only [avgLoop]
      rw [hs0]
      simp only [← hx0]
      rw [if_neg (by omega)]
      have := hv
      simp only [zero_add] at this
      exact this
    obtain ⟨out, ho, hot, hov⟩ := ih (i + 1) vel' (fun k h1 h2 => hg k (by omega) (by omega))
    refine ⟨(start + i * step, if H = 0 then none else
        some (((List.range H).map (fun (k : Nat) => (s k + s (k + 1)) / 2)).sum / H)) :: out,
      by simp only [avgOuter]; rw [hloop]; simp only [ho], ?_, ?_⟩
    · rw [List.map_cons, hot, List.range_succ_eq_map, List.map_cons, List.map_map]
      congr 1
      apply List.map_congr_left
      intro k _
      show start + ((i + 1 + k : Nat) : Int) * step = start + ((i + (k + 1) : Nat) : Int) * step
      rw [show i + 1 + k = i + (k + 1) by omega]
    · intro c a hmem
      rcases List.mem_cons.1 hmem with h | h
      · injection h with h1 h2
        subst h1
        refine ⟨s, _, hps, by rw [h2, if_neg (by omega)], ?_⟩
        unfold TrapAvg
        have : (H : ℚ) ≠ 0 := by exact_mod_cast (by omega : H ≠ 0)
        field_simp
      · exact hov c a h

/-- C72 where it holds: the wind extrapolates, or has a single value, or the model time is before
the data, or the average starts long enough after the data does. What is missing is the claim
within the first hours of a wind that does not extrapolate. The times are `start`,
`start + step`, …, all inside of the data. -/
theorem C72_partial (spd : ℚ × ℚ → ℚ) (ts : List TV) (e : Bool) (H : Nat) (mt : Int)
    (hasc : Ascending ts) (hn : 0 < ts.length) (hH : 0 < H)
    (hmt : mt ≤ (at' ts (ts.length - 1)).time)
    (hor : e = true ∨ ts.length = 1 ∨ mt < (at' ts 0).time ∨
      (at' ts 0).time + H * 3600 ≤ (avgSpan ts mt).1) :
    ∃ out, runningAverage spd ts e H mt = some out ∧
      out.map Prod.fst = (List.range (avgCount ts mt)).map
        (fun (k : Nat) => (avgSpan ts mt).1 + (k : Int) * avgStep ts) ∧
      (∀ c a, (c, a) ∈ out → c ≤ (at' ts (ts.length - 1)).time) ∧
      ∀ c a, (c, a) ∈ out → ∃ s y, PastSpeeds spd ts c H s ∧ a = some y ∧ TrapAvg s H y := by
  have hst := avgStep_pos ts hasc
  obtain ⟨out, h1, h2, h3⟩ := avgOuter_spec spd ts e mt H hH (avgSpan ts mt).1 (avgStep ts)
    (fun c => (avgSpan ts mt).1 ≤ c ∧ c ≤ (at' ts (ts.length - 1)).time)
    (by
      rintro c ⟨hc0, hc⟩
      have hk : ∀ k prev, k ≤ H → ∃ x, getTimeValue ts true (c - k * 3600) = .ok x ∧
          sample ts e mt prev (c - k * 3600) = some x := by
        intro k prev hk
        refine sample_held ts hasc hn e mt _ prev (by omega) ?_
        rcases hor with h | h | h | h
        · exact Or.inl h
        · exact Or.inr (Or.inl h)
        · exact Or.inr (Or.inr (Or.inl h))
        · exact Or.inr (Or.inr (Or.inr (by omega)))
      refine ⟨fun k => match getTimeValue ts true (c - k * 3600) with
        | .ok x => spd x
        | _ => 0, ?_, ?_⟩
      · intro j hj
        obtain ⟨x, hx, _⟩ := hk j (0, 0) hj
        exact ⟨x, hx, by simp only [hx]⟩
      · intro k prev hkH
        obtain ⟨x, hx, hs⟩ := hk k prev hkH
        exact ⟨x, by simp only [hx], hs⟩)
    (avgCount ts mt) 0 (0, 0)
    (by
      intro k _ hk
      constructor
      · have := Int.mul_nonneg (Int.natCast_nonneg k) (le_of_lt hst)
        omega
      · exact avg_time_le ts hasc hn mt hmt k (by omega))
  refine ⟨out, ?_, ?_, ?_, h3⟩
  · unfold runningAverage
    rw [if_neg (by omega), h1]
  · rw [h2]
    apply List.map_congr_left
    intro k _
    rw [Nat.zero_add]
  · intro c a hmem
    have : c ∈ out.map Prod.fst := List.mem_map.2 ⟨_, hmem, rfl⟩
    rw [h2] at this
    obtain ⟨k, hk, rfl⟩ := List.mem_map.1 this
    have hk' := List.mem_range.1 hk
    rw [Nat.zero_add]
    exact avg_time_le ts hasc hn mt hmt k hk'

example : runningAverage (fun x => x.1) [⟨1000000, 6, 0⟩, ⟨1010800, 6, 0⟩] true 3 1000000 =
    some [(1000000, some 6), (1003600, some 6), (1007200, some 6), (1010800, some 6)] := by
  decide +kernel

theorem sum_bounds (l : List Nat) (f : Nat → ℚ) (lo hi : ℚ)
    (h : ∀ k ∈ l, lo ≤ f k ∧ f k ≤ hi) :
    lo * l.length ≤ (l.map f).sum ∧ (l.map f).sum ≤ hi * l.length := by
  induction l with
  | nil => simp
  | cons a l ih =>
    have h1 := h a List.mem_cons_self
    have h2 := ih (fun k hk => h k (List.mem_cons_of_mem _ hk))
    simp only [List.map_cons, List.sum_cons, List.length_cons]
    push_cast
    constructor <;> nlinarith [h1.1, h1.2, h2.1, h2.2]

/-- An average by the trapezoid rule lies between the extremes; so the running average of a
steady wind is its speed. -/
theorem C72_bounds (s : Nat → ℚ) (H : Nat) (a lo hi : ℚ) (hH : 0 < H) (h : TrapAvg s H a)
    (hb : ∀ j, j ≤ H → lo ≤ s j ∧ s j ≤ hi) : lo ≤ a ∧ a ≤ hi := by
  have hpos : (0 : ℚ) < H := by exact_mod_cast hH
  have := sum_bounds (List.range H) (fun (j : Nat) => (s j + s (j + 1)) / 2) lo hi (by
    intro k hk
    have hk' := List.mem_range.1 hk
    have h1 := hb k (by omega)
    have h2 := hb (k + 1) (by omega)
    constructor <;> linarith [h1.1, h1.2, h2.1, h2.2])
  rw [List.length_range] at this
  unfold TrapAvg at h
  rw [← h] at this
  exact ⟨le_of_mul_le_mul_right this.1 hpos, le_of_mul_le_mul_right this.2 hpos⟩

example : TrapAvg (fun j => (j : ℚ)) 2 1 := by
  norm_num [TrapAvg, List.range_succ]

end Verif.TSeries
