import Verif.Plume.Model

/-!
# C44: plume elements
-/

namespace Verif.Plume

/-- A generator with sensible values. -/
structure Gen.Ok (g : Gen) : Prop where
  flux : ∀ f ∈ g.flux, 0 ≤ f
  dt : 0 < g.dt
  mass : 0 < g.mass
  range : ∀ e, g.stop = some e → g.release ≤ e

/-- Sum of the per-depth counts of a list of items, as vectors of length `d`. -/
def total (d : Nat) (l : List (Rat × List Int)) : List Int := l.foldr (fun x acc => vadd x.2 acc) (List.replicate d 0)

theorem trunc_mono {a b : Rat} (h : a ≤ b) : trunc a ≤ trunc b := by
  unfold trunc
  by_cases ha : 0 ≤ a
  · rw [if_pos ha, if_pos (le_trans ha h)]
    exact Int.floor_le_floor h
  · rw [if_neg ha]
    have h1 : 0 ≤ (-a).floor := Int.floor_nonneg (α := Rat) (a := -a) |>.2 (by linarith)
    split
    · rename_i hb
      have : 0 ≤ b.floor := Int.floor_nonneg.2 hb
      omega
    · have : (-b).floor ≤ (-a).floor := Int.floor_le_floor (R := Rat) (a := -b) (b := -a) (by linarith)
      omega

theorem seconds_mono (g : Gen) (h : g.Ok) {a b : Rat} (hab : a ≤ b) : g.seconds a ≤ g.seconds b := by
  unfold Gen.seconds
  cases hs : g.stop with
  | none => simp only; split <;> split <;> linarith
  | some e =>
    have := h.range e hs
    simp only
    split <;> split <;> (try split) <;> (try split) <;> linarith

theorem seconds_nonneg (g : Gen) (h : g.Ok) (a : Rat) : 0 ≤ g.seconds a := by
  unfold Gen.seconds
  cases hs : g.stop with
  | none => simp only; split <;> linarith
  | some e =>
    have := h.range e hs
    simp only
    split <;> (try split) <;> linarith

/-- The counts in a step are never negative. -/
theorem C44_nonneg (g : Gen) (h : g.Ok) (a b : Rat) (hab : a ≤ b) : ∀ n ∈ g.inRange a b, 0 ≤ n := by
  intro n hn
  unfold Gen.inRange vsub Gen.fromBeginning at hn
  rw [List.zipWith_map, List.zipWith_self, List.mem_map] at hn
  obtain ⟨f, hf, rfl⟩ := hn
  have : trunc (f * g.seconds a / g.mass) ≤ trunc (f * g.seconds b / g.mass) := by
    apply trunc_mono
    exact div_le_div_of_nonneg_right (mul_le_mul_of_nonneg_left (seconds_mono g h hab) (h.flux f hf)) h.mass.le
  omega

theorem vadd_vsub (a b c : List Int) (h1 : a.length = b.length) (h2 : b.length = c.length) :
    vadd (vsub b a) (vsub c b) = vsub c a := by
  induction a generalizing b c with
  | nil => cases b <;> cases c <;> simp_all [vadd, vsub]
  | cons x a ih =>
    cases b with
    | nil => simp at h1
    | cons y b =>
      cases c with
      | nil => simp at h2
      | cons z c =>
        simp only [vadd, vsub, List.zipWith_cons_cons, List.cons.injEq]
        exact ⟨by omega, ih b c (by simpa using h1) (by simpa using h2)⟩

theorem vadd_comm (a b : List Int) : vadd a b = vadd b a := by
  unfold vadd
  rw [List.zipWith_comm]
  congr 1; funext x y; exact Int.add_comm _ _

theorem vadd_assoc (a b c : List Int) : vadd (vadd a b) c = vadd a (vadd b c) := by
  unfold vadd
  induction a generalizing b c with
  | nil => simp
  | cons x a ih =>
    cases b with
    | nil => simp
    | cons y b => cases c with
      | nil => simp
      | cons z c => simp [ih, Int.add_assoc]

theorem fromBeginning_length (g : Gen) (t : Rat) : (g.fromBeginning t).length = g.flux.length := by
  simp [Gen.fromBeginning]

theorem vsub_self (a : List Int) : vsub a a = List.replicate a.length 0 := by
  unfold vsub
  induction a with
  | nil => rfl
  | cons x a ih => simp [List.replicate_succ]

theorem inRange_self (g : Gen) (a : Rat) : g.inRange a a = List.replicate g.flux.length 0 := by
  unfold Gen.inRange
  rw [vsub_self, fromBeginning_length]

/-- Two adjacent ranges add up. -/
theorem C44_adjacent (g : Gen) (a b c : Rat) : vadd (g.inRange a b) (g.inRange b c) = g.inRange a c := by
  unfold Gen.inRange
  apply vadd_vsub <;> simp [fromBeginning_length]

theorem vadd_zero (a : List Int) : vadd a (List.replicate a.length 0) = a := by
  induction a with
  | nil => rfl
  | cons x a ih =>
    have : vadd (x :: a) (List.replicate (x :: a).length 0) = (x + 0) :: vadd a (List.replicate a.length 0) := rfl
    rw [this, ih, Int.add_zero]

theorem inRange_length (g : Gen) (a b : Rat) : (g.inRange a b).length = g.flux.length := by
  simp [Gen.inRange, vsub, fromBeginning_length]

theorem foldr_vadd (d : Nat) (l : List (Rat × List Int)) (z : List Int) (hz : z.length = d) :
    l.foldr (fun x acc => vadd x.2 acc) z = vadd (total d l) z := by
  induction l with
  | nil =>
    unfold total
    rw [List.foldr_nil, List.foldr_nil, vadd_comm, ← hz, vadd_zero]
  | cons x l ih =>
    unfold total at ih ⊢
    rw [List.foldr_cons, List.foldr_cons, ih, vadd_assoc]

theorem total_snoc (d : Nat) (l : List (Rat × List Int)) (x : Rat × List Int) (hx : x.2.length = d) :
    total d (l ++ [x]) = vadd (total d l) x.2 := by
  have : total d (l ++ [x]) = l.foldr (fun x acc => vadd x.2 acc) (vadd x.2 (List.replicate d 0)) := by
    unfold total; rw [List.foldr_append]; rfl
  rw [this, ← hx, vadd_zero, foldr_vadd _ _ _ rfl]

/-- **C44** (nothing lost between steps).  The items of the first `n` steps add up, per depth, to the number due from the
beginning to the end of the last of them. -/
theorem C44_sum (g : Gen) (n : Nat) : total g.flux.length ((List.range n).map g.item)
    = g.inRange g.release (g.release + g.dt * n) := by
  induction n with
  | zero => simp [total, inRange_self]
  | succ n ih =>
    rw [List.range_succ, List.map_append, List.map_singleton, total_snoc _ _ _ (by simp [Gen.item, inRange_length]), ih]
    have : (g.item n).2 = g.inRange (g.release + g.dt * n) (g.release + g.dt * (n + 1 : Nat)) := by
      unfold Gen.item
      have e : g.release + g.dt * n + g.dt = g.release + g.dt * ((n + 1 : Nat) : Rat) := by push_cast; ring
      simp only [e]
    rw [this, C44_adjacent]

theorem seconds_release (g : Gen) (h : g.Ok) : g.seconds g.release = 0 := by
  unfold Gen.seconds
  cases hs : g.stop with
  | none => simp
  | some e =>
    have := h.range e hs
    simp [not_lt.2 this]

theorem fromBeginning_release (g : Gen) (h : g.Ok) : g.fromBeginning g.release = List.replicate g.flux.length 0 := by
  unfold Gen.fromBeginning
  rw [seconds_release g h]
  have : ∀ f : Rat, trunc (f * 0 / g.mass) = 0 := by
    intro f; rw [mul_zero, zero_div]; decide +kernel
  simp only [this, List.map_const']

theorem vsub_zero (a : List Int) : vsub a (List.replicate a.length 0) = a := by
  induction a with
  | nil => rfl
  | cons x a ih =>
    have : vsub (x :: a) (List.replicate (x :: a).length 0) = (x - 0) :: vsub a (List.replicate a.length 0) := rfl
    rw [this, ih, Int.sub_zero]

theorem inRange_release (g : Gen) (h : g.Ok) (t : Rat) : g.inRange g.release t = g.fromBeginning t := by
  unfold Gen.inRange
  rw [fromBeginning_release g h, ← fromBeginning_length g t, vsub_zero]

/-- **C44** (a complete iteration).  If the step divides the release duration, iterating to the end gives exactly the
elements due in the whole release. -/
theorem C44_complete_partial (g : Gen) (h : g.Ok) (e : Rat) (hs : g.stop = some e) (k : Nat) (hk : e - g.release = g.dt * k)
    (n : Nat) (hn : k ≤ n) : total g.flux.length (g.items n) = g.fromBeginning e := by
  have hst : g.steps = some k := by
    unfold Gen.steps
    rw [hs]
    simp only
    rw [hk, mul_div_cancel_left₀ _ h.dt.ne']
    unfold trunc
    rw [if_pos (Nat.cast_nonneg k)]
    have : (k : Rat).floor = (k : Int) := by exact_mod_cast Int.floor_natCast (R := Rat) k
    rw [this]; simp
  unfold Gen.items
  rw [hst]
  simp only [Nat.min_eq_right hn]
  rw [C44_sum, inRange_release g h]
  congr 1; linarith

/-- **C44** fails if the step does not divide the duration: the elements of the last, incomplete step are never
generated. -/
theorem C44_counterexample : ∃ g : Gen, g.Ok ∧ g.stop = some 90 ∧
    (∀ n, 1 ≤ n → total 1 (g.items n) = [60]) ∧ g.fromBeginning 90 = [90] := by
  refine ⟨⟨[1], 0, some 90, 60, 1⟩, ⟨?_, by norm_num, by norm_num, ?_⟩, rfl, ?_, by decide +kernel⟩
  · intro f hf; rw [List.mem_singleton.1 hf]; norm_num
  · intro e he; rw [← Option.some.inj he]; norm_num
  · intro n hn
    have : (⟨[1], 0, some 90, 60, 1⟩ : Gen).steps = some 1 := by decide +kernel
    unfold Gen.items
    rw [this]
    simp only [Nat.min_eq_right hn]
    decide +kernel

theorem sum_div (l : List Rat) (c : Rat) : (l.map (fun f => f * c)).sum = l.sum * c := by
  induction l with
  | nil => simp
  | cons a l ih => simp [ih]; ring

theorem trunc_bounds {q : Rat} (h : 0 ≤ q) : (trunc q : Rat) ≤ q ∧ q < trunc q + 1 := by
  unfold trunc
  rw [if_pos h]
  exact ⟨by exact_mod_cast Int.floor_le q, by exact_mod_cast Int.lt_floor_add_one q⟩

theorem sum_trunc (l : List Rat) (h : ∀ q ∈ l, 0 ≤ q) :
    (((l.map trunc).sum : Int) : Rat) ≤ l.sum ∧ (l ≠ [] → l.sum < ((l.map trunc).sum : Int) + l.length) := by
  induction l with
  | nil => simp
  | cons a l ih =>
    have ha := trunc_bounds (h a (by simp))
    obtain ⟨h1, h2⟩ := ih (fun q hq => h q (List.mem_cons_of_mem _ hq))
    simp only [List.map_cons, List.sum_cons, List.length_cons]
    push_cast
    refine ⟨by linarith [ha.1], fun _ => ?_⟩
    cases l with
    | nil => simp; linarith [ha.2]
    | cons b l =>
      have := h2 (by simp)
      simp only [List.map_cons, List.sum_cons, List.length_cons] at this ⊢
      push_cast at this ⊢
      linarith [ha.2]

/-- **C44** (total count).  With the mass of an element set from a total count `N`, the number of elements due in the whole
release is at most `N` and more than `N` less the number of depths. -/
theorem C44_total (g : Gen) (h : g.Ok) (e : Rat) (hs : g.stop = some e) (hlt : g.release < e) (hflux : 0 < g.flux.sum)
    (N : Rat) (hN : 0 < N) (g' : Gen) (hg' : g.setMass N = some g') :
    ((g'.fromBeginning e).sum : Rat) ≤ N ∧ N - g.flux.length < ((g'.fromBeginning e).sum : Rat) := by
  unfold Gen.setMass at hg'
  rw [hs] at hg'
  simp only [Option.some.injEq] at hg'
  have hm : g'.mass = g.flux.sum * (e - g.release) / N := by rw [← hg']
  have hf : g'.flux = g.flux := by rw [← hg']
  have hr : g'.release = g.release := by rw [← hg']
  have hst : g'.stop = some e := by rw [← hg']
  have hsec : g'.seconds e = e - g.release := by
    unfold Gen.seconds
    rw [hst, hr]
    simp [not_lt.2 hlt.le]
  have hd : 0 < e - g.release := by linarith
  have e1 : g'.fromBeginning e = (g.flux.map (fun f => f * (N / g.flux.sum))).map trunc := by
    unfold Gen.fromBeginning
    rw [hf, hsec, hm, List.map_map]
    apply List.map_congr_left
    intro f _
    simp only [Function.comp]
    congr 1
    field_simp
  have e2 : (g.flux.map (fun f => f * (N / g.flux.sum))).sum = N := by
    rw [sum_div]; field_simp
  have hne : g.flux.map (fun f => f * (N / g.flux.sum)) ≠ [] := by
    intro hnil
    rw [List.map_eq_nil_iff] at hnil
    rw [hnil] at hflux; simp at hflux
  have := sum_trunc (g.flux.map (fun f => f * (N / g.flux.sum))) (by
    intro q hq
    obtain ⟨f, hf', rfl⟩ := List.mem_map.1 hq
    exact mul_nonneg (h.flux f hf') (div_pos hN hflux).le)
  rw [e2] at this
  rw [e1]
  refine ⟨this.1, ?_⟩
  have h2 := this.2 hne
  rw [List.length_map] at h2
  linarith

/-- Without an end of the release setting the mass raises and the iteration is endless. -/
theorem C44_endless (g : Gen) (hs : g.stop = none) (N : Rat) (n : Nat) :
    g.setMass N = none ∧ (g.items n).length = n ∧ total g.flux.length (g.items n) = g.inRange g.release (g.release + g.dt * n) := by
  have hst : g.steps = none := by unfold Gen.steps; rw [hs]
  refine ⟨by unfold Gen.setMass; rw [hs], ?_, ?_⟩
  · unfold Gen.items; rw [hst]; simp
  · unfold Gen.items; rw [hst]; exact C44_sum g n

example : (⟨[5, 15, 20], 0, some 3600, 900, 7⟩ : Gen).Ok := by
  refine ⟨?_, by norm_num, by norm_num, ?_⟩
  · intro f hf; simp at hf; rcases hf with rfl | rfl | rfl <;> norm_num
  · intro e he; rw [← Option.some.inj he]; norm_num

/-- **C44** (nothing outside of the release).  No element is released before the release time or after its end, and in
between the elapsed time counts. -/
theorem C44_outside (g : Gen) (h : g.Ok) (a b : Rat) :
    (a ≤ g.release → b ≤ g.release → g.inRange a b = List.replicate g.flux.length 0) ∧
    (∀ e, g.stop = some e → e ≤ a → e ≤ b → g.inRange a b = List.replicate g.flux.length 0) ∧
    (g.release ≤ a → (∀ e, g.stop = some e → a ≤ e) →
      g.fromBeginning a = g.flux.map (fun f => trunc (f * (a - g.release) / g.mass))) := by
  have hsame : ∀ a b, g.seconds a = g.seconds b → g.inRange a b = List.replicate g.flux.length 0 := by
    intro a b hab
    have : g.fromBeginning b = g.fromBeginning a := by unfold Gen.fromBeginning; rw [hab]
    unfold Gen.inRange
    rw [this, vsub_self, fromBeginning_length]
  have hbefore : ∀ a, a ≤ g.release → g.seconds a = 0 := by
    intro a ha
    rcases lt_or_eq_of_le ha with hlt | heq
    · unfold Gen.seconds; rw [if_pos hlt, sub_self]
    · rw [heq]; exact seconds_release g h
  refine ⟨fun h1 h2 => hsame a b (by rw [hbefore a h1, hbefore b h2]), ?_, ?_⟩
  · intro e hs h1 h2
    have hre := h.range e hs
    have hafter : ∀ a, e ≤ a → g.seconds a = e - g.release := by
      intro a ha
      unfold Gen.seconds
      rw [if_neg (by linarith), hs]
      simp only
      split
      · rfl
      · have : a = e := by linarith
        rw [this]
    exact hsame a b (by rw [hafter a h1, hafter b h2])
  · intro h1 h2
    unfold Gen.fromBeginning Gen.seconds
    rw [if_neg (not_lt.2 h1)]
    cases hs : g.stop with
    | none => rfl
    | some e => simp only; rw [if_neg (not_lt.2 (h2 e hs))]

end Verif.Plume
