import Verif.Cleanup.Props
import Mathlib.Algebra.Order.BigOperators.Group.List
/-!
# C362: response operations on the same oil in more elements

Every element is replaced by `k` elements that share its mass.
-/
namespace Verif.Cleanup

/-- One of `k` elements that share an element. -/
def part (k : Nat) (e : El) : El := { e with mass := e.mass / k, comps := e.comps.map (fun x => x / k) }

/-- The same oil in `k` times as many elements. -/
def inParts (k : Nat) (es : List El) : List El := es.flatMap (fun e => List.replicate k (part k e))

section
variable {k : Nat} (hk : 1 ≤ k)
include hk

theorem k_pos : (0 : ℚ) < k := by exact_mod_cast hk

theorem sel_part (flag : Nat) (e : El) : sel flag (part k e) = sel flag e := by
  unfold sel part
  simp only
  congr 1
  exact decide_eq_decide.2 (div_pos_iff_of_pos_right (k_pos hk))

theorem filter_parts (flag : Nat) (es : List El) : (inParts k es).filter (sel flag) = inParts k (es.filter (sel flag)) := by
  unfold inParts
  induction es with
  | nil => rfl
  | cons e es ih =>
    rw [List.flatMap_cons, List.filter_append, ih, List.filter_replicate, sel_part hk]
    by_cases h : sel flag e = true
    · rw [if_pos h, List.filter_cons_of_pos h, List.flatMap_cons]
    · rw [if_neg h, List.filter_cons_of_neg h, List.nil_append]

theorem sum_inParts (g : El → ℚ) (es : List El) (hg : ∀ e, g (part k e) = g e / k) : ((inParts k es).map g).sum = (es.map g).sum := by
  have hk0 := ne_of_gt (k_pos hk)
  unfold inParts
  induction es with
  | nil => rfl
  | cons e es ih =>
    rw [List.flatMap_cons, List.map_append, List.sum_append, ih, List.map_cons, List.sum_cons, List.map_replicate, List.sum_replicate, hg, nsmul_eq_mul,
      mul_div_cancel₀ _ hk0]

omit hk in
theorem length_parts (es : List El) : (inParts k es).length = k * es.length := by
  unfold inParts
  induction es with
  | nil => rfl
  | cons e es ih => rw [List.flatMap_cons, List.length_append, ih, List.length_replicate, List.length_cons]; ring

theorem empty_parts (flag : Nat) (es : List El) : ((inParts k es).filter (sel flag)).length = 0 ↔ (es.filter (sel flag)).length = 0 := by
  rw [filter_parts hk, length_parts]
  constructor
  · intro h
    rcases Nat.mul_eq_zero.1 h with h | h
    · omega
    · exact h
  · intro h
    rw [h, Nat.mul_zero]

theorem viewMass_parts (flag : Nat) (es : List El) : viewMass flag (inParts k es) = viewMass flag es := by
  unfold viewMass
  rw [filter_parts hk, sum_inParts hk El.mass _ (fun _ => rfl)]

theorem avgFracOil_parts (flag : Nat) (es : List El) : avgFracOil flag (inParts k es) = avgFracOil flag es := by
  unfold avgFracOil
  simp only
  rw [filter_parts hk, sum_inParts hk El.mass _ (fun _ => rfl), sum_inParts hk (fun e => e.mass * e.fw) _ (fun e => by simp only [part]; ring)]

omit hk in
theorem scale_part (f : ℚ) (e : El) : scale f (part k e) = part k (scale f e) := by
  have hs : ∀ c : List ℚ, (c.map (fun x => x / (k : ℚ))).sum = c.sum / k := by
    intro c
    induction c with
    | nil => simp
    | cons x c ih => simp [ih, add_div]
  have e1 : (e.comps.map (fun x => x / (k : ℚ))).map (fun x => (1 - f) * x) = (e.comps.map (fun x => (1 - f) * x)).map (fun x => x / (k : ℚ)) := by
    rw [List.map_map, List.map_map]
    refine List.map_congr_left (fun x _ => ?_)
    simp only [Function.comp]
    ring
  unfold scale part
  simp only
  rw [e1, hs]

theorem scaleView_parts (flag : Nat) (f : ℚ) (es : List El) : scaleView flag f (inParts k es) = inParts k (scaleView flag f es) := by
  unfold scaleView inParts
  rw [List.map_flatMap, List.flatMap_map]
  refine List.flatMap_congr (fun e _ => ?_)
  rw [List.map_replicate, sel_part hk]
  by_cases h : sel flag e = true
  · rw [if_pos h, if_pos h, scale_part]
  · rw [if_neg h, if_neg h]

/-- **C362** skimmers take as much from oil in more elements, and leave the same oil in them. -/
theorem C362_skim (rate kg eff ts : ℚ) (es : List El) :
    skim rate kg eff ts (inParts k es) = ⟨inParts k (skim rate kg eff ts es).es, (skim rate kg eff ts es).added⟩ := by
  unfold skim
  by_cases h : (es.filter (sel skimFlag)).length = 0
  · rw [if_pos h, if_pos ((empty_parts hk _ _).2 h)]
  · rw [if_neg h, if_neg (fun x => h ((empty_parts hk _ _).1 x))]
    simp only [viewMass_parts hk, avgFracOil_parts hk, scaleView_parts hk]

/-- **C362** so do burns. -/
theorem C362_burn (volRate rho eff ts : ℚ) (es : List El) :
    burn volRate rho eff ts (inParts k es) = ⟨inParts k (burn volRate rho eff ts es).es, (burn volRate rho eff ts es).added⟩ := by
  unfold burn
  by_cases h : (es.filter (sel burnFlag)).length = 0
  · rw [if_pos h, if_pos ((empty_parts hk _ _).2 h)]
  · rw [if_neg h, if_neg (fun x => h ((empty_parts hk _ _).1 x))]
    simp only [viewMass_parts hk, scaleView_parts hk]

/-- **C362** so does dispersant. -/
theorem C362_disperse (rate ts : ℚ) (es : List El) :
    disperse rate ts (inParts k es) = ⟨inParts k (disperse rate ts es).es, (disperse rate ts es).added⟩ := by
  unfold disperse
  by_cases h : (es.filter (sel disperseFlag)).length = 0
  · rw [if_pos h, if_pos ((empty_parts hk _ _).2 h)]
  · rw [if_neg h, if_neg (fun x => h ((empty_parts hk _ _).1 x))]
    simp only [viewMass_parts hk, scaleView_parts hk]

/-- **C362** so does observed beaching. -/
theorem C362_beach (rm : ℚ) (es : List El) : beach rm (inParts k es) = ⟨inParts k (beach rm es).es, (beach rm es).added⟩ := by
  unfold beach
  by_cases h : (es.filter (sel surfaceWeather)).length = 0
  · rw [if_pos h, if_pos ((empty_parts hk _ _).2 h)]
  · rw [if_neg h, if_neg (fun x => h ((empty_parts hk _ _).1 x))]
    simp only [viewMass_parts hk]
    by_cases h' : rm / viewMass surfaceWeather es > 1
    · rw [if_pos h', if_pos h', scaleView_parts hk]
    · rw [if_neg h', if_neg h', scaleView_parts hk]

/-- **C362** and whole steps of skimmers. -/
theorem C362_skim_steps (rate kg eff ts : ℚ) (es : List El) (n : Nat) :
    skimStep rate kg eff ts (inParts k es) n = ⟨inParts k (skimStep rate kg eff ts es n).es, (skimStep rate kg eff ts es n).added⟩ := by
  induction n with
  | zero => rfl
  | succ n ih => simp only [skimStep, ih, C362_skim hk]

/-! ### marking -/

omit hk in
theorem curr_part (mix : Bool) (e : El) : curr mix (part k e) = curr mix e / k := by
  unfold curr part
  simp only
  split
  · ring
  · rfl

omit hk in
theorem take_parts (es : List El) (n : Nat) : (inParts k es).take (k * n) = inParts k (es.take n) := by
  induction n generalizing es with
  | zero => simp [inParts]
  | succ n ih =>
    cases es with
    | nil => simp [inParts]
    | cons e es =>
      have h := ih es
      unfold inParts at h ⊢
      rw [List.flatMap_cons, List.take_succ_cons, List.flatMap_cons, List.take_append, List.length_replicate,
        show k * (n + 1) - k = k * n by rw [Nat.mul_succ]; omega, h, List.take_of_length_le (by rw [List.length_replicate, Nat.mul_succ]; omega)]

end

/-- What the first `n` elements that can be marked hold. -/
def held (mix : Bool) (es : List El) (n : Nat) : ℚ := (((es.filter (sel surfaceWeather)).take n).map (curr mix)).sum

theorem curr_pos {mix : Bool} {es : List El} (hfw : ∀ e ∈ es, e.fw < 1) : ∀ e ∈ es.filter (sel surfaceWeather), 0 < curr mix e := by
  intro e he
  rw [List.mem_filter] at he
  have h1 := hfw e he.1
  have h2 : 0 < e.mass := by
    have := he.2
    unfold sel at this
    simp only [Bool.and_eq_true, decide_eq_true_eq] at this
    exact this.2
  unfold curr
  split
  · exact div_pos h2 (by linarith)
  · exact h2

theorem take_sum_mono (l : List ℚ) (h : ∀ x ∈ l, 0 < x) (m n : Nat) (hmn : m ≤ n) : (l.take m).sum ≤ (l.take n).sum := by
  induction l generalizing m n with
  | nil => simp
  | cons x l ih =>
    cases m with
    | zero =>
      rw [List.take_zero, List.sum_nil]
      exact List.sum_nonneg (fun y hy => le_of_lt (h y (List.mem_of_mem_take hy)))
    | succ m =>
      cases n with
      | zero => omega
      | succ n =>
        rw [List.take_succ_cons, List.take_succ_cons, List.sum_cons, List.sum_cons]
        have := ih (fun y hy => h y (List.mem_cons_of_mem _ hy)) m n (by omega)
        linarith

theorem held_mono (mix : Bool) (es : List El) (hfw : ∀ e ∈ es, e.fw < 1) {m n : Nat} (hmn : m ≤ n) : held mix es m ≤ held mix es n := by
  unfold held
  rw [List.map_take, List.map_take]
  exact take_sum_mono _ (fun x hx => by obtain ⟨e, he, rfl⟩ := List.mem_map.1 hx; exact curr_pos hfw e he) m n hmn

theorem held_parts (mix : Bool) (es : List El) {k : Nat} (hk : 1 ≤ k) (n : Nat) : held mix (inParts k es) (k * n) = held mix es n := by
  unfold held
  rw [filter_parts hk, take_parts, sum_inParts hk _ _ (curr_part mix)]

theorem held_succ_le (mix : Bool) (es : List El) (B : ℚ) (hB0 : 0 ≤ B) (hB : ∀ e ∈ es, curr mix e ≤ B) (n : Nat) : held mix es (n + 1) ≤ held mix es n + B := by
  unfold held
  have hB' : ∀ e ∈ es.filter (sel surfaceWeather), curr mix e ≤ B := fun e he => hB e (List.mem_filter.1 he).1
  generalize es.filter (sel surfaceWeather) = v at hB'
  induction v generalizing n with
  | nil => simpa using hB0
  | cons e v ih =>
    cases n with
    | zero => simpa using hB' e (by simp)
    | succ n =>
      have := ih n (fun e he => hB' e (by simp [he]))
      simp only [List.take_succ_cons, List.map_cons, List.sum_cons]
      linarith

/-- **C362 (partial)** of oil in more elements an operation marks no more, and still as much as it should treat or all there is; what it marks beyond that is at most
one of the parts (missing: that it marks the same, `C362_counterexample`). -/
theorem C362_marking_partial (mix : Bool) (new : Nat) (target : ℚ) (es : List El) {k : Nat} (hk : 1 ≤ k) (hfw : ∀ e ∈ es, e.fw < 1) (ht : 0 < target) :
    ∃ out n out' n', mark mix new target es = some out ∧ MarkedPrefix new n es out ∧
      mark mix new target (inParts k es) = some out' ∧ MarkedPrefix new n' (inParts k es) out' ∧
      held mix (inParts k es) n' ≤ held mix es n ∧
      (target ≤ held mix (inParts k es) n' ∨ (held mix (inParts k es) n' = held mix es n ∧ n = (es.filter (sel surfaceWeather)).length)) ∧
      ∀ B, 0 ≤ B → (∀ e ∈ es, curr mix e ≤ B) → held mix (inParts k es) n' < target + B / k := by
  have hfw' : ∀ e ∈ inParts k es, e.fw < 1 := by
    intro e he
    simp only [inParts, List.mem_flatMap, List.mem_replicate] at he
    obtain ⟨a, ha, _, rfl⟩ := he
    exact hfw a ha
  obtain ⟨out, n, h1, h2, h3, h4⟩ := C35_marking_partial mix new target es hfw ht
  obtain ⟨out', n', g1, g2, g3, g4⟩ := C35_marking_partial mix new target (inParts k es) hfw' ht
  change target ≤ held mix es n ∨ _ at h3
  change target ≤ held mix (inParts k es) n' ∨ _ at g3
  have hall : held mix es (es.filter (sel surfaceWeather)).length = ((es.filter (sel surfaceWeather)).map (curr mix)).sum := by
    unfold held; rw [List.take_length]
  have hall' : held mix (inParts k es) ((inParts k es).filter (sel surfaceWeather)).length = (((inParts k es).filter (sel surfaceWeather)).map (curr mix)).sum := by
    unfold held; rw [List.take_length]
  have hlen : ((inParts k es).filter (sel surfaceWeather)).length = k * (es.filter (sel surfaceWeather)).length := by rw [filter_parts hk, length_parts]
  have htot : (((inParts k es).filter (sel surfaceWeather)).map (curr mix)).sum = ((es.filter (sel surfaceWeather)).map (curr mix)).sum := by
    rw [← hall', hlen, held_parts mix es hk, hall]
  refine ⟨out, n, out', n', h1, h2, g1, g2, ?_, ?_, ?_⟩
  · rcases h3 with h3 | ⟨h3, h3'⟩
    · have hle : n' ≤ k * n := by
        by_contra hc
        have := g4 (k * n) (by omega)
        change held mix (inParts k es) (k * n) < target at this
        rw [held_parts mix es hk] at this
        linarith
      rw [← held_parts mix es hk n]
      exact held_mono mix _ hfw' hle
    · rcases g3 with g3 | ⟨g3, g3'⟩
      · exfalso
        have hb : held mix (inParts k es) n' ≤ (((inParts k es).filter (sel surfaceWeather)).map (curr mix)).sum := by
          rw [← hall']
          rcases Nat.le_total n' ((inParts k es).filter (sel surfaceWeather)).length with hl | hl
          · exact held_mono mix _ hfw' hl
          · unfold held; rw [List.take_of_length_le hl, List.take_length]
        rw [htot] at hb
        linarith
      · rw [g3, hall', htot, h3, hall]
  · rcases g3 with g3 | ⟨g3, g3'⟩
    · exact Or.inl g3
    · right
      rcases h3 with h3 | ⟨h3, h3'⟩
      · exfalso
        have hb : held mix es n ≤ ((es.filter (sel surfaceWeather)).map (curr mix)).sum := by
          rw [← hall]
          rcases Nat.le_total n (es.filter (sel surfaceWeather)).length with hl | hl
          · exact held_mono mix _ hfw hl
          · unfold held; rw [List.take_of_length_le hl, List.take_length]
        rw [htot] at g3'
        linarith
      · exact ⟨by rw [g3, hall', htot, h3, hall], h3⟩
  · intro B hB0 hB
    cases n' with
    | zero =>
      have : held mix (inParts k es) 0 = 0 := by unfold held; simp
      rw [this]
      have := div_nonneg hB0 (le_of_lt (k_pos hk))
      linarith
    | succ j =>
      have hj := g4 j (by omega)
      change held mix (inParts k es) j < target at hj
      have := held_succ_le mix (inParts k es) (B / k) (div_nonneg hB0 (le_of_lt (k_pos hk))) (by
        intro e he
        simp only [inParts, List.mem_flatMap, List.mem_replicate] at he
        obtain ⟨a, ha, _, rfl⟩ := he
        rw [curr_part]
        exact div_le_div_of_nonneg_right (hB a ha) (le_of_lt (k_pos hk))) j
      linarith

/-- The claim: as much is marked of oil in more elements. -/
def C362_claim : Prop := ∀ (mix : Bool) (new : Nat) (target : ℚ) (es : List El) (k : Nat) (out out' : List El), 1 ≤ k → 0 < target → (∀ e ∈ es, e.fw < 1) →
  mark mix new target es = some out → mark mix new target (inParts k es) = some out' →
  ((out'.filter (fun e => e.fate == new)).map (curr mix)).sum = ((out.filter (fun e => e.fate == new)).map (curr mix)).sum

/-- **C362** fails for marking: of one element of 10 kg all is marked when 4 kg should be, of ten parts only four. -/
theorem C362_counterexample : ¬ C362_claim := by
  intro h
  have h1 := h false burnFlag 4 [⟨2, 10, 0, [10]⟩] 10 [⟨16, 10, 0, [10]⟩]
    (List.replicate 4 ⟨16, 1, 0, [1]⟩ ++ List.replicate 6 ⟨2, 1, 0, [1]⟩) (by norm_num) (by norm_num) (by decide +kernel) (by decide +kernel) (by decide +kernel)
  revert h1
  decide +kernel

/-- A burn of two elements, and of six parts. -/
example : burn 1 900 1 (1 / 10) [⟨16, 100, 0, [60, 40]⟩, ⟨16, 80, 0, [80, 0]⟩] = ⟨[⟨16, 50, 0, [30, 20]⟩, ⟨16, 40, 0, [40, 0]⟩], 90⟩ ∧
    burn 1 900 1 (1 / 10) (inParts 2 [⟨16, 100, 0, [60, 40]⟩, ⟨16, 80, 0, [80, 0]⟩]) =
      ⟨[⟨16, 25, 0, [15, 10]⟩, ⟨16, 25, 0, [15, 10]⟩, ⟨16, 20, 0, [20, 0]⟩, ⟨16, 20, 0, [20, 0]⟩], 90⟩ := by
  constructor
  · unfold burn scaleView viewMass sel scale burnFlag; norm_num
  · unfold burn scaleView viewMass sel scale burnFlag inParts part; norm_num [List.replicate]

end Verif.Cleanup
