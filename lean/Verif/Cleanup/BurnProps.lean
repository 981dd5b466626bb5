import Verif.Cleanup.BurnModel
import Verif.Cleanup.Props
/-!
# C289: what a burn burns
-/
namespace Verif.Cleanup.Fire

/-- Other causes leave the oil marked for burning alone: the elements in the view stay as they are, a marked element stays marked, elements stay well formed. -/
structure Keeps (f : List El → List El) : Prop where
  view : ∀ es, (f es).filter (sel burnFlag) = es.filter (sel burnFlag)
  marked : ∀ es, es.countP (fun e => e.fate == burnFlag) ≠ 0 → (f es).countP (fun e => e.fate == burnFlag) ≠ 0
  wf : ∀ es, (∀ e ∈ es, WF e) → ∀ e ∈ f es, WF e

/-- the elements after changes by other causes only -/
def others (fs : List (List El → List El)) (es : List El) : List El := fs.foldl (fun es f => f es) es

theorem Keeps.mass {f : List El → List El} (h : Keeps f) (es : List El) : viewMass burnFlag (f es) = viewMass burnFlag es := by
  unfold viewMass; rw [h.view]

theorem worked_nonneg (r : Range) (t dt : ℚ) (hr : r.start ≤ r.stop) (hdt : 0 < dt) : 0 ≤ worked r t dt := by
  rw [C34_one_step r t dt hr hdt]
  have h1 : 0 ≤ common r.start r.stop t (t + dt) := le_max_left _ _
  split
  · rename_i h; have := h.1; linarith
  · linarith

theorem workedTotal_front (r : Range) (t dt : ℚ) (n : Nat) : workedTotal r t dt (n + 1) = worked r t dt + workedTotal r (t + dt) dt n := by
  induction n with
  | zero => simp [workedTotal]
  | succ n ih =>
    rw [workedTotal, ih, workedTotal]
    have : t + ((n + 1 : Nat) : ℚ) * dt = t + dt + n * dt := by push_cast; ring
    rw [this]; ring

theorem workedTotal_nonneg (r : Range) (t dt : ℚ) (hr : r.start ≤ r.stop) (hdt : 0 < dt) (n : Nat) : 0 ≤ workedTotal r t dt n := by
  induction n with
  | zero => simp [workedTotal]
  | succ n ih => rw [workedTotal]; exact add_nonneg ih (worked_nonneg r _ dt hr hdt)

theorem scaleView_one (es : List El) (hwf : ∀ e ∈ es, WF e) : viewMass burnFlag (scaleView burnFlag 1 es) = 0 := by
  apply viewMass_nil
  rw [List.length_eq_zero_iff, List.filter_eq_nil_iff]
  intro e he
  simp only [scaleView, List.mem_map] at he
  obtain ⟨a, ha, rfl⟩ := he
  by_cases hs : sel burnFlag a = true
  · rw [if_pos hs]
    intro hc
    simp only [sel, Bool.and_eq_true, decide_eq_true_eq] at hc
    have := hc.2
    rw [scale_mass (hwf a ha)] at this
    linarith
  · rw [if_neg hs]; exact hs

/-- one burn: the amount, what is left in the view, elements stay well formed and marked -/
theorem burn_view (vol rho eff ts : ℚ) (es : List El) (hwf : ∀ e ∈ es, WF e) (h1 : 0 ≤ vol) (h2 : 0 ≤ rho) (h3 : 0 ≤ eff) (h4 : 0 ≤ ts) :
    (burn vol rho eff ts es).added = min (rho * (vol * eff * ts)) (viewMass burnFlag es) ∧
    viewMass burnFlag (burn vol rho eff ts es).es = viewMass burnFlag es - (burn vol rho eff ts es).added ∧
    (∀ e ∈ (burn vol rho eff ts es).es, WF e) ∧
    (burn vol rho eff ts es).es.map El.fate = es.map El.fate := by
  have hc := C36_burn vol rho eff ts es hwf h1 h2 h3 h4
  refine ⟨hc.2.1, ?_, ?_, ?_⟩
  · have hrm : 0 ≤ rho * (vol * eff * ts) := mul_nonneg h2 (mul_nonneg (mul_nonneg h1 h3) h4)
    rw [hc.2.1]
    unfold burn
    simp only
    generalize rho * (vol * eff * ts) = rm at *
    split
    · rename_i h
      simp only
      rw [viewMass_nil h, min_eq_right hrm]; ring
    · rename_i h
      have hp := viewMass_pos h
      simp only
      by_cases hb : viewMass burnFlag es ≤ rm
      · rw [min_eq_right hb]
        have : (if rm > viewMass burnFlag es then viewMass burnFlag es else rm) = viewMass burnFlag es := by
          split
          · rfl
          · linarith
        rw [this, div_self hp.ne', scaleView_one es hwf]; ring
      · have hb' := not_le.1 hb
        rw [if_neg (by linarith), min_eq_left hb'.le, viewMass_scaleView hwf (by rw [div_lt_one hp]; exact hb')]
        field_simp
  · intro e he
    obtain ⟨i, hi, rfl⟩ := List.mem_iff_getElem.1 he
    have hi' : i < es.length := by rw [← hc.2.2.2.1]; exact hi
    exact (hc.2.2.2.2 i es[i] _ (List.getElem?_eq_getElem hi') (List.getElem?_eq_getElem hi)).1
  · apply List.ext_getElem
    · simp [hc.2.2.2.1]
    · intro i hi hi'
      simp only [List.length_map] at hi hi'
      simp only [List.getElem_map]
      exact (hc.2.2.2.2 i es[i] _ (List.getElem?_eq_getElem hi') (List.getElem?_eq_getElem hi)).2.1

theorem countP_fates {a b : List El} (h : a.map El.fate = b.map El.fate) :
    a.countP (fun e => e.fate == burnFlag) = b.countP (fun e => e.fate == burnFlag) := by
  have k : ∀ l : List El, l.countP (fun e => e.fate == burnFlag) = (l.map El.fate).countP (· == burnFlag) := by
    intro l; rw [List.countP_map]; rfl
  rw [k, k, h]

/-- a burn that can take place -/
structure Burn.ok (b : Burn) : Prop where
  area : 0 ≤ b.area
  thick : minThickness < b.thickness
  eff : 0 ≤ b.eff
  rho : 0 ≤ b.rho

/-- Once the oil is marked, any number of steps burns rate times the time worked, or all of the marked oil. -/
theorem after (b : Burn) (hb : b.ok) (dt : ℚ) (hdt : 0 < dt) (fs : List (List El → List El)) (hfs : ∀ f ∈ fs, Keeps f) : ∀ (t : ℚ) (s : St),
    0 ≤ s.vol → s.range.start ≤ s.range.stop → (∀ e ∈ s.es, WF e) → s.es.countP (fun e => e.fate == burnFlag) ≠ 0 →
    ∃ s', run b dt t fs s = some s' ∧
      s'.burned = s.burned + min (b.rho * (s.vol * b.eff * workedTotal s.range t dt fs.length)) (viewMass burnFlag s.es) := by
  induction fs with
  | nil =>
    intro t s _ _ hwf _
    refine ⟨s, rfl, ?_⟩
    have : 0 ≤ viewMass burnFlag s.es := by
      by_cases h : (s.es.filter (sel burnFlag)).length = 0
      · rw [viewMass_nil h]
      · exact (viewMass_pos h).le
    simp [workedTotal, this]
  | cons f fs ih =>
    intro t s hv hr hwf hm
    have hf := hfs f List.mem_cons_self
    have hwf' := hf.wf s.es hwf
    have hm' := hf.marked s.es hm
    simp only [run, List.length_cons]
    rw [workedTotal_front]
    have hw := worked_nonneg s.range t dt hr hdt
    have hW := workedTotal_nonneg s.range (t + dt) dt hr hdt fs.length
    unfold step
    simp only
    by_cases ha : active s.range t dt = true
    · rw [if_pos ha, if_neg (not_le.2 hb.thick), if_neg hm', Option.bind_some]
      have hts : worked s.range t dt = timestep s.range t dt := by unfold worked; rw [if_pos ha]
      rw [hts] at hw ⊢
      obtain ⟨e1, e2, e3, e4⟩ := burn_view s.vol b.rho b.eff (timestep s.range t dt) (f s.es) hwf' hv hb.rho hb.eff hw
      obtain ⟨s', q1, q2⟩ := ih (fun g hg => hfs g (List.mem_cons_of_mem _ hg)) (t + dt)
        (St.burn b { s with es := f s.es } (timestep s.range t dt)) hv hr e3 (by
          show (burn s.vol b.rho b.eff (timestep s.range t dt) (f s.es)).es.countP _ ≠ 0
          rw [countP_fates e4]; exact hm')
      refine ⟨s', q1, ?_⟩
      rw [q2]
      simp only [St.burn]
      rw [e2, e1, hf.mass]
      have k1 : 0 ≤ b.rho * (s.vol * b.eff * timestep s.range t dt) := mul_nonneg hb.rho (mul_nonneg (mul_nonneg hv hb.eff) hw)
      have k2 : 0 ≤ b.rho * (s.vol * b.eff * workedTotal s.range (t + dt) dt fs.length) :=
        mul_nonneg hb.rho (mul_nonneg (mul_nonneg hv hb.eff) hW)
      have k3 : b.rho * (s.vol * b.eff * (timestep s.range t dt + workedTotal s.range (t + dt) dt fs.length)) =
        b.rho * (s.vol * b.eff * timestep s.range t dt) + b.rho * (s.vol * b.eff * workedTotal s.range (t + dt) dt fs.length) := by ring
      rw [k3]
      generalize b.rho * (s.vol * b.eff * timestep s.range t dt) = A at *
      generalize b.rho * (s.vol * b.eff * workedTotal s.range (t + dt) dt fs.length) = B at *
      generalize viewMass burnFlag s.es = M at *
      rcases le_total A M with h | h
      · rw [min_eq_left h]
        rcases le_total B (M - A) with h' | h'
        · rw [min_eq_left h', min_eq_left (by linarith)]; ring
        · rw [min_eq_right h', min_eq_right (by linarith)]; ring
      · rw [min_eq_right h, min_eq_right (by linarith : M - M ≤ B), min_eq_right (by linarith)]; ring
    · rw [if_neg ha, Option.bind_some]
      have hts : worked s.range t dt = 0 := by unfold worked; rw [if_neg ha]
      rw [hts, zero_add]
      obtain ⟨s', q1, q2⟩ := ih (fun g hg => hfs g (List.mem_cons_of_mem _ hg)) (t + dt) { s with es := f s.es } hv hr hwf' hm'
      refine ⟨s', q1, ?_⟩
      rw [q2]
      simp only
      rw [hf.mass]

/-- the marked part of a list, when nothing was marked before -/
theorem relabel_view (es : List El) (hc : ∀ e ∈ es, sel burnFlag e = false) : ∀ n : Nat,
    (relabel burnFlag n es).filter (sel burnFlag) = ((es.filter (sel surfaceWeather)).take n).map (fun e => { e with fate := burnFlag }) := by
  induction es with
  | nil => intro n; simp [relabel]
  | cons a es ih =>
    intro n
    have ih' := ih (fun e he => hc e (List.mem_cons_of_mem _ he))
    have ha := hc a List.mem_cons_self
    unfold relabel
    by_cases hs : sel surfaceWeather a = true
    · rw [if_pos hs, List.filter_cons_of_pos hs]
      cases n with
      | zero =>
        simp only
        rw [List.filter_cons_of_neg (by simp [ha]), ih' 0]
        simp
      | succ n =>
        simp only [List.take_succ_cons, List.map_cons]
        rw [List.filter_cons_of_pos, ih' n]
        unfold sel at hs ⊢
        simp only [Bool.and_eq_true, decide_eq_true_eq] at hs ⊢
        exact ⟨by decide, hs.2⟩
    · rw [if_neg hs, List.filter_cons_of_neg hs, List.filter_cons_of_neg (by simp [ha]), ih' n]

theorem relabel_wf (n : Nat) (es : List El) (h : ∀ e ∈ es, WF e) : ∀ e ∈ relabel burnFlag n es, WF e := by
  induction es generalizing n with
  | nil => simp [relabel]
  | cons a es ih =>
    have ih' := fun n => ih n (fun e he => h e (List.mem_cons_of_mem _ he))
    have ha := h a List.mem_cons_self
    unfold relabel
    intro e he
    split at he
    · split at he
      · rcases List.mem_cons.1 he with rfl | he
        · exact ha
        · exact ih' 0 e he
      · rcases List.mem_cons.1 he with rfl | he
        · exact ha
        · exact ih' _ e he
    · rcases List.mem_cons.1 he with rfl | he
      · exact ha
      · exact ih' n e he

/-- the oil that a burn of a slick takes hold of: the first elements that hold the area times the thickness, or everything -/
structure Hold (b : Burn) (es : List El) (n : Nat) : Prop where
  pos : 0 < n
  enough : b.eff * (b.rho * (b.area * b.thickness)) ≤ (((es.filter (sel surfaceWeather)).take n).map (curr true)).sum ∨
    (n = (es.filter (sel surfaceWeather)).length ∧ ((es.filter (sel surfaceWeather)).map (curr true)).sum < b.eff * (b.rho * (b.area * b.thickness)))
  least : ∀ m < n, (((es.filter (sel surfaceWeather)).take m).map (curr true)).sum < b.eff * (b.rho * (b.area * b.thickness))

/-- a slick fit for burning: well formed, nothing marked, water below one, something afloat -/
structure Slick (es : List El) : Prop where
  wf : ∀ e ∈ es, WF e
  clean : ∀ e ∈ es, sel burnFlag e = false
  none : es.countP (fun e => e.fate == burnFlag) = 0
  fw : ∀ e ∈ es, 0 ≤ e.fw ∧ e.fw < 1
  float : es.any (sel surfaceWeather) = true

/-- share of oil in the mixture that is taken hold of -/
def share (es : List El) (n : Nat) : ℚ :=
  1 - (((es.filter (sel surfaceWeather)).take n).map (fun e => e.mass * e.fw)).sum / (((es.filter (sel surfaceWeather)).take n).map El.mass).sum

/-- its mass -/
def held (es : List El) (n : Nat) : ℚ := (((es.filter (sel surfaceWeather)).take n).map El.mass).sum

theorem sum_lt {l : List El} (h : ∀ e ∈ l, 0 < e.mass ∧ e.fw < 1) (hne : l ≠ []) : (l.map (fun e => e.mass * e.fw)).sum < (l.map El.mass).sum := by
  have hp : 0 < (l.map (fun e => e.mass - e.mass * e.fw)).sum := by
    apply sum_pos'
    · intro x hx
      obtain ⟨e, he, rfl⟩ := List.mem_map.1 hx
      have := h e he
      nlinarith [this.1, this.2]
    · simpa using hne
  have : ∀ k : List El, (k.map (fun e => e.mass - e.mass * e.fw)).sum = (k.map El.mass).sum - (k.map (fun e => e.mass * e.fw)).sum := by
    intro k
    induction k with
    | nil => simp
    | cons a k ih => simp only [List.map_cons, List.sum_cons, ih]; ring
  rw [this] at hp
  linarith

theorem sum_ge {l : List El} (h : ∀ e ∈ l, 0 < e.mass ∧ 0 ≤ e.fw) : 0 ≤ (l.map (fun e => e.mass * e.fw)).sum := by
  induction l with
  | nil => simp
  | cons a l ih =>
    simp only [List.map_cons, List.sum_cons]
    have := h a List.mem_cons_self
    exact add_nonneg (mul_nonneg this.1.le this.2) (ih (fun e he => h e (List.mem_cons_of_mem _ he)))

/-- what marking does -/
theorem marking (b : Burn) (hpos : 0 < b.eff * (b.rho * (b.area * b.thickness))) (es : List El) (hs : Slick es) :
    ∃ n out, Hold b es n ∧ mark true burnFlag (b.eff * (b.rho * (b.area * b.thickness))) es = some out ∧
      viewMass burnFlag out = held es n ∧ avgFracOil burnFlag out = share es n ∧ (∀ e ∈ out, WF e) ∧
      out.countP (fun e => e.fate == burnFlag) ≠ 0 ∧ 0 < share es n ∧ share es n ≤ 1 := by
  obtain ⟨out, n, hm, hpre, hor, hmin⟩ := C35_marking_partial true burnFlag _ es (fun e he => (hs.fw e he).2) hpos
  have hne : es.filter (sel surfaceWeather) ≠ [] := by
    obtain ⟨e, he, h⟩ := List.any_eq_true.1 hs.float
    intro hc
    have : e ∈ es.filter (sel surfaceWeather) := List.mem_filter.2 ⟨he, h⟩
    rw [hc] at this; simp at this
  have hn : 0 < n := by
    rcases Nat.eq_zero_or_pos n with hz | hz
    · subst hz
      rcases hor with h1 | ⟨h1, _⟩
      · simp at h1; linarith
      · exact absurd (List.length_eq_zero_iff.1 h1.symm) hne
    · exact hz
  have hout : out = relabel burnFlag n es := by
    apply List.ext_getElem?
    intro i
    obtain ⟨k1, k2⟩ := relabel_spec burnFlag es n
    by_cases hi : i < es.length
    · rw [hpre.2 i es[i] (List.getElem?_eq_getElem hi), k2 i es[i] (List.getElem?_eq_getElem hi)]
    · rw [List.getElem?_eq_none (by rw [hpre.1]; omega), List.getElem?_eq_none (by rw [k1]; omega)]
  have hview := relabel_view es hs.clean n
  rw [← hout] at hview
  set v := (es.filter (sel surfaceWeather)).take n with hv
  have hvne : v ≠ [] := by
    rw [hv]; intro hc
    rw [List.take_eq_nil_iff] at hc
    rcases hc with hc | hc
    · omega
    · exact hne hc
  have hvm : ∀ e ∈ v, 0 < e.mass ∧ 0 ≤ e.fw ∧ e.fw < 1 := by
    intro e he
    have he' := List.mem_filter.1 (List.mem_of_mem_take he)
    have h1 := he'.2
    unfold sel at h1
    simp only [Bool.and_eq_true, decide_eq_true_eq] at h1
    exact ⟨h1.2, hs.fw e he'.1⟩
  have hmass : (out.filter (sel burnFlag)).map El.mass = v.map El.mass := by rw [hview, List.map_map]; rfl
  have hwater : (out.filter (sel burnFlag)).map (fun e => e.mass * e.fw) = v.map (fun e => e.mass * e.fw) := by rw [hview, List.map_map]; rfl
  have hM : 0 < (v.map El.mass).sum := by
    apply sum_pos'
    · intro x hx
      obtain ⟨e, he, rfl⟩ := List.mem_map.1 hx
      exact (hvm e he).1
    · simpa using hvne
  refine ⟨n, out, ⟨hn, hor, hmin⟩, hm, ?_, ?_, ?_, ?_, ?_, ?_⟩
  · unfold viewMass held; rw [hmass]
  · unfold avgFracOil share
    simp only
    rw [hmass, hwater, if_pos hM]
  · rw [hout]; exact relabel_wf n es hs.wf
  · intro hc
    rw [List.countP_eq_zero] at hc
    obtain ⟨e, he⟩ := List.exists_mem_of_ne_nil _ (show out.filter (sel burnFlag) ≠ [] by rw [hview]; simpa using hvne)
    have he2 := he
    rw [hview] at he2
    obtain ⟨a, _, rfl⟩ := List.mem_map.1 he2
    exact hc _ (List.mem_filter.1 he).1 (by simp)
  · unfold share
    rw [sub_pos, div_lt_one hM]
    exact sum_lt (fun e he => ⟨(hvm e he).1, (hvm e he).2.2⟩) hvne
  · unfold share
    have := div_nonneg (sum_ge (fun e he => ⟨(hvm e he).1, (hvm e he).2.1⟩)) hM.le
    linarith

/-- Before the start nothing happens but by other causes. -/
theorem before (b : Burn) (dt : ℚ) (hdt : 0 < dt) (pre : List (List El → List El)) : ∀ (t : ℚ) (s : St) (post : List (List El → List El)),
    t + pre.length * dt ≤ s.range.start →
    run b dt t (pre ++ post) s = run b dt (t + pre.length * dt) post { s with es := others pre s.es } := by
  induction pre with
  | nil => intro t s post _; simp [others]
  | cons f pre ih =>
    intro t s post h
    simp only [List.length_cons] at h ⊢
    push_cast at h ⊢
    have h0 : (0 : ℚ) ≤ pre.length * dt := mul_nonneg (Nat.cast_nonneg _) hdt.le
    rw [List.cons_append, run]
    have : step b t dt { s with es := f s.es } = some { s with es := f s.es } := by
      unfold step active
      rw [if_neg]
      simp only [decide_eq_true_eq, not_and, not_lt, gt_iff_lt]
      intro hc
      linarith
    rw [this, Option.bind_some, ih (t + dt) { s with es := f s.es } post (by simp only; linarith)]
    have : t + dt + (pre.length : ℚ) * dt = t + ((pre.length : ℚ) + 1) * dt := by ring
    rw [this]
    rfl

theorem range_ok (b : Burn) (hb : b.ok) {f : ℚ} (hf : 0 < f) : (b.range f).start ≤ (b.range f).stop := by
  unfold Burn.range
  simp only
  have h1 : 0 ≤ b.thickness - minThickness := by have := hb.thick; linarith
  have h2 : 0 < constant * f := mul_pos (by unfold constant; norm_num) hf
  have := div_nonneg h1 h2.le
  linarith

theorem range_longer (b : Burn) (hb : b.ok) {f : ℚ} (hf : 0 < f) (hf1 : f ≤ 1) : (b.range 1).stop ≤ (b.range f).stop := by
  unfold Burn.range
  simp only
  have h1 : 0 ≤ b.thickness - minThickness := by have := hb.thick; linarith
  have hc : (0 : ℚ) < constant := by unfold constant; norm_num
  have : (b.thickness - minThickness) / (constant * 1) ≤ (b.thickness - minThickness) / (constant * f) := by
    apply div_le_div_of_nonneg_left h1 (mul_pos hc hf)
    apply mul_le_mul_of_nonneg_left hf1 hc.le
  linarith

/-- The amount of oil that a burn of the slick `es` may be expected to take: the oil share of the thickness above 2 mm, over the area, at the efficiency. -/
def expected (b : Burn) (es : List El) (n : Nat) : ℚ := b.rho * b.eff * b.area * (b.thickness - 2 / 1000) * share es n

/-- A run of steps of `dt` from `t0`: `pre` the steps up to the start, `f` what happens before the first burning step, `post` the steps after it. The slick is
that at the first burning step. -/
structure Plan (b : Burn) (t0 dt : ℚ) (es : List El) (pre : List (List El → List El)) (f : List El → List El) (post : List (List El → List El)) : Prop where
  ok : b.ok
  target : 0 < b.eff * (b.rho * (b.area * b.thickness))
  step : 0 < dt
  early : pre = [] ∨ t0 + pre.length * dt ≤ b.start
  first : b.start < t0 + pre.length * dt + dt
  late : t0 < (b.range 1).stop
  slick : Slick (f (others pre es))
  keeps : ∀ g ∈ post, Keeps g

/-- C289. A burn takes, in a run of any number of steps, its rate times the time common to the run and the time it takes to bring the thickness down to 2 mm, or all
of the oil that it took hold of. Missing for the full claim: a burn that starts and ends within one step. -/
theorem C289_steps_partial (b : Burn) (t0 dt : ℚ) (es : List El) (pre : List (List El → List El)) (f : List El → List El) (post : List (List El → List El))
    (h : Plan b t0 dt es pre f post) : ∃ n s', Hold b (f (others pre es)) n ∧
      run b dt t0 (pre ++ f :: post) (b.fresh es) = some s' ∧
      ((∀ k < post.length + 1, ¬ insideStep (b.range (share (f (others pre es)) n)) (t0 + pre.length * dt + k * dt) dt) →
        s'.burned = min (b.rho * (b.volRate (share (f (others pre es)) n) * b.eff *
          common b.start (b.range (share (f (others pre es)) n)).stop t0 (t0 + (pre ++ f :: post).length * dt))) (held (f (others pre es)) n)) := by
  obtain ⟨n, out, hh, hm, e1, e2, e3, e4, e5, e6⟩ := marking b h.target _ h.slick
  refine ⟨n, ?_⟩
  have hb := h.ok
  set slick := f (others pre es) with hslick
  set T := t0 + (pre.length : ℚ) * dt with hT
  have hpre : run b dt t0 (pre ++ f :: post) (b.fresh es) = run b dt T (f :: post) { b.fresh es with es := others pre es } := by
    rcases h.early with hp | hp
    · subst hp; simp [hT, others, Burn.fresh]
    · rw [before b dt h.step pre t0 (b.fresh es) (f :: post) hp]
      rfl
  have hTl : T < (b.range 1).stop := by
    rcases h.early with hp | hp
    · subst hp; have := h.late; simp [hT]; linarith
    · have h1 : 0 < (b.thickness - minThickness) / (constant * 1) := by
        apply div_pos
        · have := hb.thick; linarith
        · unfold constant; norm_num
      have : (b.range 1).stop = b.start + (b.thickness - minThickness) / (constant * 1) := rfl
      linarith
  set s1 : St := { b.fresh es with es := slick } with hs1
  have hact : active s1.range T dt = true := by
    unfold active
    rw [decide_eq_true_eq]
    exact ⟨h.first, hTl⟩
  have hstop := range_longer b hb e5 e6
  have hact2 : active (s1.marked b out).range T dt = true := by
    unfold active St.marked
    rw [decide_eq_true_eq, e2]
    exact ⟨h.first, by linarith⟩
  have hr := range_ok b hb e5
  have hvol : 0 ≤ b.volRate (share slick n) := by
    unfold Burn.volRate
    apply mul_nonneg (mul_nonneg _ (sq_nonneg _)) hb.area
    unfold constant; norm_num
  have hrun : run b dt T (f :: post) { b.fresh es with es := others pre es } =
      run b dt (T + dt) post ((s1.marked b out).burn b (timestep (s1.marked b out).range T dt)) := by
    rw [run]
    have : step b T dt s1 = some ((s1.marked b out).burn b (timestep (s1.marked b out).range T dt)) := by
      unfold step
      rw [if_pos hact, if_neg (not_le.2 hb.thick), if_pos h.slick.none, hm]
    show (step b T dt s1).bind _ = _
    rw [this, Option.bind_some]
  -- the first step is a step of a marked burn, with nothing happening before
  have hrun2 : run b dt T (id :: post) (s1.marked b out) =
      run b dt (T + dt) post ((s1.marked b out).burn b (timestep (s1.marked b out).range T dt)) := by
    rw [run]
    have : step b T dt (s1.marked b out) = some ((s1.marked b out).burn b (timestep (s1.marked b out).range T dt)) := by
      unfold step
      rw [if_pos hact2, if_neg (not_le.2 hb.thick), if_neg (show ¬ (s1.marked b out).es.countP (fun e => e.fate == burnFlag) = 0 from e4)]
    show (step b T dt (s1.marked b out)).bind _ = _
    rw [this, Option.bind_some]
  have hid : Keeps id := ⟨fun _ => rfl, fun _ h => h, fun _ h => h⟩
  have hmr : (s1.marked b out).range = b.range (share slick n) := by unfold St.marked; rw [e2]
  have hmv : (s1.marked b out).vol = b.volRate (share slick n) := by unfold St.marked; rw [e2]
  obtain ⟨s', q1, q2⟩ := after b hb dt h.step (id :: post)
    (fun g hg => (List.mem_cons.1 hg).elim (fun e => e ▸ hid) (h.keeps g)) T (s1.marked b out) (by rw [hmv]; exact hvol) (by rw [hmr]; exact hr) e3 e4
  refine ⟨s', hh, ?_, ?_⟩
  · rw [hpre, hrun, ← hrun2, q1]
  · intro hin
    rw [q2, hmr, hmv, C34_duration_partial _ _ _ hr h.step (id :: post).length (by simpa using hin)]
    have z : (s1.marked b out).burned = 0 := rfl
    have z2 : viewMass burnFlag (s1.marked b out).es = held slick n := e1
    rw [z, z2, zero_add]
    have hcom : common (b.range (share slick n)).start (b.range (share slick n)).stop T (T + ((id :: post).length : ℚ) * dt) =
        common b.start (b.range (share slick n)).stop t0 (t0 + ((pre ++ f :: post).length : ℚ) * dt) := by
      have eT : T + ((id :: post).length : ℚ) * dt = t0 + ((pre ++ f :: post).length : ℚ) * dt := by
        simp only [List.length_cons, List.length_append, hT]; push_cast; ring
      rw [eT]
      show max 0 (_ - max b.start T) = max 0 (_ - max b.start t0)
      rcases h.early with hp | hp
      · subst hp; simp [hT]
      · have h0 : (0 : ℚ) ≤ pre.length * dt := mul_nonneg (Nat.cast_nonneg _) h.step.le
        have hp2 : t0 ≤ b.start := by linarith [hT]
        rw [max_eq_left hp, max_eq_left hp2]
    rw [hcom]

/-- C289. A burn that has its whole time takes the oil of the thickness above 2 mm over the area, at the efficiency, or all that it took hold of. -/
theorem C289_whole_partial (b : Burn) (t0 dt : ℚ) (es : List El) (pre : List (List El → List El)) (f : List El → List El) (post : List (List El → List El))
    (h : Plan b t0 dt es pre f post) (h0 : t0 ≤ b.start) : ∃ n s', Hold b (f (others pre es)) n ∧
      run b dt t0 (pre ++ f :: post) (b.fresh es) = some s' ∧
      ((∀ k < post.length + 1, ¬ insideStep (b.range (share (f (others pre es)) n)) (t0 + pre.length * dt + k * dt) dt) →
        (b.range (share (f (others pre es)) n)).stop ≤ t0 + (pre ++ f :: post).length * dt →
        s'.burned = min (expected b (f (others pre es)) n) (held (f (others pre es)) n)) := by
  obtain ⟨n, s', q1, q2, q3⟩ := C289_steps_partial b t0 dt es pre f post h
  obtain ⟨m, out, hh, _, _, _, _, _, e5, e6⟩ := marking b h.target _ h.slick
  -- the number of elements held is unique
  have hmn : m = n := by
    have hv : ∀ a c, Hold b (f (others pre es)) a → Hold b (f (others pre es)) c → ¬ a < c := by
      intro a c ha hc hac
      have h1 := hc.least a hac
      rcases ha.enough with h2 | ⟨h2, h3⟩
      · linarith
      · rcases hc.enough with h4 | ⟨h4, _⟩
        · rw [List.take_of_length_le (by omega)] at h4
          linarith
        · omega
    rcases Nat.lt_trichotomy m n with hlt | he | hgt
    · exact absurd hlt (hv m n hh q1)
    · exact he
    · exact absurd hgt (hv n m q1 hh)
  subst hmn
  refine ⟨m, s', q1, q2, fun a c => ?_⟩
  rw [q3 a]
  congr 1
  have hr := range_ok b h.ok e5
  unfold common
  rw [min_eq_left c, max_eq_left h0, max_eq_right (by have : (b.range (share (f (others pre es)) m)).start = b.start := rfl; linarith)]
  unfold Burn.range Burn.volRate expected minThickness
  simp only
  have hc : (constant : ℚ) ≠ 0 := by unfold constant; norm_num
  field_simp
  ring

/-- C289. In a slick of one water content with enough oil it takes exactly the oil of the thickness above 2 mm. -/
theorem C289_enough (b : Burn) (hb : b.ok) (es : List El) (hs : Slick es) (w : ℚ) (hw : ∀ e ∈ es, e.fw = w) (n : Nat) (hh : Hold b es n)
    (hen : b.eff * (b.rho * (b.area * b.thickness)) ≤ ((es.filter (sel surfaceWeather)).map (curr true)).sum) :
    share es n = 1 - w ∧ min (expected b es n) (held es n) = b.rho * b.eff * b.area * (b.thickness - 2 / 1000) * (1 - w) := by
  have hw1 : w < 1 := by
    obtain ⟨e, he, _⟩ := List.any_eq_true.1 hs.float
    rw [← hw e he]; exact (hs.fw e he).2
  have hne : es.filter (sel surfaceWeather) ≠ [] := by
    obtain ⟨e, he, h⟩ := List.any_eq_true.1 hs.float
    intro hc
    have : e ∈ es.filter (sel surfaceWeather) := List.mem_filter.2 ⟨he, h⟩
    rw [hc] at this; simp at this
  have hge : b.eff * (b.rho * (b.area * b.thickness)) ≤ (((es.filter (sel surfaceWeather)).take n).map (curr true)).sum := by
    rcases hh.enough with h | ⟨_, h⟩
    · exact h
    · linarith
  have hn := hh.pos
  unfold share expected held share
  have hmem : ∀ e ∈ (es.filter (sel surfaceWeather)).take n, 0 < e.mass ∧ e.fw = w := by
    intro e he
    have he' := List.mem_filter.1 (List.mem_of_mem_take he)
    have h1 := he'.2
    unfold sel at h1
    simp only [Bool.and_eq_true, decide_eq_true_eq] at h1
    exact ⟨h1.2, hw e he'.1⟩
  have hvne : (es.filter (sel surfaceWeather)).take n ≠ [] := by
    intro hc
    rw [List.take_eq_nil_iff] at hc
    rcases hc with hc | hc
    · omega
    · exact hne hc
  generalize (es.filter (sel surfaceWeather)).take n = v at *
  have hM : 0 < (v.map El.mass).sum := by
    apply sum_pos'
    · intro x hx
      obtain ⟨e, he, rfl⟩ := List.mem_map.1 hx
      exact (hmem e he).1
    · simpa using hvne
  have e1 : (v.map (fun e => e.mass * e.fw)).sum = w * (v.map El.mass).sum := by
    rw [← sum_map_mul, List.map_map]
    congr 1
    apply List.map_congr_left
    intro e he
    simp only [Function.comp]
    rw [(hmem e he).2, mul_comm]
  have e2 : (v.map El.mass).sum = (1 - w) * (v.map (curr true)).sum := by
    rw [← sum_map_mul, List.map_map]
    congr 1
    apply List.map_congr_left
    intro e he
    simp only [Function.comp, curr, if_true]
    rw [(hmem e he).2]
    have : (1 - w) ≠ 0 := by linarith
    field_simp
  have e3 : 1 - (v.map (fun e => e.mass * e.fw)).sum / (v.map El.mass).sum = 1 - w := by
    rw [e1, mul_div_cancel_right₀ _ hM.ne']
  refine ⟨e3, ?_⟩
  rw [e3]
  apply min_eq_left
  rw [e2]
  have h1 : b.rho * b.eff * b.area * (b.thickness - 2 / 1000) ≤ b.eff * (b.rho * (b.area * b.thickness)) := by
    have : 0 ≤ b.rho * b.eff * b.area := mul_nonneg (mul_nonneg hb.rho hb.eff) hb.area
    nlinarith [this]
  nlinarith [h1, hge, hw1]

/-- C289. A layer of 2 mm or less does not burn at all. -/
theorem C289_thin (b : Burn) (hb : b.thickness ≤ 2 / 1000) (dt : ℚ) (fs : List (List El → List El)) : ∀ (t : ℚ) (s : St),
    ∃ s', run b dt t fs s = some s' ∧ s'.burned = s.burned ∧ s'.es = others fs s.es := by
  induction fs with
  | nil => intro t s; exact ⟨s, rfl, rfl, rfl⟩
  | cons f fs ih =>
    intro t s
    have : step b t dt { s with es := f s.es } = some { s with es := f s.es } := by
      unfold step
      by_cases h : active s.range t dt = true
      · rw [if_pos h, if_pos (show b.thickness ≤ minThickness from hb)]
      · rw [if_neg h]
    obtain ⟨s', q1, q2, q3⟩ := ih (t + dt) { s with es := f s.es }
    exact ⟨s', by rw [run, this, Option.bind_some, q1], q2, by rw [q3]; rfl⟩

/-- C289, the full claim: a burn of a slick of one water content with enough oil, started within the run and given its whole time, takes the oil of the thickness
above 2 mm. -/
def C289_claim : Prop :=
  ∀ (b : Burn) (t0 dt : ℚ) (es : List El) (n : Nat) (w : ℚ), b.ok → 0 < b.eff * (b.rho * (b.area * b.thickness)) → 0 < dt → t0 ≤ b.start →
    Slick es → (∀ e ∈ es, e.fw = w) → b.eff * (b.rho * (b.area * b.thickness)) ≤ ((es.filter (sel surfaceWeather)).map (curr true)).sum →
    (b.range (1 - w)).stop ≤ t0 + n * dt →
    ∃ s', run b dt t0 (List.replicate n id) (b.fresh es) = some s' ∧ s'.burned = b.rho * b.eff * b.area * (b.thickness - 2 / 1000) * (1 - w)

/-- A burn of 3 mm over 100 m² from second 450, in steps of 900 s: it lasts 17 s, but works for 467 s and takes all of the 500 kg of the element that it took hold
of, instead of 100 kg. -/
theorem C289_counterexample : ¬ C289_claim := by
  intro h
  obtain ⟨s', h1, h2⟩ := h ⟨100, 3 / 1000, 1, 1000, 450⟩ 0 900 [⟨2, 500, 0, [500]⟩, ⟨2, 500, 0, [500]⟩] 1 0
    ⟨by norm_num, by unfold minThickness; norm_num, by norm_num, by norm_num⟩ (by norm_num) (by norm_num) (by norm_num)
    ⟨by
      intro e he
      simp only [List.mem_cons, List.not_mem_nil, or_false, or_self] at he
      subst he
      exact ⟨by decide +kernel, by decide +kernel⟩, by decide +kernel, by decide +kernel, by decide +kernel, by decide +kernel⟩
    (by decide +kernel) (by decide +kernel) (by decide +kernel)
  have k : (run ⟨100, 3 / 1000, 1, 1000, 450⟩ 900 0 (List.replicate 1 id) (Burn.fresh ⟨100, 3 / 1000, 1, 1000, 450⟩ [⟨2, 500, 0, [500]⟩, ⟨2, 500, 0, [500]⟩])).map
      St.burned = some 500 := by decide +kernel
  rw [h1] at k
  simp only [Option.map_some, Option.some.injEq] at k
  rw [k] at h2
  norm_num at h2

/-- the same burn from second 890, over two steps: the right 100 kg -/
example : (run ⟨100, 3 / 1000, 1, 1000, 890⟩ 900 0 [id, id] (Burn.fresh ⟨100, 3 / 1000, 1, 1000, 890⟩ [⟨2, 500, 0, [500]⟩, ⟨2, 500, 0, [500]⟩])).map
    St.burned = some 100 := by decide +kernel

example : Plan ⟨100, 3 / 1000, 1, 1000, 890⟩ 0 900 [⟨2, 500, 0, [500]⟩] [] id [id] :=
  ⟨⟨by norm_num, by unfold minThickness; norm_num, by norm_num, by norm_num⟩, by norm_num, by norm_num, Or.inl rfl, by decide +kernel, by decide +kernel,
    ⟨by
      intro e he
      simp only [id, others, List.foldl, List.mem_cons, List.not_mem_nil, or_false] at he
      subst he
      exact ⟨by decide +kernel, by decide +kernel⟩, by decide +kernel, by decide +kernel, by decide +kernel, by decide +kernel⟩,
    by
      intro g hg
      simp only [List.mem_cons, List.not_mem_nil, or_false] at hg
      subst hg
      exact ⟨fun _ => rfl, fun _ h => h, fun _ h => h⟩⟩

end Verif.Cleanup.Fire
