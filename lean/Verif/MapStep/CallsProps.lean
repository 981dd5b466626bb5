import Verif.MapStep.CallsModel
import Verif.MapStep.Props
import Mathlib.Algebra.Order.BigOperators.Group.List
/-
C63 with response operations and sub-steps: the budget over all the calls of
weatherers in a run.
-/
namespace Verif.MapStep.Calls
open Verif.MapStep Verif.Land Verif.Geom

/-! ### one call -/

/-- What a call takes from elements that are about to leave. -/
def leavingOf (c : Call) (es : List Elem) : ℚ :=
  (es.mapIdx (fun i e => if e.status = 12 ∧ e.fate &&& c.flag = c.flag ∧ 0 < e.mass then c.loss es i else 0)).sum

/-- The same over a list of calls, each on the state the one before has left. -/
def leavingAll : List Call → List Elem → ℚ
  | [], _ => 0
  | c :: cs, es => leavingOf c es + leavingAll cs (callEls c es)

/-- What a list of calls books. -/
def bookedAll : List Call → List Elem → ℚ
  | [], _ => 0
  | c :: cs, es => callAmount c es + bookedAll cs (callEls c es)

def massSum (es : List Elem) : ℚ := (es.map Elem.mass).sum

theorem inView_iff (flag : Nat) (e : Elem) : inView flag e = true ↔ (e.fate &&& flag = flag ∧ 0 < e.mass) := by
  unfold inView; simp

theorem call_mass (c : Call) (es : List Elem) : massSum (callEls c es) + callAmount c es = massSum es := by
  unfold massSum callEls callAmount
  rw [map_mapIdx, ← sum_mapIdx_add]
  congr 1
  apply List.ext_getElem?
  intro n
  simp only [List.getElem?_mapIdx, List.getElem?_map]
  congr 1
  funext e
  split <;> simp

theorem call_massOf (c : Call) (es : List Elem) : massOf 12 (callEls c es) + leavingOf c es = massOf 12 es := by
  rw [massOf_eq, massOf_eq]
  unfold callEls leavingOf
  rw [map_mapIdx, ← sum_mapIdx_add]
  congr 1
  apply List.ext_getElem?
  intro n
  simp only [List.getElem?_mapIdx, List.getElem?_map]
  congr 1
  funext e
  by_cases hw : inView c.flag e = true
  · have := (inView_iff _ e).1 hw
    by_cases h12 : e.status = 12
    · simp [hw, h12, this.1, this.2]
    · simp [hw, h12]
  · have : ¬ (e.fate &&& c.flag = c.flag ∧ 0 < e.mass) := fun h => hw ((inView_iff _ e).2 h)
    by_cases h12 : e.status = 12
    · simp only [hw, h12, Bool.false_eq_true, if_false, if_true, true_and, this]; ring
    · simp [hw, h12]

theorem callEls_mem {c : Call} {es : List Elem} {e : Elem} (h : e ∈ callEls c es) :
    ∃ e0 ∈ es, e.pos = e0.pos ∧ e.lwp = e0.lwp ∧ e.status = e0.status ∧ e.fate = e0.fate := by
  obtain ⟨i, hi, he⟩ := List.mem_mapIdx.1 h
  refine ⟨es[i], List.getElem_mem hi, ?_⟩
  subst he
  split <;> exact ⟨rfl, rfl, rfl, rfl⟩

/-! ### all the calls of a step -/

/-- Sum of the first `K` entries. -/
def booked (K : Nat) (s : St) : ℚ := ((List.range K).map s.book).sum

theorem sum_range_upd (K k : Nat) (f : Nat → ℚ) (x : ℚ) (h : k < K) :
    ((List.range K).map (fun j => if j = k then f j + x else f j)).sum = ((List.range K).map f).sum + x := by
  induction K with
  | zero => omega
  | succ K ih =>
    rw [List.range_succ, List.map_append, List.map_append, List.sum_append, List.sum_append]
    by_cases hk : k < K
    · have : K ≠ k := by omega
      rw [ih hk]; simp [this]; ring
    · have e : k = K := by omega
      subst e
      have : (List.range k).map (fun j => if j = k then f j + x else f j) = (List.range k).map f := by
        apply List.map_congr_left
        intro j hj
        have := List.mem_range.1 hj
        rw [if_neg (by omega)]
      rw [this]; simp; ring

theorem weatherAll_cons (c : Call) (cs : List Call) (s : St) : weatherAll (c :: cs) s = weatherAll cs (call c s) := rfl

theorem weatherAll_spec (K : Nat) (cs : List Call) (hk : ∀ c ∈ cs, c.key < K) (s : St) :
    massSum (weatherAll cs s).sc.els + bookedAll cs s.sc.els = massSum s.sc.els ∧
    massOf 12 (weatherAll cs s).sc.els + leavingAll cs s.sc.els = massOf 12 s.sc.els ∧
    booked K (weatherAll cs s) = booked K s + bookedAll cs s.sc.els ∧
    (weatherAll cs s).sc.offMap = s.sc.offMap ∧ (weatherAll cs s).sc.beached = s.sc.beached ∧
    (weatherAll cs s).sc.released = s.sc.released ∧
    ∀ e ∈ (weatherAll cs s).sc.els, ∃ e0 ∈ s.sc.els, e.pos = e0.pos ∧ e.lwp = e0.lwp ∧ e.status = e0.status ∧ e.fate = e0.fate := by
  induction cs generalizing s with
  | nil =>
    refine ⟨by simp [weatherAll, bookedAll], by simp [weatherAll, leavingAll], by simp [weatherAll, bookedAll], rfl, rfl, rfl, ?_⟩
    intro e he
    exact ⟨e, he, rfl, rfl, rfl, rfl⟩
  | cons c cs ih =>
    obtain ⟨h1, h2, h3, h4, h5, h6, h7⟩ := ih (fun c hc => hk c (List.mem_cons_of_mem _ hc)) (call c s)
    rw [weatherAll_cons]
    have e1 : (call c s).sc.els = callEls c s.sc.els := rfl
    have m1 := call_mass c s.sc.els
    have m2 := call_massOf c s.sc.els
    have m3 : booked K (call c s) = booked K s + callAmount c s.sc.els := by
      unfold booked call
      exact sum_range_upd K c.key s.book _ (hk c List.mem_cons_self)
    rw [e1] at h1 h2 h3 h7
    refine ⟨by unfold bookedAll; linarith, by unfold leavingAll; linarith, by unfold bookedAll; linarith, h4, h5, h6, ?_⟩
    intro e he
    obtain ⟨e0, he0, a, b, d, f⟩ := h7 e he
    obtain ⟨e2, he2, a', b', d', f'⟩ := callEls_mem he0
    exact ⟨e2, he2, a.trans a', b.trans b', d.trans d', f.trans f'⟩

/-! ### the run -/

/-- All the mass there is: in the elements, gone off the map, in the entries of
the mass balance. -/
def total (K : Nat) (s : St) : ℚ := massSum s.sc.els + s.sc.offMap + booked K s

/-- The calls of a run use the first `K` entries. -/
def Keys (K : Nat) (ops : List Op) : Prop := ∀ o ∈ ops, match o with | .step _ _ _ cs => ∀ c ∈ cs, c.key < K | _ => True

/-- What, over a run, is taken by weatherers from elements that have left the
map in the same step. -/
def twice (M : RMap) : List Op → St → ℚ
  | [], _ => 0
  | o :: os, s =>
    (match o with
      | .step p rs ds cs => match moveElements M p rs ds s.sc with
        | some m => leavingAll cs m.els
        | none => 0
      | _ => 0) +
    (match exec M o s with
      | some s' => twice M os s'
      | none => 0)

theorem twice_rel (M : RMap) (ns : List New) (os : List Op) (s : St) :
    twice M (.rel ns :: os) s = 0 + twice M os { s with sc := release M ns s.sc } := rfl

theorem twice_prep (M : RMap) (f : Nat → Elem → Nat) (os : List Op) (s : St) :
    twice M (.prep f :: os) s = 0 + twice M os { s with sc := mark f s.sc } := rfl

theorem twice_step (M : RMap) {p : ℚ} {rs : List ℚ} {ds : List (Nat → P3)} {cs : List Call} (os : List Op)
    {s s1 : St} {m : SC} (h1 : moveElements M p rs ds s.sc = some m) (h2 : stepC M p rs ds cs s = some s1) :
    twice M (.step p rs ds cs :: os) s = leavingAll cs m.els + twice M os s1 := by
  rw [twice]
  simp only [exec]
  rw [h1, h2]

theorem step_total (M : RMap) (hr : ∀ r ∈ M.ratios, 0 < r) (K : Nat) (p : ℚ) (rs : List ℚ) (ds : List (Nat → P3))
    (cs : List Call) (hk : ∀ c ∈ cs, c.key < K) (s : St) (hst : ∀ e ∈ s.sc.els, e.status = 2 ∨ e.status = 3) :
    ∃ m s', moveElements M p rs ds s.sc = some m ∧ stepC M p rs ds cs s = some s' ∧
      total K s' = total K s + leavingAll cs m.els ∧ s'.sc.released = s.sc.released := by
  obtain ⟨m, h1, h2, _, h4, _, h6⟩ := C63_move M hr p rs ds s.sc hst
  obtain ⟨w1, w2, w3, w4, _, w6, _⟩ := weatherAll_spec K cs hk { s with sc := m }
  refine ⟨m, _, h1, by unfold stepC; rw [h1]; rfl, ?_, ?_⟩
  · have hf := sum_filter (weatherAll cs { s with sc := m }).sc.els (fun e => decide (e.status ≠ toBeRemoved))
    have hf2 : ((weatherAll cs { s with sc := m }).sc.els.map (fun e => if decide (e.status ≠ toBeRemoved) then 0 else e.mass)).sum =
        massOf 12 (weatherAll cs { s with sc := m }).sc.els := by
      rw [massOf_eq]
      congr 1
      apply List.map_congr_left
      intro e _
      by_cases h : e.status = 12 <;> simp [h, toBeRemoved]
    have b : booked K { s with sc := m } = booked K s := rfl
    have b2 : massSum m.els = massSum s.sc.els := by unfold massSum; rw [h2]
    unfold total
    have e2 : booked K { weatherAll cs { s with sc := m } with sc := remove (weatherAll cs { s with sc := m }).sc } =
      booked K (weatherAll cs { s with sc := m }) := rfl
    rw [e2]
    have e3 : massSum (remove (weatherAll cs { s with sc := m }).sc).els =
      (((weatherAll cs { s with sc := m }).sc.els.filter (fun e => decide (e.status ≠ toBeRemoved))).map Elem.mass).sum := rfl
    have e4 : (remove (weatherAll cs { s with sc := m }).sc).offMap = (weatherAll cs { s with sc := m }).sc.offMap := rfl
    rw [e3, e4, w4]
    unfold massSum at *
    simp only at w1 w2 w3 ⊢
    linarith
  · show (weatherAll cs { s with sc := m }).sc.released = _
    rw [w6]; exact h6

theorem stepC_placed (M : RMap) (hr : ∀ r ∈ M.ratios, 0 < r) (hP : M.proj.Ok) (K : Nat) (p : ℚ) (rs : List ℚ)
    (ds : List (Nat → P3)) (cs : List Call) (hk : ∀ c ∈ cs, c.key < K) (s s' : St) (h : ∀ e ∈ s.sc.els, Placed M e)
    (hs : stepC M p rs ds cs s = some s') : ∀ e ∈ s'.sc.els, Placed M e := by
  unfold stepC at hs
  cases hm : moveElements M p rs ds s.sc with
  | none => rw [hm] at hs; simp at hs
  | some m =>
    rw [hm] at hs
    simp only [Option.map_some, Option.some.injEq] at hs
    subst hs
    intro e he
    unfold remove at he
    simp only at he
    obtain ⟨he1, he2⟩ := List.mem_filter.1 he
    obtain ⟨e0, he0, a, b, c, _⟩ := (weatherAll_spec K cs hk { s with sc := m }).2.2.2.2.2.2 e he1
    -- the same step without weathering leaves `e0`
    obtain ⟨s1, g1, g2⟩ := step_placed M hr hP p rs ds (fun _ => 0) s.sc h
    unfold stepR at g1
    rw [hm] at g1
    simp only [Option.map_some, Option.some.injEq] at g1
    have hz : (weather (fun _ => 0) m).els = m.els := by
      unfold weather
      simp only
      apply List.ext_getElem?
      intro n
      simp only [List.getElem?_mapIdx]
      cases m.els[n]? with
      | none => rfl
      | some e => simp
    have : e0 ∈ s1.els := by
      rw [← g1]
      unfold remove
      simp only
      rw [hz]
      refine List.mem_filter.2 ⟨he0, ?_⟩
      rw [← c]; exact he2
    exact placed_congr (g2 e0 this).1 a b c

theorem mark_placed {M : RMap} {f : Nat → Elem → Nat} {sc : SC} (h : ∀ e ∈ sc.els, Placed M e) :
    ∀ e ∈ (mark f sc).els, Placed M e := by
  intro e he
  obtain ⟨i, hi, he⟩ := List.mem_mapIdx.1 he
  subst he
  exact placed_congr (h _ (List.getElem_mem hi)) rfl rfl rfl

theorem run_total (M : RMap) (hr : ∀ r ∈ M.ratios, 0 < r) (hP : M.proj.Ok) (hg : ∀ v ∈ M.grid.data, v ≤ 1)
    (H : M.hl ≠ 0 ∨ ¬ land M.grid (M.pixel .zero)) (K : Nat) (ops : List Op) (hk : Keys K ops) (s : St)
    (hpl : ∀ e ∈ s.sc.els, Placed M e) :
    ∃ s', run M ops s = some s' ∧ total K s' - s'.sc.released = total K s - s.sc.released + twice M ops s := by
  induction ops generalizing s with
  | nil => exact ⟨s, rfl, by simp [twice]⟩
  | cons o os ih =>
    have hk' : Keys K os := fun o ho => hk o (List.mem_cons_of_mem _ ho)
    cases o with
    | rel ns =>
      obtain ⟨s', h1, h2⟩ := ih hk' { s with sc := release M ns s.sc } (by
        intro e he
        unfold release at he
        rcases List.mem_append.1 he with he | he
        · exact hpl e he
        · obtain ⟨n, _, rfl⟩ := List.mem_map.1 he
          exact placed_new M hg H n)
      refine ⟨s', h1, ?_⟩
      rw [h2, twice_rel]
      have : total K { s with sc := release M ns s.sc } - (release M ns s.sc).released = total K s - s.sc.released := by
        unfold total massSum release booked
        simp only [List.map_append, List.map_map, List.sum_append]
        have : ns.map (Elem.mass ∘ mkElem M) = ns.map New.mass := rfl
        rw [this]
        ring
      rw [this]; ring
    | prep f =>
      obtain ⟨s', h1, h2⟩ := ih hk' { s with sc := mark f s.sc } (mark_placed hpl)
      refine ⟨s', h1, ?_⟩
      rw [h2, twice_prep]
      have : total K { s with sc := mark f s.sc } = total K s := by
        unfold total massSum mark booked
        simp only
        rw [map_mapIdx]
        have : s.sc.els.mapIdx (fun i e => ({ e with fate := f i e } : Elem).mass) = s.sc.els.map Elem.mass := by
          apply List.ext_getElem?
          intro n
          simp only [List.getElem?_mapIdx, List.getElem?_map]
        rw [this]
      rw [this]
      show total K s - s.sc.released + _ = _
      ring
    | step p rs ds cs =>
      have hc : ∀ c ∈ cs, c.key < K := hk _ List.mem_cons_self
      obtain ⟨m, s1, h1, h2, h3, h4⟩ := step_total M hr K p rs ds cs hc s (fun e he => (hpl e he).st)
      obtain ⟨s', h5, h6⟩ := ih hk' s1 (stepC_placed M hr hP K p rs ds cs hc s s1 hpl h2)
      refine ⟨s', by simp only [run, exec]; rw [h2]; exact h5, ?_⟩
      rw [h6, twice_step M os h1 h2, h3, h4]; ring

/-- The budget of every run, with any weatherers and response operations, any
number of sub-steps and any marking: the mass in the elements, off the map and
in the entries of the mass balance is the mass released and, once more, what
was taken from elements that had left the map in the same step. -/
theorem C63_account (M : RMap) (hr : ∀ r ∈ M.ratios, 0 < r) (hP : M.proj.Ok) (hg : ∀ v ∈ M.grid.data, v ≤ 1)
    (H : M.hl ≠ 0 ∨ ¬ land M.grid (M.proj.toPixelInt ⟨0, 0⟩)) (K : Nat) (ops : List Op) (hk : Keys K ops) :
    ∃ s, run M ops St.empty = some s ∧
      (s.sc.els.map Elem.mass).sum + s.sc.offMap + ((List.range K).map s.book).sum =
        s.sc.released + twice M ops St.empty := by
  obtain ⟨s, h1, h2⟩ := run_total M hr hP hg H K ops hk St.empty (by simp [St.empty, SC.empty])
  refine ⟨s, h1, ?_⟩
  have z : total K St.empty = 0 := by
    simp only [total, massSum, booked, St.empty, SC.empty, List.map_nil, List.sum_nil]
    have : ((List.range K).map (fun _ => (0 : ℚ))).sum = 0 := by induction K with
      | zero => rfl
      | succ n ih => simp
    rw [this]; norm_num
  have z2 : St.empty.sc.released = 0 := rfl
  rw [z, z2] at h2
  unfold total massSum booked at h2
  linarith

/-! ### what a response operation books -/

theorem sum_view (flag : Nat) (k : ℚ) (es : List Elem) :
    (es.map (fun e => if inView flag e then k * e.mass else 0)).sum = k * ((es.filter (inView flag)).map Elem.mass).sum := by
  induction es with
  | nil => simp
  | cons e es ih =>
    by_cases h : inView flag e = true
    · rw [List.filter_cons_of_pos h]; simp only [List.map_cons, List.sum_cons, h, if_true, ih]; ring
    · rw [List.filter_cons_of_neg h]; simp only [List.map_cons, List.sum_cons, ih]; simp [h]

theorem view_sum_pos (flag : Nat) (es : List Elem) (h : es.filter (inView flag) ≠ []) :
    0 < ((es.filter (inView flag)).map Elem.mass).sum := by
  apply List.sum_pos
  · intro x hx
    obtain ⟨e, he, rfl⟩ := List.mem_map.1 hx
    exact ((inView_iff _ e).1 (List.mem_filter.1 he).2).2
  · simpa using h

/-- A response operation books what it is to remove, at most the mass of the
elements marked for it, and takes it from them alone; no mass becomes
negative. -/
theorem C63_removal (key flag : Nat) (rm : ℚ) (hrm : 0 ≤ rm) (es : List Elem) :
    callAmount (removal key flag rm) es =
      (if es.filter (inView flag) = [] then 0 else min rm ((es.filter (inView flag)).map Elem.mass).sum) ∧
    ∀ (i : Nat) (e e' : Elem), es[i]? = some e → (callEls (removal key flag rm) es)[i]? = some e' →
      (inView flag e = false → e' = e) ∧ (inView flag e = true → 0 ≤ e'.mass ∧ e'.mass ≤ e.mass) := by
  set T := ((es.filter (inView flag)).map Elem.mass).sum with hT
  set k := min (rm / T) 1 with hkk
  have hl : ∀ (i : Nat) (e : Elem), es[i]? = some e → (removal key flag rm).loss es i = k * e.mass := by
    intro i e he
    show min (rm / T) 1 * _ = _
    rw [List.getD_eq_getElem?_getD, List.getElem?_map, he]
    rfl
  have hk0 : 0 ≤ k := by
    refine le_min (div_nonneg hrm ?_) (by norm_num)
    by_cases h : es.filter (inView flag) = []
    · rw [hT, h]; simp
    · exact (view_sum_pos flag es h).le
  constructor
  · have e1 : callAmount (removal key flag rm) es = (es.map (fun e => if inView flag e then k * e.mass else 0)).sum := by
      unfold callAmount
      congr 1
      apply List.ext_getElem?
      intro n
      simp only [List.getElem?_mapIdx, List.getElem?_map]
      cases he : es[n]? with
      | none => rfl
      | some e =>
        simp only [Option.map_some, Option.some.injEq]
        show (if inView flag e then _ else _) = _
        rw [hl n e he]
    rw [e1, sum_view]
    split
    · rename_i h; rw [h]; simp
    · rename_i h
      have hp := view_sum_pos flag es h
      rw [← hT] at hp ⊢
      rw [hkk]
      rcases le_total (rm / T) 1 with h1 | h1
      · rw [min_eq_left h1, min_eq_left ((div_le_one hp).1 h1)]
        field_simp
      · rw [min_eq_right h1, min_eq_right ((one_le_div hp).1 h1)]; ring
  · intro i e e' he he'
    unfold callEls at he'
    rw [List.getElem?_mapIdx, he] at he'
    simp only [Option.map_some, Option.some.injEq] at he'
    constructor
    · intro h
      rw [if_neg (by show ¬ inView flag e = true; rw [h]; simp)] at he'
      exact he'.symm
    · intro h
      rw [if_pos (by exact h), hl i e he] at he'
      subst he'
      have hm := ((inView_iff _ e).1 h).2
      have hk1 : k ≤ 1 := min_le_right _ _
      show 0 ≤ e.mass - k * e.mass ∧ e.mass - k * e.mass ≤ e.mass
      constructor <;> nlinarith

/-- Two sub-steps of an evaporation of 1 from each element and of a skimmer
that is to take 3 in each: the first element is skimmed, of the others one
beaches and one leaves. -/
example : (run (demoMap 1) [.rel [⟨⟨1/4, 1/2, 0⟩, 10, 2, false⟩, ⟨⟨1/4, 3/4, 0⟩, 10, 2, false⟩, ⟨⟨3/2, 1/2, 0⟩, 10, 2, false⟩],
      .prep (fun i e => if i = 0 then 10 else e.fate),
      .step (1/2) [] [fun i => if i = 1 then ⟨2, 0, 0⟩ else if i = 2 then ⟨0, 30, 0⟩ else .zero]
        (schedule [fun _ => ⟨0, 2, fun _ _ => 1⟩, fun _ => removal 1 8 3] 2)] St.empty).map
        (fun s => (s.sc.els.map Elem.mass, s.sc.beached, s.sc.offMap, (List.range 2).map s.book, s.sc.released)) =
    some ([2, 10], 10, 10, [4, 6], 30) := by decide +kernel

/-- In that run the leaving element has lost 2 and they are counted twice. -/
example : twice (demoMap 1) [.rel [⟨⟨1/4, 1/2, 0⟩, 10, 2, false⟩, ⟨⟨1/4, 3/4, 0⟩, 10, 2, false⟩, ⟨⟨3/2, 1/2, 0⟩, 10, 2, false⟩],
      .prep (fun i e => if i = 0 then 10 else e.fate),
      .step (1/2) [] [fun i => if i = 1 then ⟨2, 0, 0⟩ else if i = 2 then ⟨0, 30, 0⟩ else .zero]
        (schedule [fun _ => ⟨0, 2, fun _ _ => 1⟩, fun _ => removal 1 8 3] 2)] St.empty = 2 := by decide +kernel

end Verif.MapStep.Calls
