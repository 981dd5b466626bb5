import Verif.TGrid.WindCurvModel
import Verif.TGrid.Props
import Mathlib.Tactic.Linarith
import Mathlib.Tactic.Positivity
/-!
# C372: a wind on a curvilinear grid is that of its records around the place, at the time
-/
namespace Verif.TGrid.WindCurv

/-- Spec: `x` is the weighted sum of the values of the corners at `t`; corners without values add nothing. -/
inductive Blend (t : Int) : List Corner → ℚ → Prop
  | nil : Blend t [] 0
  | dry (w : ℚ) {cs : List Corner} {v : ℚ} (h : Blend t cs v) : Blend t ((w, none) :: cs) v
  | wet (w : ℚ) {fs : List File} {cs : List Corner} {x v : ℚ} (hx : IsValue fs.flatten t x) (h : Blend t cs v) :
      Blend t ((w, some fs) :: cs) (w * x + v)

/-- All corners have records in order, and the queries hop as those of C133. -/
def Sound (cs : List Corner) (qs : List (Int × Bool)) : Prop :=
  ∀ c ∈ cs, ∀ fs, c.2 = some fs → Ordered fs ∧ qs.IsChain (fun p q => Hop fs p.1 q.1)

theorem right_at {fs : List File} {qs : List (Int × Bool)} (h : List.Forall₂ (Right fs) qs (asks fs {} qs)) {i : Nat} {q : Int × Bool}
    (hq : qs[i]? = some q) : Right fs q ((asks fs {} qs)[i]?).join := by
  generalize asks fs {} qs = l at h
  induction h generalizing i with
  | nil => simp at hq
  | cons h1 _ ih => cases i with
    | zero => simp only [List.getElem?_cons_zero, Option.some.injEq] at hq; subst hq; simpa using h1
    | succ n => simpa using ih (by simpa using hq)

theorem total_blend {qs : List (Int × Bool)} {i : Nat} {q : Int × Bool} (hq : qs[i]? = some q) (cs : List Corner) (hs : Sound cs qs)
    (ha : ∀ c ∈ cs, ∀ fs, c.2 = some fs → Answered fs.flatten q) :
    ∃ x, Blend q.1 cs x ∧ total (cs.map fun c => (c.1, c.2.map fun fs => ((asks fs {} qs)[i]?).join)) = some x := by
  induction cs with
  | nil => exact ⟨0, .nil, rfl⟩
  | cons c r ih =>
    obtain ⟨x, h1, h2⟩ := ih (fun d hd => hs d (by simp [hd])) (fun d hd => ha d (by simp [hd]))
    obtain ⟨w, o⟩ := c
    cases o with
    | none => exact ⟨x, .dry w h1, by simpa [total] using h2⟩
    | some fs =>
      obtain ⟨ho, hc⟩ := hs (w, some fs) (by simp) fs rfl
      obtain ⟨y, hy, hv⟩ := (right_at (C133_partial ho qs hc) hq).1 (ha (w, some fs) (by simp) fs rfl)
      refine ⟨w * y + x, .wet w hv h1, ?_⟩
      simp only [List.map_cons, Option.map_some, hy, total, h2]

theorem total_none {qs : List (Int × Bool)} {i : Nat} {q : Int × Bool} (hq : qs[i]? = some q) (cs : List Corner) (hs : Sound cs qs)
    (ha : ∃ c ∈ cs, ∃ fs, c.2 = some fs ∧ ¬ Answered fs.flatten q) :
    total (cs.map fun c => (c.1, c.2.map fun fs => ((asks fs {} qs)[i]?).join)) = none := by
  induction cs with
  | nil => obtain ⟨c, hc, -⟩ := ha; simp at hc
  | cons c r ih =>
    obtain ⟨w, o⟩ := c
    have tl : (∃ c ∈ r, ∃ fs, c.2 = some fs ∧ ¬ Answered fs.flatten q) →
        total (r.map fun c => (c.1, c.2.map fun fs => ((asks fs {} qs)[i]?).join)) = none := ih (fun d hd => hs d (by simp [hd]))
    obtain ⟨d, hd, gs, e, hn⟩ := ha
    rcases List.mem_cons.mp hd with rfl | hd
    · cases e
      obtain ⟨ho, hc⟩ := hs (w, some gs) (by simp) gs rfl
      have := (right_at (C133_partial ho qs hc) hq).2 hn
      simp only [List.map_cons, Option.map_some, this, total]
    · have h := tl ⟨d, hd, gs, e, hn⟩
      cases o with
      | none => simpa [total] using h
      | some fs =>
        simp only [List.map_cons, Option.map_some]
        cases ((asks fs {} qs)[i]?).join with
        | none => rfl
        | some x => simp only [total, h, Option.map_none]

/-- **C372**, values on nodes: each query is answered by the blend of the records of the corners at that time, times the scale. -/
theorem C372_nodes (scale w : ℚ) (fs : List File) (r : List Corner) (qs : List (Int × Bool)) (hs : Sound ((w, some fs) :: r) qs) {i : Nat}
    {q : Int × Bool} (hq : qs[i]? = some q) (ha : ∀ c ∈ (w, some fs) :: r, ∀ gs, c.2 = some gs → Answered gs.flatten q) :
    ∃ x, Blend q.1 ((w, some fs) :: r) x ∧ (nodeAsks scale ((w, some fs) :: r) qs)[i]? = some (.vel (scale * x)) := by
  obtain ⟨x, h1, h2⟩ := total_blend hq _ hs ha
  refine ⟨x, h1, ?_⟩
  have hi : i < qs.length := by
    rcases Nat.lt_or_ge i qs.length with h | h
    · exact h
    · rw [List.getElem?_eq_none h] at hq; cases hq
  rw [nodeAsks, List.getElem?_map, List.getElem?_range hi]
  simp only [List.map_cons, Option.map_some] at h2 ⊢
  simp only [nodeAnswer, h2]

/-- **C372**: a time outside of the records is refused where extrapolation is not allowed. -/
theorem C372_refused (scale w : ℚ) (fs : List File) (r : List Corner) (qs : List (Int × Bool)) (hs : Sound ((w, some fs) :: r) qs) {i : Nat}
    {q : Int × Bool} (hq : qs[i]? = some q) (ha : ∃ c ∈ (w, some fs) :: r, ∃ gs, c.2 = some gs ∧ ¬ Answered gs.flatten q) :
    (nodeAsks scale ((w, some fs) :: r) qs)[i]? = some .error := by
  have h2 := total_none hq _ hs ha
  have hi : i < qs.length := by
    rcases Nat.lt_or_ge i qs.length with h | h
    · exact h
    · rw [List.getElem?_eq_none h] at hq; cases hq
  rw [nodeAsks, List.getElem?_map, List.getElem?_range hi]
  simp only [List.map_cons, Option.map_some] at h2 ⊢
  simp only [nodeAnswer, h2]

theorem value_between {recs : List Rec} (hs : (recs.map Prod.fst).Pairwise (· < ·)) {t : Int} {x lo hi : ℚ} (h : IsValue recs t x)
    (hr : ∀ p ∈ recs, lo ≤ p.2 ∧ p.2 ≤ hi) : lo ≤ x ∧ x ≤ hi := by
  cases h with
  | first a h _ => exact hr a (List.mem_of_mem_head? h)
  | last a h _ => exact hr a (List.mem_of_mem_getLast? h)
  | between a b h h1 h2 _ hv =>
    have hab : a.1 < b.1 := by
      have := hs.sublist (h.sublist.map Prod.fst)
      simpa using this
    have ha := hr a (h.sublist.subset (by simp))
    have hb := hr b (h.sublist.subset (by simp))
    have d : (0 : ℚ) < b.1 - a.1 := by have : (a.1 : ℚ) < b.1 := by exact_mod_cast hab
                                       linarith
    have p : (0 : ℚ) ≤ b.1 - t := by have : (t : ℚ) ≤ b.1 := by exact_mod_cast h2
                                     linarith
    have s : (0 : ℚ) ≤ t - a.1 := by have : (a.1 : ℚ) ≤ t := by exact_mod_cast h1
                                     linarith
    constructor
    · refine le_of_mul_le_mul_right ?_ d
      rw [hv]
      nlinarith [mul_le_mul_of_nonneg_right ha.1 p, mul_le_mul_of_nonneg_right hb.1 s]
    · refine le_of_mul_le_mul_right ?_ d
      rw [hv]
      nlinarith [mul_le_mul_of_nonneg_right ha.2 p, mul_le_mul_of_nonneg_right hb.2 s]

theorem blend_between {t : Int} {cs : List Corner} {x lo hi : ℚ} (h : Blend t cs x) (hw : ∀ c ∈ cs, 0 ≤ c.1)
    (ho : ∀ c ∈ cs, ∀ fs, c.2 = some fs → Ordered fs ∧ ∀ p ∈ fs.flatten, lo ≤ p.2 ∧ p.2 ≤ hi)
    (hd : ∀ c ∈ cs, c.2 = none → lo ≤ 0 ∧ 0 ≤ hi) :
    (cs.map Prod.fst).sum * lo ≤ x ∧ x ≤ (cs.map Prod.fst).sum * hi := by
  induction h with
  | nil => simp
  | dry w h ih =>
    obtain ⟨i1, i2⟩ := ih (fun c hc => hw c (by simp [hc])) (fun c hc => ho c (by simp [hc])) (fun c hc => hd c (by simp [hc]))
    have w0 := hw _ (List.mem_cons_self)
    obtain ⟨d1, d2⟩ := hd _ (List.mem_cons_self) rfl
    simp only [List.map_cons, List.sum_cons] at *
    constructor <;> nlinarith [mul_nonneg w0 d2, mul_nonneg w0 (neg_nonneg.mpr d1)]
  | wet w hx h ih =>
    obtain ⟨i1, i2⟩ := ih (fun c hc => hw c (by simp [hc])) (fun c hc => ho c (by simp [hc])) (fun c hc => hd c (by simp [hc]))
    have w0 := hw _ (List.mem_cons_self)
    obtain ⟨o, hr⟩ := ho _ (List.mem_cons_self) _ rfl
    obtain ⟨v1, v2⟩ := value_between o.sorted hx hr
    simp only [List.map_cons, List.sum_cons] at *
    constructor <;> nlinarith [mul_le_mul_of_nonneg_left v1 w0, mul_le_mul_of_nonneg_left v2 w0]

/-- **C372**: with weights that share one, the wind is between the least and the greatest of the values around it (and zero, next to a
corner without values). -/
theorem C372_between {t : Int} {cs : List Corner} {x lo hi : ℚ} (h : Blend t cs x) (hw : ∀ c ∈ cs, 0 ≤ c.1) (h1 : (cs.map Prod.fst).sum = 1)
    (ho : ∀ c ∈ cs, ∀ fs, c.2 = some fs → Ordered fs ∧ ∀ p ∈ fs.flatten, lo ≤ p.2 ∧ p.2 ≤ hi)
    (hd : ∀ c ∈ cs, c.2 = none → lo ≤ 0 ∧ 0 ≤ hi) : lo ≤ x ∧ x ≤ hi := by
  have := blend_between h hw ho hd
  rwa [h1, one_mul, one_mul] at this

/-- The blend is one number. -/
theorem C372_one {t : Int} {cs : List Corner} {x y : ℚ} (ho : ∀ c ∈ cs, ∀ fs, c.2 = some fs → Ordered fs) (hx : Blend t cs x)
    (hy : Blend t cs y) : x = y := by
  induction hx generalizing y with
  | nil => cases hy; rfl
  | dry w h ih => cases hy with | dry _ h' => exact ih (fun c hc => ho c (by simp [hc])) h'
  | wet w hv h ih => cases hy with
    | wet _ hv' h' =>
      rw [ih (fun c hc => ho c (by simp [hc])) h', value_unique (ho _ List.mem_cons_self _ rfl).sorted hv hv']

/-! ## Values of cells -/

/-- The claim for values of cells. -/
def C372_claim : Prop := ∀ (scale : ℚ) (fs : List File) (qs : List (Int × Bool)), Ordered fs → qs.IsChain (fun p q => Hop fs p.1 q.1) →
  ∀ (i : Nat) (q : Int × Bool), qs[i]? = some q → Answered fs.flatten q →
    ∃ x, IsValue fs.flatten q.1 x ∧ (cellAsks scale fs {} qs)[i]? = some (.vel (scale * x))

theorem cellAsks_one (scale : ℚ) (f : File) (qs : List (Int × Bool)) (st : St) (i : Nat) (x : ℚ) (h : (asks [f] st qs)[i]? = some (some x)) :
    (cellAsks scale [f] st qs)[i]? = some (.vel (scale * x)) := by
  induction qs generalizing st i with
  | nil => simp [asks] at h
  | cons q qs ih =>
    cases i with
    | succ n => exact ih (ask [f] st q).1 n (by simpa [asks] using h)
    | zero =>
      simp only [asks, List.getElem?_cons_zero, Option.some.injEq, ask] at h
      simp only [cellAsks, List.getElem?_cons_zero, cellAsk]
      generalize setInterval [f] q.2 st q.1 = r at h ⊢
      split at h
      case isFalse => cases h
      case isTrue hr =>
      rw [if_pos hr]
      unfold value at h
      unfold cellValue
      simp only [List.length_singleton, lt_irrefl, not_false_eq_true, and_true, false_and, if_false, Bool.false_eq_true] at h ⊢
      split at h
      case isTrue hc => rw [if_pos hc, h]
      case isFalse hc =>
        rw [if_neg hc]
        split at h
        case h_1 a b x' y' e1 e2 e3 e4 =>
          rw [e1, e2, e3, e4]
          simp only [Option.some.injEq] at h
          rw [← h]
        case h_2 => cases h

/-- **C372**, values of cells, where there is one file. -/
theorem C372_partial (scale : ℚ) (f : File) (qs : List (Int × Bool)) (ho : Ordered [f]) (hc : qs.IsChain (fun p q => Hop [f] p.1 q.1))
    (i : Nat) (q : Int × Bool) (hq : qs[i]? = some q) (ha : Answered f q) :
    ∃ x, IsValue f q.1 x ∧ (cellAsks scale [f] {} qs)[i]? = some (.vel (scale * x)) := by
  have e : [f].flatten = f := by simp
  obtain ⟨x, h1, h2⟩ := (right_at (C133_partial ho qs hc) hq).1 (by rw [e]; exact ha)
  rw [e] at h2
  exact ⟨x, h2, cellAsks_one scale f qs {} i x (Option.join_eq_some_iff.mp h1)⟩

/-- **C372**, values of cells of one file: a time outside of the records is refused where extrapolation is not allowed. -/
theorem C372_cells_refused (scale : ℚ) (f : File) (qs : List (Int × Bool)) (ho : Ordered [f])
    (hc : qs.IsChain (fun p q => Hop [f] p.1 q.1)) (i : Nat) (q : Int × Bool) (hq : qs[i]? = some q) (ha : ¬ Answered f q) :
    (cellAsks scale [f] {} qs)[i]? = some .error := by
  have key : ∀ (qs : List (Int × Bool)) (st : St) (i : Nat), qs.IsChain (fun p q => Hop [f] p.1 q.1) → qs[i]? = some q →
      (Blank [f] st ∨ ∃ t0, Good [f] t0 st ∧ ∀ q, qs.head? = some q → Hop [f] t0 q.1) → (cellAsks scale [f] st qs)[i]? = some .error := by
    intro qs
    induction qs with
    | nil => intro st i _ h; simp at h
    | cons p qs ih =>
      intro st i hc hq h
      have h' : Blank [f] st ∨ ∃ t0, Good [f] t0 st ∧ Hop [f] t0 p.1 := by
        rcases h with h | ⟨t0, hg, hh⟩
        exacts [Or.inl h, Or.inr ⟨t0, hg, hh p rfl⟩]
      have hout : Outcome [f] p.2 p.1 (setInterval [f] p.2 st p.1) := by
        refine step_one ho rfl p.2 st p.1 ?_
        rcases h' with h' | ⟨t0, hg, hh⟩
        exacts [Or.inl h', Or.inr ⟨t0, hg, fun h1 => hh.1 rfl (fun h2 => h1 ((one_record ho).mp h2).2)⟩]
      cases i with
      | zero =>
        simp only [List.getElem?_cons_zero, Option.some.injEq] at hq
        subst hq
        rcases hout with ⟨_, _, h3⟩ | ⟨h2, _⟩
        · exfalso
          have e : [f].flatten = f := by simp
          apply ha
          rw [← e]
          rcases h3 with h3 | h3 | h3
          exacts [Or.inl h3, Or.inr (Or.inl ((one_record ho).mpr h3)), Or.inr (Or.inr h3)]
        · simp [cellAsks, cellAsk, h2]
      | succ n =>
        simp only [List.getElem?_cons_succ] at hq
        refine ih (ask [f] st p).1 n ?_ hq ?_
        · cases qs with
          | nil => exact List.IsChain.nil
          | cons p qs => exact (List.isChain_cons_cons.mp hc).2
        · rcases (ask_right ho st p h').2 with h2 | h2
          · exact Or.inl h2
          · refine Or.inr ⟨p.1, h2, fun p' hp => ?_⟩
            cases qs with
            | nil => cases hp
            | cons p' qs => cases hp; exact (List.isChain_cons_cons.mp hc).1
  exact key qs {} i hc hq (Or.inl ⟨rfl, rfl, rfl, by simp⟩)

/-- Between two files a time is read before the first. -/
theorem C372_counterexample_gap : cellAsks 1 twoFiles {} [(9, false), (15, false), (24, false)] = [.vel (19/10), .memory, .vel (17/5)] := by
  decide +kernel

/-- With one time in each file there is no interpolation at all. -/
theorem C372_counterexample_single : cellAsks 1 [[(0, 0)], [(10, 10)]] {} [(5, false)] = [.vel 0] ∧
    nodeAsks 1 [(1, some [[(0, 0)], [(10, 10)]])] [(5, false)] = [.vel 5] := by
  constructor <;> decide +kernel

theorem C372_counterexample : ¬ C372_claim := by
  intro h
  obtain ⟨x, -, hx⟩ := h 1 twoFiles [(15, false)] twoFiles_ordered (List.IsChain.singleton _) 0 (15, false) rfl
    (Or.inr (Or.inr ⟨(0, 1), (30, 4), rfl, rfl, by decide, by decide⟩))
  have e : cellAsks 1 twoFiles {} [(15, false)] = [.memory] := by decide +kernel
  rw [e] at hx
  simp at hx

/-- Outside of the grid, and where the first corner has no values, nothing is set. -/
theorem C372_counterexample_outside (scale : ℚ) (qs : List (Int × Bool)) (w : ℚ) (r : List Corner) (i : Nat) (hi : i < qs.length) :
    (nodeAsks scale [] qs)[i]? = some .memory ∧ (nodeAsks scale ((w, none) :: r) qs)[i]? = some .memory := by
  constructor <;> rw [nodeAsks, List.getElem?_map, List.getElem?_range hi] <;> rfl

/-! ## A case -/

/-- Four corners, the third without values, over the gap between two files. -/
def corners : List Corner := [(1/4, some twoFiles), (1/4, some [[(0, 10), (10, 20)], [(20, 30), (30, 40)]]), (1/4, none),
  (1/4, some [[(0, 0), (10, 0)], [(20, 8), (30, 0)]])]

example : nodeAsks 2 corners [(15, false)] = [.vel (2 * (63/8))] := by decide +kernel

example : Sound corners [(15, false)] := by
  intro c hc fs e
  refine ⟨?_, List.IsChain.singleton _⟩
  simp only [corners, List.mem_cons, List.not_mem_nil, or_false] at hc
  rcases hc with rfl | rfl | rfl | rfl
  · cases e; exact twoFiles_ordered
  · cases e; exact ⟨by decide, by decide, by decide⟩
  · cases e
  · cases e; exact ⟨by decide, by decide, by decide⟩

end Verif.TGrid.WindCurv
