import Verif.TGrid.IslandsModel
import Mathlib.Data.List.Nodup
import Mathlib.Data.List.Induction
import Mathlib.Logic.Relation
/-!
# Claims about the numbering of islands (`C279`, `C280`)
-/
namespace Verif.TGrid.Islands

/-! ## Independent specification -/

/-- a cell of the grid that is land -/
def LandAt (land : Cell → Bool) (r c : Nat) (p : Cell) : Prop := land p = true ∧ p.1 < r ∧ p.2 < c

/-- cells with a common side -/
def Beside (p q : Cell) : Prop :=
  (p.1 = q.1 ∧ (p.2 + 1 = q.2 ∨ q.2 + 1 = p.2)) ∨ (p.2 = q.2 ∧ (p.1 + 1 = q.1 ∨ q.1 + 1 = p.1))

def OnEdge (r c : Nat) (p : Cell) : Prop := p.1 = 0 ∨ p.1 + 1 = r ∨ p.2 = 0 ∨ p.2 + 1 = c

/-- land cells with a common side, or both on the edge of the grid: the land at the edge counts as one block -/
def Joined (land : Cell → Bool) (r c : Nat) (p q : Cell) : Prop :=
  LandAt land r c p ∧ LandAt land r c q ∧ (Beside p q ∨ (OnEdge r c p ∧ OnEdge r c q))

/-- in one block of land -/
def OneBlock (land : Cell → Bool) (r c : Nat) : Cell → Cell → Prop := Relation.EqvGen (Joined land r c)

/-- the number of a cell of the grid -/
def numberOf (land : Cell → Bool) (r c : Nat) (p : Cell) : Nat := number land r c (p.1 + 1, p.2)

/-- the land cells inside, in reading order -/
def inner (land : Cell → Bool) (r c : Nat) : List Cell := (cells r c).filter (fun p => land p && !edge r c p)

/-! ## Lemmas -/

theorem mem_cells {r c : Nat} {p : Cell} : p ∈ cells r c ↔ p.1 < r ∧ p.2 < c := by
  obtain ⟨i, j⟩ := p
  simp [cells]

theorem nodup_cells (r c : Nat) : (cells r c).Nodup := List.Nodup.product List.nodup_range List.nodup_range

theorem nodup_inner (land : Cell → Bool) (r c : Nat) : (inner land r c).Nodup := List.Nodup.filter _ (nodup_cells r c)

theorem surround_zero (m : Mask) (r c : Nat) (p : Cell) : surround m r c p = 0 := by
  unfold surround
  generalize nbs r c p = l
  induction l with
  | nil => rfl
  | cons q l ih => rw [List.foldl_cons, if_neg (by omega)]; exact ih

theorem edge_iff {r c : Nat} {p : Cell} (hp : p.1 < r ∧ p.2 < c) : edge r c p = true ↔ OnEdge r c p := by
  unfold edge OnEdge
  simp only [Bool.or_eq_true, beq_iff_eq]
  omega

theorem mem_nbs {r c : Nat} {p q : Cell} (hp : p.1 < r ∧ p.2 < c) : q ∈ nbs r c p ↔ Beside p q ∧ q.1 < r ∧ q.2 < c := by
  obtain ⟨i, j⟩ := p
  obtain ⟨x, y⟩ := q
  unfold nbs Beside
  simp only [List.mem_append]
  constructor
  · rintro (((h | h) | h) | h) <;> split at h <;> simp only [List.mem_singleton, List.not_mem_nil, Prod.mk.injEq] at h <;> simp only at * <;> omega
  · rintro ⟨⟨h1, h2⟩ | ⟨h1, h2⟩, h3, h4⟩ <;> rcases h2 with h2 | h2 <;> simp only at *
    · right; rw [if_pos (by omega)]; simp; omega
    · left; right; rw [if_pos (by omega)]; simp; omega
    · left; left; right; rw [if_pos (by omega)]; simp; omega
    · left; left; left; rw [if_pos (by omega)]; simp; omega

/-- the state after the cells of a part of the grid -/
theorem mark_spec (land : Cell → Bool) (r c : Nat) (l : List Cell) (hl : l.Nodup) :
    ((l.foldl (mark land r c) (fun _ => 0, 1)).2 =
        if l.filter (fun p => land p && !edge r c p) = [] then 1 else 3 + (l.filter (fun p => land p && !edge r c p)).length) ∧
    ∀ p, (l.foldl (mark land r c) (fun _ => 0, 1)).1 p =
      if p ∈ l ∧ land p = true then
        (if edge r c p then 3 else 3 + max ((l.filter (fun p => land p && !edge r c p)).idxOf p) 1)
      else 0 := by
  induction l using List.reverseRecOn with
  | nil => exact ⟨rfl, fun p => by simp⟩
  | append_singleton l d ih =>
    obtain ⟨hl1, -, hl3⟩ := List.nodup_append.1 hl
    have hd : d ∉ l := fun h => hl3 d h d (List.mem_singleton.2 rfl) rfl
    obtain ⟨ih1, ih2⟩ := ih hl1
    rw [List.foldl_append, List.foldl_cons, List.foldl_nil, List.filter_append]
    generalize l.foldl (mark land r c) (fun _ => 0, 1) = s at ih1 ih2
    have hdL : d ∉ l.filter (fun p => land p && !edge r c p) := fun h => hd (List.mem_filter.1 h).1
    have hmem : ∀ p, p ∈ l → land p = true → edge r c p = false → p ∈ l.filter (fun p => land p && !edge r c p) := by
      intro p h1 h2 h3
      exact List.mem_filter.2 ⟨h1, by rw [h2, h3]; rfl⟩
    generalize l.filter (fun p => land p && !edge r c p) = L at ih1 ih2 hdL hmem ⊢
    by_cases h1 : land d = true
    · by_cases h2 : edge r c d = true
      · have e : mark land r c s d = (s.1.set d 3, s.2) := by unfold mark; rw [if_pos h1, if_pos h2]
        rw [e, show [d].filter (fun p => land p && !edge r c p) = [] by simp [h2], List.append_nil]
        refine ⟨ih1, fun p => ?_⟩
        simp only [Mask.set]
        by_cases hp : p = d
        · subst hp; simp [h1, h2]
        · rw [if_neg hp, ih2]; simp [hp]
      · have h2' : edge r c d = false := by simpa using h2
        have hf : [d].filter (fun p => land p && !edge r c p) = [d] := by simp [h1, h2']
        have e : mark land r c s d = (s.1.set d (3 + max L.length 1), 3 + (L.length + 1)) := by
          unfold mark
          rw [if_pos h1, if_neg h2]
          by_cases hL : L = []
          · rw [if_pos hL] at ih1
            rw [if_pos ih1, ih1, hL]; rfl
          · rw [if_neg hL] at ih1
            have := List.length_pos_iff.2 hL
            rw [if_neg (by omega), surround_zero, if_neg (by omega), ih1, max_eq_left (by omega)]; rfl
        rw [e, hf]
        refine ⟨by simp, fun p => ?_⟩
        simp only [Mask.set]
        by_cases hp : p = d
        · subst hp
          simp [h1, h2', List.idxOf_append, hdL]
        · rw [if_neg hp]
          simp only [List.mem_append, List.mem_singleton, hp, or_false]
          rw [ih2]
          by_cases hpl : p ∈ l ∧ land p = true
          · rw [if_pos hpl, if_pos hpl]
            by_cases h3 : edge r c p = true
            · rw [if_pos h3, if_pos h3]
            · rw [if_neg h3, if_neg h3, List.idxOf_append, if_pos (hmem p hpl.1 hpl.2 (by simpa using h3))]
          · rw [if_neg hpl, if_neg hpl]
    · have e : mark land r c s d = (s.1.set d 0, s.2) := by unfold mark; rw [if_neg h1]
      rw [e, show [d].filter (fun p => land p && !edge r c p) = [] by simp [h1], List.append_nil]
      refine ⟨ih1, fun p => ?_⟩
      simp only [Mask.set]
      by_cases hp : p = d
      · subst hp; simp [h1]
      · rw [if_neg hp, ih2]; simp [hp]

theorem first_spec (land : Cell → Bool) (r c : Nat) (p : Cell) (hp : p.1 < r ∧ p.2 < c) :
    first land r c p = if land p = true then (if edge r c p then 3 else 3 + max ((inner land r c).idxOf p) 1) else 0 := by
  have := (mark_spec land r c (cells r c) (nodup_cells r c)).2 p
  unfold first
  rw [this]
  simp only [mem_cells, hp, and_self, true_and]
  rfl

/-! ### The loop -/

theorem merge_inv (P : Mask → Prop) (r c : Nat) (hs : ∀ m a b, P m → scan m r c = some (a, b) → P (reset m a b)) :
    ∀ m, P m → P (merge m r c) ∧ scan (merge m r c) r c = none := by
  intro m
  induction m using merge.induct r c with
  | case1 m h =>
    intro hm
    rw [merge]
    split
    · exact ⟨hm, h⟩
    · rename_i h'; rw [h] at h'; cases h'
  | case2 m a b h ih =>
    intro hm
    rw [merge]
    split
    · rename_i h'; rw [h] at h'; cases h'
    · rename_i a' b' h'
      rw [h] at h'
      cases h'
      exact ih (hs m a b hm h)

/-- what the loop keeps, for an equivalence `E` -/
structure Inv (land : Cell → Bool) (r c : Nat) (E : Cell → Cell → Prop) (m : Mask) : Prop where
  same : ∀ p q : Cell, p.1 < r + 1 ∧ p.2 < c + 1 → q.1 < r + 1 ∧ q.2 < c + 1 → 3 ≤ m p → m p = m q → E (proj c p) (proj c q)
  dry : ∀ p : Cell, p.1 < r + 1 ∧ p.2 < c + 1 → (3 ≤ m p ↔ land (proj c p) = true)
  rim : ∀ p : Cell, p.1 < r + 1 ∧ p.2 < c + 1 → edge (r + 1) (c + 1) p = true → m p ≤ 3
  full : ∃ k, (∀ p : Cell, p.1 < r + 1 ∧ p.2 < c + 1 → m p ≤ k) ∧
    ∀ v, 4 ≤ v → v ≤ k → ∃ p : Cell, (p.1 < r + 1 ∧ p.2 < c + 1) ∧ m p = v
  three : ∀ p : Cell, p.1 < r + 1 ∧ p.2 < c + 1 → m p = 3 → ∃ q : Cell, (q.1 < r + 1 ∧ q.2 < c + 1) ∧ m q = 3 ∧ OnEdge r c (proj c q)

theorem proj_lt {r c : Nat} {p : Cell} (hr : 0 < r) (hc : 0 < c) (hp : p.1 < r + 1 ∧ p.2 < c + 1) : (proj c p).1 < r ∧ (proj c p).2 < c := by
  unfold proj
  simp only
  omega

theorem proj_beside {r c : Nat} {p q : Cell} (hp : p.1 < r + 1 ∧ p.2 < c + 1) (hq : q.1 < r + 1 ∧ q.2 < c + 1) (h : Beside p q) :
    proj c p = proj c q ∨ Beside (proj c p) (proj c q) := by
  obtain ⟨i, j⟩ := p
  obtain ⟨x, y⟩ := q
  unfold Beside proj at *
  simp only [Prod.mk.injEq] at *
  omega

theorem inv_reset {land : Cell → Bool} {r c : Nat} {E : Cell → Cell → Prop} (hr : 0 < r) (hc : 0 < c) (hE : Equivalence E)
    (hJ : ∀ p q, Joined land r c p q → E p q) {m : Mask} (h : Inv land r c E m) {a b : Nat} (hs : scan m (r + 1) (c + 1) = some (a, b)) :
    Inv land r c E (reset m a b) := by
  obtain ⟨p, hp, ht⟩ := List.exists_of_findSome?_eq_some hs
  have hp := mem_cells.1 hp
  obtain ⟨h1, h2, h3⟩ := todo_spec ht
  -- the cell that has the lower number
  obtain ⟨q, hq, hqb, hqE⟩ : ∃ q : Cell, (q.1 < r + 1 ∧ q.2 < c + 1) ∧ m q = b ∧ E (proj c p) (proj c q) := by
    unfold todo at ht
    split at ht
    · cases ht
    · rename_i hp3
      split at ht
      · rename_i b' hb
        cases ht
        unfold lower at hb
        obtain ⟨q, hq, rfl⟩ := Option.map_eq_some_iff.1 hb
        have h5 := List.find?_some hq
        simp only [decide_eq_true_eq] at h5
        have h6 := (mem_nbs hp).1 (List.mem_of_find?_eq_some hq)
        refine ⟨q, h6.2, rfl, ?_⟩
        rcases proj_beside hp h6.2 h6.1 with h7 | h7
        · rw [h7]; exact hE.refl _
        · exact hJ _ _ ⟨⟨(h.dry p hp).1 (by omega), proj_lt hr hc hp⟩, ⟨(h.dry q h6.2).1 h5.1, proj_lt hr hc h6.2⟩, .inl h7⟩
      · split at ht
        · rename_i he
          exact absurd (h.rim p hp he.1) (by omega)
        · cases ht
  have key : ∀ x : Cell, x.1 < r + 1 ∧ x.2 < c + 1 → 3 ≤ m x → ∃ y : Cell, (y.1 < r + 1 ∧ y.2 < c + 1) ∧ E (proj c x) (proj c y) ∧ m y ≠ a ∧ 3 ≤ m y ∧
      reset m a b x = if a < m y then m y - 1 else m y := by
    intro x hx hx3
    by_cases hxa : m x = a
    · refine ⟨q, hq, hE.trans (h.same x p hx hp hx3 (by omega)) hqE, by omega, by omega, ?_⟩
      unfold reset
      rw [if_pos hxa, if_neg (by omega), hqb]
    · refine ⟨x, hx, hE.refl _, hxa, hx3, ?_⟩
      unfold reset
      rw [if_neg hxa]
  have lo : ∀ x, 3 ≤ reset m a b x ↔ 3 ≤ m x := by
    intro x
    unfold reset
    split
    · omega
    · split <;> omega
  refine ⟨fun x y hx hy hx3 hxy => ?_, fun x hx => (lo x).trans (h.dry x hx), fun x hx he => ?_, ?_, fun x hx hx3 => ?_⟩
  · obtain ⟨x', hx', ex, nx, x3, rx⟩ := key x hx ((lo x).1 hx3)
    obtain ⟨y', hy', ey, ny, y3, ry⟩ := key y hy ((lo y).1 (hxy ▸ hx3))
    refine hE.trans ex (hE.trans (h.same x' y' hx' hy' x3 ?_) (hE.symm ey))
    rw [rx, ry] at hxy
    split at hxy <;> split at hxy <;> omega
  · have := h.rim x hx he
    unfold reset
    rw [if_neg (by omega), if_neg (by omega)]
    exact this
  · obtain ⟨k, k1, k2⟩ := h.full
    have hak : a ≤ k := h1 ▸ k1 p hp
    refine ⟨k - 1, fun x hx => ?_, fun v hv hvk => ?_⟩
    · have := k1 x hx
      unfold reset
      split
      · omega
      · split <;> omega
    · by_cases hva : v < a
      · obtain ⟨x, hx, rfl⟩ := k2 v hv (by omega)
        refine ⟨x, hx, ?_⟩
        unfold reset
        rw [if_neg (by omega), if_neg (by omega)]
      · obtain ⟨x, hx, hx2⟩ := k2 (v + 1) (by omega) (by omega)
        refine ⟨x, hx, ?_⟩
        unfold reset
        rw [if_neg (by omega), if_pos (by omega)]
        omega
  · obtain ⟨y, hy, ey, ny, y3, ry⟩ := key x hx ((lo x).1 (by omega))
    obtain ⟨z, hz, hz3, hze⟩ := h.three y hy (by rw [hx3] at ry; split at ry <;> omega)
    refine ⟨z, hz, ?_, hze⟩
    unfold reset
    rw [if_neg (by omega), if_neg (by omega)]
    exact hz3

/-- the pair that the first pass gives one number -/
def Twin (land : Cell → Bool) (r c : Nat) (p q : Cell) : Prop := (inner land r c)[0]? = some p ∧ (inner land r c)[1]? = some q

theorem inv_first {land : Cell → Bool} {r c : Nat} {E : Cell → Cell → Prop} (hr : 0 < r) (hc : 0 < c) (hE : Equivalence E)
    (hJ : ∀ p q, Joined land r c p q → E p q) (hT : ∀ p q, Twin land r c p q → E p q) :
    Inv land r c E (extend c (first land r c)) := by
  have hf : ∀ p : Cell, p.1 < r + 1 ∧ p.2 < c + 1 → extend c (first land r c) p = if land (proj c p) = true then
      (if edge r c (proj c p) then 3 else 3 + max ((inner land r c).idxOf (proj c p)) 1) else 0 :=
    fun p hp => first_spec land r c _ (proj_lt hr hc hp)
  have hin : ∀ p : Cell, p.1 < r + 1 ∧ p.2 < c + 1 → land (proj c p) = true → ¬ edge r c (proj c p) = true → proj c p ∈ inner land r c :=
    fun p hp h1 h2 => List.mem_filter.2 ⟨mem_cells.2 (proj_lt hr hc hp), by simp [h1, h2]⟩
  refine ⟨fun p q hp hq h3 he => ?_, fun p hp => ?_, fun p hp he => ?_, ?_, fun p hp h3 => ?_⟩
  · rw [hf p hp] at h3 he
    rw [hf q hq] at he
    by_cases lp : land (proj c p) = true
    · rw [if_pos lp] at he
      by_cases lq : land (proj c q) = true
      · rw [if_pos lq] at he
        by_cases ep : edge r c (proj c p) = true
        · by_cases eq : edge r c (proj c q) = true
          · exact hJ _ _ ⟨⟨lp, proj_lt hr hc hp⟩, ⟨lq, proj_lt hr hc hq⟩, .inr ⟨(edge_iff (proj_lt hr hc hp)).1 ep, (edge_iff (proj_lt hr hc hq)).1 eq⟩⟩
          · rw [if_pos ep, if_neg eq] at he; omega
        · by_cases eq : edge r c (proj c q) = true
          · rw [if_neg ep, if_pos eq] at he; omega
          · rw [if_neg ep, if_neg eq] at he
            have ip := hin p hp lp ep
            have iq := hin q hq lq eq
            have gp := List.getElem?_idxOf ip
            have gq := List.getElem?_idxOf iq
            rcases Nat.lt_trichotomy ((inner land r c).idxOf (proj c p)) ((inner land r c).idxOf (proj c q)) with h | h | h
            · rw [show (inner land r c).idxOf (proj c p) = 0 by omega] at gp
              rw [show (inner land r c).idxOf (proj c q) = 1 by omega] at gq
              exact hT _ _ ⟨gp, gq⟩
            · rw [(List.idxOf_inj ip).1 h]; exact hE.refl _
            · rw [show (inner land r c).idxOf (proj c p) = 1 by omega] at gp
              rw [show (inner land r c).idxOf (proj c q) = 0 by omega] at gq
              exact hE.symm (hT _ _ ⟨gq, gp⟩)
      · rw [if_neg lq] at he
        split at he <;> omega
    · rw [if_neg lp] at h3; omega
  · rw [hf p hp]
    split
    · rename_i h
      refine ⟨fun _ => h, fun _ => ?_⟩
      split <;> omega
    · rename_i h
      exact ⟨fun h' => by omega, fun h' => absurd h' h⟩
  · rw [hf p hp]
    split
    · rw [if_pos]
      refine (edge_iff (proj_lt hr hc hp)).2 ?_
      have := (edge_iff hp).1 he
      obtain ⟨i, j⟩ := p
      unfold OnEdge proj at *
      simp only at *
      omega
    · omega
  · refine ⟨if inner land r c = [] then 3 else 3 + max ((inner land r c).length - 1) 1, fun p hp => ?_, fun v hv hvk => ?_⟩
    · rw [hf p hp]
      split
      · split
        · split <;> omega
        · rename_i h1 h2
          have := List.idxOf_lt_length_of_mem (hin p hp h1 h2)
          rw [if_neg (List.ne_nil_of_mem (hin p hp h1 h2))]
          omega
      · omega
    · have hne : inner land r c ≠ [] := by
        intro h
        rw [if_pos h] at hvk
        omega
      rw [if_neg hne] at hvk
      have hlen := List.length_pos_iff.2 hne
      obtain ⟨i, hi, hi2⟩ : ∃ i, i < (inner land r c).length ∧ 3 + max i 1 = v := by
        by_cases h : v = 4
        · exact ⟨0, hlen, by omega⟩
        · exact ⟨v - 3, by omega, by omega⟩
      have hx := List.mem_filter.1 (List.getElem_mem hi)
      have hg := mem_cells.1 hx.1
      have hpr : proj c ((inner land r c)[i].1 + 1, (inner land r c)[i].2) = (inner land r c)[i] := by
        unfold proj
        refine Prod.ext rfl ?_
        simp only
        have := hg.2
        omega
      have hq : ((inner land r c)[i].1 + 1, (inner land r c)[i].2).1 < r + 1 ∧ ((inner land r c)[i].1 + 1, (inner land r c)[i].2).2 < c + 1 := by
        have := hg.1
        have := hg.2
        simp only
        omega
      refine ⟨((inner land r c)[i].1 + 1, (inner land r c)[i].2), hq, ?_⟩
      rw [hf _ hq, hpr]
      have h2 := hx.2
      simp only [Bool.and_eq_true, Bool.not_eq_true'] at h2
      rw [if_pos h2.1, h2.2, (nodup_inner land r c).idxOf_getElem]
      simpa using hi2
  · refine ⟨p, hp, h3, ?_⟩
    rw [hf p hp] at h3
    by_cases lp : land (proj c p) = true
    · rw [if_pos lp] at h3
      by_cases ep : edge r c (proj c p) = true
      · exact (edge_iff (proj_lt hr hc hp)).1 ep
      · rw [if_neg ep] at h3; omega
    · rw [if_neg lp] at h3; omega

/-- land cells that the numbering puts together: those of one block, and the first two inside -/
def Linked (land : Cell → Bool) (r c : Nat) (p q : Cell) : Prop := Joined land r c p q ∨ Twin land r c p q

theorem inv_number {land : Cell → Bool} {r c : Nat} {E : Cell → Cell → Prop} (hr : 0 < r) (hc : 0 < c) (hE : Equivalence E)
    (hJ : ∀ p q, Joined land r c p q → E p q) (hT : ∀ p q, Twin land r c p q → E p q) :
    Inv land r c E (number land r c) ∧ scan (number land r c) (r + 1) (c + 1) = none :=
  merge_inv (Inv land r c E) (r + 1) (c + 1) (fun _ _ _ h hs => inv_reset hr hc hE hJ h hs) _ (inv_first hr hc hE hJ hT)

theorem inv_linked (land : Cell → Bool) {r c : Nat} (hr : 0 < r) (hc : 0 < c) :
    Inv land r c (Relation.EqvGen (Linked land r c)) (number land r c) ∧ scan (number land r c) (r + 1) (c + 1) = none :=
  inv_number hr hc (Relation.EqvGen.is_equivalence _) (fun _ _ h => .rel _ _ (.inl h)) (fun _ _ h => .rel _ _ (.inr h))

theorem up_proj {r c : Nat} {p : Cell} (hp : p.1 < r ∧ p.2 < c) : proj c (p.1 + 1, p.2) = p := by
  unfold proj
  refine Prod.ext rfl ?_
  simp only
  omega

theorem up_lt {r c : Nat} {p : Cell} (hp : p.1 < r ∧ p.2 < c) : ((p.1 + 1, p.2) : Cell).1 < r + 1 ∧ ((p.1 + 1, p.2) : Cell).2 < c + 1 := by
  simp only
  omega

/-- once no change is left, cells beside each other have one number -/
theorem settled {m : Mask} {r c : Nat} (h : scan m r c = none) {p q : Cell} (hp : p.1 < r ∧ p.2 < c) (hq : q.1 < r ∧ q.2 < c)
    (hb : Beside p q) (hp3 : 3 ≤ m p) (hq3 : 3 ≤ m q) : m p = m q := by
  have one : ∀ x y : Cell, x.1 < r ∧ x.2 < c → y.1 < r ∧ y.2 < c → Beside x y → 3 ≤ m x → 3 ≤ m y → m x ≤ m y := by
    intro x y hx hy hxy hx3 hy3
    have h1 := List.findSome?_eq_none_iff.1 h x (mem_cells.2 hx)
    unfold todo at h1
    rw [if_neg (by omega)] at h1
    split at h1
    · cases h1
    · rename_i h2
      unfold lower at h2
      have h3 := List.find?_eq_none.1 (Option.map_eq_none_iff.1 h2) y ((mem_nbs hx).2 ⟨hxy, hy⟩)
      simp only [decide_eq_true_eq] at h3
      omega
  refine Nat.le_antisymm (one p q hp hq hb hp3 hq3) (one q p hq hp ?_ hq3 hp3)
  unfold Beside at *
  omega

theorem twin_same (land : Cell → Bool) {r c : Nat} {p q : Cell} (h : Twin land r c p q) : numberOf land r c p = numberOf land r c q := by
  have hp := List.mem_of_getElem? h.1
  have hq := List.mem_of_getElem? h.2
  obtain ⟨hp1, hp2⟩ := List.mem_filter.1 hp
  obtain ⟨hq1, hq2⟩ := List.mem_filter.1 hq
  simp only [Bool.and_eq_true, Bool.not_eq_true'] at hp2 hq2
  have hp1 := mem_cells.1 hp1
  have hq1 := mem_cells.1 hq1
  refine (merge_inv (fun m => m (p.1 + 1, p.2) = m (q.1 + 1, q.2)) (r + 1) (c + 1) (fun m a b hm _ => ?_) _ ?_).1
  · simp only [reset, hm]
  · have hn := nodup_inner land r c
    obtain ⟨l0, e0⟩ := List.getElem?_eq_some_iff.1 h.1
    obtain ⟨l1, e1⟩ := List.getElem?_eq_some_iff.1 h.2
    have i0 : (inner land r c).idxOf p = 0 := by rw [← e0]; exact hn.idxOf_getElem 0 l0
    have i1 : (inner land r c).idxOf q = 1 := by rw [← e1]; exact hn.idxOf_getElem 1 l1
    unfold extend
    rw [up_proj hp1, up_proj hq1, first_spec _ _ _ _ hp1, first_spec _ _ _ _ hq1, if_pos hp2.1, if_pos hq2.1, hp2.2, hq2.2, i0, i1]
    rfl

theorem edge_three (land : Cell → Bool) {r c : Nat} {p : Cell} (hp : LandAt land r c p) (he : OnEdge r c p) : numberOf land r c p = 3 := by
  have hr : 0 < r := by have := hp.2.1; omega
  have hc : 0 < c := by have := hp.2.2; omega
  have hd : 3 ≤ first land r c p ∧ first land r c p = 3 := by
    rw [first_spec _ _ _ _ hp.2, if_pos hp.1, if_pos ((edge_iff hp.2).2 he)]
    exact ⟨le_refl _, rfl⟩
  refine (merge_inv (fun m => m (p.1 + 1, p.2) = 3) (r + 1) (c + 1) (fun m a b hm hs => ?_) _ ?_).1
  · obtain ⟨x, -, ht⟩ := List.exists_of_findSome?_eq_some hs
    obtain ⟨h1, h2, h3⟩ := todo_spec ht
    unfold reset
    rw [if_neg (by omega), if_neg (by omega)]
    exact hm
  · unfold extend
    rw [up_proj hp.2]
    exact hd.2

/-- land that is linked has one number -/
theorem linked_same (land : Cell → Bool) {r c : Nat} {p q : Cell} (h : Relation.EqvGen (Linked land r c) p q) :
    numberOf land r c p = numberOf land r c q := by
  induction h with
  | rel p q h =>
    rcases h with ⟨hp, hq, h | h⟩ | h
    · have hr : 0 < r := by have := hp.2.1; omega
      have hc : 0 < c := by have := hp.2.2; omega
      have hI := inv_linked land hr hc
      refine settled hI.2 (up_lt hp.2) (up_lt hq.2) ?_ ((hI.1.dry _ (up_lt hp.2)).2 (by rw [up_proj hp.2]; exact hp.1))
        ((hI.1.dry _ (up_lt hq.2)).2 (by rw [up_proj hq.2]; exact hq.1))
      unfold Beside at *
      simp only at *
      omega
    · rw [edge_three land hp h.1, edge_three land hq h.2]
    · exact twin_same land h
  | refl => rfl
  | symm _ _ _ ih => exact ih.symm
  | trans _ _ _ _ _ ih1 ih2 => exact ih1.trans ih2

/-! ## Claims -/

/-- two land cells have one number exactly if they are in one block -/
def C279_claim : Prop :=
  ∀ (land : Cell → Bool) (r c : Nat) (p q : Cell), LandAt land r c p → LandAt land r c q →
    (numberOf land r c p = numberOf land r c q ↔ OneBlock land r c p q)

/-- what the code does in every case: one number exactly for cells that are linked by steps over land, over the edge, or between the first two land cells inside -/
theorem C279_linked (land : Cell → Bool) (r c : Nat) (p q : Cell) (hp : LandAt land r c p) (hq : LandAt land r c q) :
    numberOf land r c p = numberOf land r c q ↔ Relation.EqvGen (Linked land r c) p q := by
  have hr : 0 < r := by have := hp.2.1; omega
  have hc : 0 < c := by have := hp.2.2; omega
  refine ⟨fun h => ?_, linked_same land⟩
  have hI := (inv_linked land hr hc).1
  have := hI.same _ _ (up_lt hp.2) (up_lt hq.2) ((hI.dry _ (up_lt hp.2)).2 (by rw [up_proj hp.2]; exact hp.1)) h
  rwa [up_proj hp.2, up_proj hq.2] at this

/-- Missing in the general claim: grids whose first two land cells inside, in reading order, belong to different blocks; the claim fails for all of them. -/
theorem C279_partial (land : Cell → Bool) (r c : Nat) (hT : ∀ x y, (inner land r c)[0]? = some x → (inner land r c)[1]? = some y → OneBlock land r c x y)
    (p q : Cell) (hp : LandAt land r c p) (hq : LandAt land r c q) :
    numberOf land r c p = numberOf land r c q ↔ OneBlock land r c p q := by
  rw [C279_linked land r c p q hp hq]
  have key : ∀ x y, Relation.EqvGen (Linked land r c) x y → OneBlock land r c x y := by
    intro x y h
    induction h with
    | rel x y h =>
      rcases h with h | h
      · exact .rel _ _ h
      · exact hT _ _ h.1 h.2
    | refl => exact .refl _
    | symm _ _ _ ih => exact .symm _ _ ih
    | trans _ _ _ _ _ ih1 ih2 => exact .trans _ _ _ ih1 ih2
  exact ⟨key p q, fun h => h.mono (fun _ _ h => .inl h)⟩

/-- in every grid, cells of one block have one number -/
theorem C279_block (land : Cell → Bool) (r c : Nat) (p q : Cell) (h : OneBlock land r c p q) : numberOf land r c p = numberOf land r c q :=
  linked_same land (h.mono (fun _ _ h => .inl h))

/-- whenever the first two land cells inside are of different blocks, these two blocks have one number -/
theorem C279_counterexample_every (land : Cell → Bool) (r c : Nat) (x y : Cell) (hx : (inner land r c)[0]? = some x) (hy : (inner land r c)[1]? = some y)
    (hne : ¬ OneBlock land r c x y) : numberOf land r c x = numberOf land r c y ∧ ¬ OneBlock land r c x y :=
  ⟨twin_same land ⟨hx, hy⟩, hne⟩

/-- two islands of one cell each, with water between -/
def twoIslands : Cell → Bool := fun p => p == (1, 1) || p == (1, 3)

theorem twoIslands_apart : ¬ OneBlock twoIslands 3 5 (1, 1) (1, 3) := by
  have key : ∀ x y, OneBlock twoIslands 3 5 x y → (x = (1, 1) ↔ y = (1, 1)) := by
    intro x y h
    induction h with
    | rel x y h =>
      obtain ⟨⟨h1, -⟩, ⟨h2, -⟩, h3⟩ := h
      simp only [twoIslands, Bool.or_eq_true, beq_iff_eq] at h1 h2
      rcases h1 with rfl | rfl <;> rcases h2 with rfl | rfl <;> simp [Beside, OnEdge] at h3 ⊢
    | refl => exact Iff.rfl
    | symm _ _ _ ih => exact ih.symm
    | trans _ _ _ _ _ ih1 ih2 => exact ih1.trans ih2
  intro h
  exact absurd ((key _ _ h).1 rfl) (by decide)

theorem C279_counterexample : ¬ C279_claim := by
  intro h
  refine twoIslands_apart ((h twoIslands 3 5 (1, 1) (1, 3) (by unfold LandAt; decide) (by unfold LandAt; decide)).1 ?_)
  exact twin_same _ ⟨by decide, by decide⟩

/-- an island of two cells beside each other, another island further on, and land at the edge -/
def someLand : Cell → Bool := fun p => p == (1, 1) || p == (1, 2) || p == (3, 3) || p == (0, 5)

example : OneBlock someLand 5 6 (1, 1) (1, 2) := .rel _ _ ⟨by unfold LandAt; decide, by unfold LandAt; decide, .inl (by unfold Beside; decide)⟩

/-- the condition of `C279_partial` -/
example : ∀ x y, (inner someLand 5 6)[0]? = some x → (inner someLand 5 6)[1]? = some y → OneBlock someLand 5 6 x y := by
  intro x y hx hy
  rw [show (inner someLand 5 6)[0]? = some (1, 1) by decide] at hx
  rw [show (inner someLand 5 6)[1]? = some (1, 2) by decide] at hy
  cases hx
  cases hy
  exact .rel _ _ ⟨by unfold LandAt; decide, by unfold LandAt; decide, .inl (by unfold Beside; decide)⟩

/-! ### The numbers in use -/

/-- land has a number from 3 up, water has not -/
theorem C280_land (land : Cell → Bool) (r c : Nat) (p : Cell) (hp : p.1 < r ∧ p.2 < c) : 3 ≤ numberOf land r c p ↔ land p = true := by
  have hI := (inv_linked land (r := r) (c := c) (by omega) (by omega)).1
  have := hI.dry _ (up_lt hp)
  rwa [up_proj hp] at this

/-- land has number 3 if steps over land lead to the edge; every land cell with number 3 is linked to land at the edge -/
theorem C280_edge (land : Cell → Bool) (r c : Nat) (p : Cell) (hp : LandAt land r c p) :
    numberOf land r c p = 3 ↔ ∃ q, LandAt land r c q ∧ OnEdge r c q ∧ Relation.EqvGen (Linked land r c) p q := by
  have hI := (inv_linked land (r := r) (c := c) (by have := hp.2.1; omega) (by have := hp.2.2; omega)).1
  constructor
  · intro h
    obtain ⟨z, hz, hz3, hze⟩ := hI.three _ (up_lt hp.2) h
    have hl := (hI.dry z hz).1 (by omega)
    have hg := proj_lt (r := r) (c := c) (by have := hp.2.1; omega) (by have := hp.2.2; omega) hz
    refine ⟨proj c z, ⟨hl, hg⟩, hze, ?_⟩
    have := hI.same _ z (up_lt hp.2) hz (by unfold numberOf at h; omega) (by unfold numberOf at h; omega)
    rwa [up_proj hp.2] at this
  · rintro ⟨q, hq, he, hl⟩
    rw [linked_same land hl, edge_three land hq he]

theorem foldl_top (f : Cell → Nat) (l : List Cell) (k : Nat) :
    k ≤ l.foldl (fun k p => if f p < 3 then k else if k < f p then f p else k) k ∧
    (∀ p ∈ l, f p ≤ 2 ∨ f p ≤ l.foldl (fun k p => if f p < 3 then k else if k < f p then f p else k) k) ∧
    (l.foldl (fun k p => if f p < 3 then k else if k < f p then f p else k) k = k ∨
      ∃ p ∈ l, f p = l.foldl (fun k p => if f p < 3 then k else if k < f p then f p else k) k) := by
  induction l generalizing k with
  | nil => exact ⟨le_refl _, by simp, .inl rfl⟩
  | cons q l ih =>
    rw [List.foldl_cons]
    obtain ⟨h1, h2, h3⟩ := ih (if f q < 3 then k else if k < f q then f q else k)
    refine ⟨?_, ?_, ?_⟩
    · refine le_trans ?_ h1
      split
      · exact le_refl _
      · split <;> omega
    · intro p hp
      rcases List.mem_cons.1 hp with rfl | hp
      · by_cases h : f p < 3
        · left; omega
        · right
          refine le_trans ?_ h1
          rw [if_neg h]
          split <;> omega
      · exact h2 p hp
    · rcases h3 with h3 | ⟨p, hp, h3⟩
      · by_cases h : f q < 3
        · left; rw [h3, if_pos h]
        · by_cases h' : k < f q
          · right; refine ⟨q, by simp, ?_⟩; rw [h3, if_neg h, if_pos h']
          · left; rw [h3, if_neg h, if_neg h']
      · exact .inr ⟨p, List.mem_cons_of_mem _ hp, h3⟩

theorem copies (land : Cell → Bool) (r c : Nat) (p q : Cell) (h : proj c p = proj c q) : number land r c p = number land r c q := by
  refine (merge_inv (fun m => m p = m q) (r + 1) (c + 1) (fun m a b hm _ => ?_) _ ?_).1
  · simp only [reset, hm]
  · unfold extend
    rw [h]

/-- the numbers of the islands have no gap: no number is above the reported count, and each number from 4 up to it is that of some land cell inside -/
theorem C280_count (land : Cell → Bool) (r c : Nat) (hr : 0 < r) (hc : 0 < c) :
    3 ≤ count land r c ∧ (∀ p, LandAt land r c p → numberOf land r c p ≤ count land r c) ∧
    ∀ v, 4 ≤ v → v ≤ count land r c → ∃ p, LandAt land r c p ∧ ¬ OnEdge r c p ∧ numberOf land r c p = v := by
  have hI := (inv_linked land hr hc).1
  obtain ⟨h1, h2, h3⟩ := foldl_top (number land r c) (cells (r + 1) (c + 1)) 3
  refine ⟨h1, fun p hp => ?_, fun v hv hvk => ?_⟩
  · rcases h2 (p.1 + 1, p.2) (mem_cells.2 (up_lt hp.2)) with h | h
    · have := (C280_land land r c p hp.2).2 hp.1
      unfold numberOf at *
      omega
    · exact h
  · obtain ⟨k, k1, k2⟩ := hI.full
    have hk : v ≤ k := by
      rcases h3 with h | ⟨q, hq, h⟩
      · unfold count at hvk; omega
      · have := k1 q (mem_cells.1 hq)
        unfold count at hvk
        omega
    obtain ⟨q, hq, hqv⟩ := k2 v hv hk
    have hl : LandAt land r c (proj c q) := ⟨(hI.dry q hq).1 (by omega), proj_lt hr hc hq⟩
    have hnum : numberOf land r c (proj c q) = v := by
      rw [← hqv]
      exact (copies land r c _ _ (up_proj hl.2)).symm ▸ rfl
    refine ⟨proj c q, hl, fun he => ?_, hnum⟩
    have := edge_three land hl he
    omega

example : LandAt someLand 5 6 (3, 3) ∧ ¬ OnEdge 5 6 (3, 3) := by unfold LandAt OnEdge; decide

/-- the second island has number 5, the land at the edge 3 -/
example : numberOf someLand 5 6 (3, 3) = 5 ∧ numberOf someLand 5 6 (0, 5) = 3 ∧ numberOf someLand 5 6 (2, 2) = 0 := by decide +kernel

end Verif.TGrid.Islands
