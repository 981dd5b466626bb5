import Verif.Dag.ArrayModel
import Verif.Dag.Cases

/-!
# C105: the search structure can be built for every grid, and every search in it ends
-/

namespace Verif.Dag

def Tree.size : Tree → Nat
  | .leaf => 0
  | .node _ l r => 1 + l.size + r.size

/-- The nodes on the longest way from the root. -/
def Tree.height : Tree → Nat
  | .leaf => 0
  | .node _ l r => 1 + max l.height r.height

theorem height_le_size (t : Tree) : t.height ≤ t.size := by
  induction t with
  | leaf => exact le_rfl
  | node s l r ihl ihr => simp only [Tree.height, Tree.size]; omega

/-! ## Building ends, with whatever choice of sides -/

/-- What is built is a tree of the list, whichever pickable side is picked. -/
theorem C105_builds (m : Mesh) (pick : List Side → Side) (hp : ∀ l, l ≠ [] → m.Pickable l (pick l)) (l : List Side) :
    Built m l (build m pick l) := by
  induction hn : l.length using Nat.strong_induction_on generalizing l with
  | _ n ih =>
    by_cases hl : l = []
    · subst hl
      unfold build
      rw [dif_neg (by simp)]
      exact .nil
    · have hpk := hp l hl
      unfold build
      rw [dif_pos hpk.1]
      obtain ⟨pre, post, -, e1, e2⟩ := List.exists_erase_eq hpk.1
      have hlen : (pre ++ post).length < n := by
        rw [← hn, e1]; simp
      rw [e2]
      generalize hs : pick l = s at *
      rw [e1] at hpk ⊢
      refine .node pre post s _ _ hpk (ih _ ?_ _ rfl) (ih _ ?_ _ rfl)
      · exact lt_of_le_of_lt (List.length_filter_le _ _) hlen
      · exact lt_of_le_of_lt (List.length_filter_le _ _) hlen

/-- There is always a side to pick: one that is not on the boundary, if there is one. -/
theorem pickable_exists (m : Mesh) (l : List Side) (h : l ≠ []) : ∃ s, m.Pickable l s := by
  by_cases hi : ∃ s ∈ l, m.right s ≠ none
  · obtain ⟨s, hs, hr⟩ := hi
    exact ⟨s, hs, fun h => absurd h hr⟩
  · push Not at hi
    obtain ⟨s, hs⟩ := List.exists_mem_of_ne_nil l h
    exact ⟨s, hs, fun _ x hx => hi x hx⟩

/-! ## The records -/

/-- The records of a tree at the position `base`. -/
def flatten : Nat → Tree → List Branch
  | _, .leaf => []
  | base, .node s l r =>
    ⟨s, if l = .leaf then -8 else (base + 1 : Nat), if r = .leaf then -8 else (base + 1 + l.size : Nat)⟩ ::
      (flatten (base + 1) l ++ flatten (base + 1 + l.size) r)

theorem flatten_length (t : Tree) (base : Nat) : (flatten base t).length = t.size := by
  induction t generalizing base with
  | leaf => rfl
  | node s l r ihl ihr => simp [flatten, Tree.size, ihl, ihr]; omega

theorem set_last (arr post : List Branch) (b b' : Branch) : (arr ++ b :: post).set arr.length b' = arr ++ b' :: post := by
  rw [List.set_append_right _ _ le_rfl, Nat.sub_self, List.set_cons_zero]

/-- What is written is that. -/
theorem emit_eq (t : Tree) (arr : List Branch) : emit t arr = arr ++ flatten arr.length t := by
  induction t generalizing arr with
  | leaf => simp [emit, flatten]
  | node s l r ihl ihr =>
    simp only [emit]
    rw [set_last, ihl, ihr]
    have hlen : ∀ b : Branch, (arr ++ [b]).length = arr.length + 1 := by intro b; simp
    rw [hlen, hlen, List.append_assoc, List.singleton_append, set_last]
    simp only [flatten, List.length_append, List.length_cons, flatten_length, List.append_assoc, List.cons_append]
    have e1 : arr.length + (l.size + 1) = arr.length + 1 + l.size := by omega
    rw [e1]

/-! ## The loop follows the tree -/

theorem loop_eq (m : Mesh) (pt : Pt) (t : Tree) (ht : t ≠ .leaf) (pre post : List Branch) (fuel : Nat) (hf : t.height ≤ fuel)
    (s0 : Side) (third : Nat) :
    m.loop pt (pre ++ flatten pre.length t ++ post) fuel pre.length third = some (m.go pt t s0 third) := by
  induction t generalizing pre post fuel s0 third with
  | leaf => exact absurd rfl ht
  | node s l r ihl ihr =>
    simp only [Tree.height] at hf
    obtain ⟨fuel, rfl⟩ : ∃ f, fuel = f + 1 := ⟨fuel - 1, by omega⟩
    have hget : (pre ++ flatten pre.length (.node s l r) ++ post)[((pre.length : Nat) : Int).toNat]? =
        some ⟨s, if l = .leaf then -8 else (pre.length + 1 : Nat), if r = .leaf then -8 else (pre.length + 1 + l.size : Nat)⟩ := by
      simp [flatten]
    -- the array, seen from the branches
    have eL : pre ++ flatten pre.length (.node s l r) ++ post =
        (pre ++ [⟨s, if l = .leaf then -8 else (pre.length + 1 : Nat), if r = .leaf then -8 else (pre.length + 1 + l.size : Nat)⟩]) ++
          flatten (pre.length + 1) l ++ (flatten (pre.length + 1 + l.size) r ++ post) := by simp [flatten]
    have eR : pre ++ flatten pre.length (.node s l r) ++ post =
        (pre ++ [⟨s, if l = .leaf then -8 else (pre.length + 1 : Nat), if r = .leaf then -8 else (pre.length + 1 + l.size : Nat)⟩] ++
          flatten (pre.length + 1) l) ++ flatten (pre.length + 1 + l.size) r ++ post := by simp [flatten]
    generalize hb : (⟨s, if l = .leaf then -8 else (pre.length + 1 : Nat), if r = .leaf then -8 else (pre.length + 1 + l.size : Nat)⟩ : Branch) = b at *
    have hbs : b.s = s := by rw [← hb]
    have hbl : b.left = if l = .leaf then (-8 : Int) else ((pre.length + 1 : Nat) : Int) := by rw [← hb]
    have hbr : b.right = if r = .leaf then (-8 : Int) else ((pre.length + 1 + l.size : Nat) : Int) := by rw [← hb]
    have hn1 : ¬ (b.left = -1 ∨ b.right = -1) := by
      rw [hbl, hbr]
      rintro (h | h) <;> split at h <;> omega
    unfold Mesh.loop Mesh.go
    rw [hget]
    dsimp only
    rw [if_neg hn1, hbs]
    by_cases h1 : m.left (m.first s) (m.second s) pt = true
    · rw [if_pos h1, if_pos h1]
      by_cases h2 : (m.left (m.second s) (m.third s) pt && m.left (m.third s) (m.first s) pt) = true
      · rw [if_pos h2, if_pos h2]
      · rw [if_neg h2, if_neg h2]
        by_cases hl : l = .leaf
        · rw [if_pos hl] at hbl
          rw [if_pos hbl, hl]
          rfl
        · rw [if_neg hl] at hbl
          rw [if_neg (by rw [hbl]; omega), hbl, eL]
          have := ihl hl (pre ++ [b]) (flatten (pre.length + 1 + l.size) r ++ post) fuel (by omega) s (m.third s)
          rw [show (pre ++ [b]).length = pre.length + 1 by simp] at this
          exact this
    · rw [if_neg h1, if_neg h1]
      cases m.right s with
      | none => rfl
      | some j =>
        simp only
        generalize m.findThird (m.second s) (m.first s) j = c
        by_cases h2 : (m.left c (m.second s) pt && m.left (m.first s) c pt) = true
        · rw [if_pos h2, if_pos h2]
        · rw [if_neg h2, if_neg h2]
          by_cases hr : r = .leaf
          · rw [if_pos hr] at hbr
            rw [if_pos hbr, hr]
            rfl
          · rw [if_neg hr] at hbr
            rw [if_neg (by rw [hbr]; omega), hbr, eR]
            have := ihr hr (pre ++ [b] ++ flatten (pre.length + 1) l) post fuel (by omega) s c
            rw [show (pre ++ [b] ++ flatten (pre.length + 1) l).length = pre.length + 1 + l.size by
              simp [flatten_length]; omega] at this
            exact this

/-- **C105**: in the structure written for a tree every search ends, after at most as many steps as there are records, with the answer
the tree gives. -/
theorem C105_ends (m : Mesh) (t : Tree) (ht : t ≠ .leaf) (pt : Pt) (junk : Nat) (fuel : Nat) (hf : (emit t []).length ≤ fuel) :
    m.loop pt (emit t []) fuel 0 junk = some (m.locate t junk pt) := by
  have h := emit_eq t []
  simp only [List.nil_append, List.length_nil] at h
  have := loop_eq m pt t ht [] [] fuel (by
    refine (height_le_size t).trans ?_
    rw [h, flatten_length] at hf
    exact hf) (0, 0) junk
  simp only [List.nil_append, List.append_nil, List.length_nil] at this
  rw [h]
  exact this

/-- **C105**, whole: for every grid with a triangle, and whichever sides are picked, the structure is built and every search in it
ends. -/
theorem C105_whole (m : Mesh) (pick : List Side → Side) (hp : ∀ l, l ≠ [] → m.Pickable l (pick l)) (hn : m.sides ≠ []) (pt : Pt)
    (junk : Nat) : ∃ t arr, Built m m.sides t ∧ arr = emit t [] ∧ m.loop pt arr arr.length 0 junk = some (m.locate t junk pt) := by
  refine ⟨build m pick m.sides, _, C105_builds m pick hp _, rfl, C105_ends m _ ?_ pt junk _ le_rfl⟩
  unfold build
  rw [dif_pos (hp _ hn).1]
  exact fun h => nomatch h

example : ∃ t arr, Built star star.sides t ∧ arr = emit t [] ∧ star.loop (5, 5) arr arr.length 0 0 = some (star.locate t 0 (5, 5)) :=
  C105_whole star (fun l => if h : l = [] then (0, 0) else (pickable_exists star l h).choose)
    (fun l h => by rw [dif_neg h]; exact (pickable_exists star l h).choose_spec) (by decide +kernel) (5, 5) 0

/-- The children of a record come after it, so that no search visits a record twice. -/
theorem C105_forward (t : Tree) (i : Nat) (b : Branch) (h : (emit t [])[i]? = some b) :
    (b.left = -8 ∨ (i : Int) < b.left ∧ b.left < (emit t []).length) ∧ (b.right = -8 ∨ (i : Int) < b.right ∧ b.right < (emit t []).length) := by
  have he := emit_eq t []
  simp only [List.nil_append, List.length_nil] at he
  rw [he] at h ⊢
  have key : ∀ (t : Tree) (base i : Nat) (b : Branch), (flatten base t)[i]? = some b →
      (b.left = -8 ∨ ((base + i : Nat) : Int) < b.left ∧ b.left < (base + t.size : Nat)) ∧
        (b.right = -8 ∨ ((base + i : Nat) : Int) < b.right ∧ b.right < (base + t.size : Nat)) := by
    intro t
    induction t with
    | leaf => intro base i b h; simp [flatten] at h
    | node s l r ihl ihr =>
      intro base i b h
      have hpos : ∀ t : Tree, t ≠ .leaf → 0 < t.size := by
        intro t ht
        cases t with
        | leaf => exact absurd rfl ht
        | node => simp only [Tree.size]; omega
      cases i with
      | zero =>
        simp only [flatten, List.getElem?_cons_zero, Option.some.injEq] at h
        subst h
        constructor
        · by_cases hl : l = .leaf
          · exact Or.inl (if_pos hl)
          · have := hpos l hl
            right
            simp only [if_neg hl, Tree.size]
            omega
        · by_cases hr : r = .leaf
          · exact Or.inl (if_pos hr)
          · have := hpos r hr
            right
            simp only [if_neg hr, Tree.size]
            omega
      | succ i =>
        simp only [flatten, List.getElem?_cons_succ] at h
        rw [List.getElem?_append] at h
        simp only [Tree.size]
        split at h
        · have := ihl _ _ _ h
          rw [flatten_length] at *
          constructor
          · rcases this.1 with h | h
            · exact Or.inl h
            · right; omega
          · rcases this.2 with h | h
            · exact Or.inl h
            · right; omega
        · rename_i hlt
          have := ihr _ _ _ h
          rw [flatten_length] at *
          constructor
          · rcases this.1 with h | h
            · exact Or.inl h
            · right; omega
          · rcases this.2 with h | h
            · exact Or.inl h
            · right; omega
  have := key t 0 i b h
  rw [flatten_length]
  simpa using this

end Verif.Dag
