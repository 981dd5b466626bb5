import Verif.TGrid.Steps
import Mathlib.Tactic.NormNum
/-!
# C133: a gridded current at any time is interpolated from its records, whatever was asked for before
-/
namespace Verif.TGrid

/-! ## Specification -/

/-- The value at `t` of a series of records: linear between two records that follow each other, constant before the first and after the
last. -/
inductive IsValue (recs : List Rec) (t : Int) : ℚ → Prop
  | between (a b : Rec) (h : [a, b] <:+: recs) (h1 : a.1 ≤ t) (h2 : t ≤ b.1) (v : ℚ)
      (hv : v * (b.1 - a.1) = a.2 * (b.1 - t) + b.2 * (t - a.1)) : IsValue recs t v
  | first (a : Rec) (h : recs.head? = some a) (h1 : t ≤ a.1) : IsValue recs t a.2
  | last (a : Rec) (h : recs.getLast? = some a) (h1 : a.1 ≤ t) : IsValue recs t a.2

/-- not before the first record nor after the last -/
def Inside (recs : List Rec) (t : Int) : Prop := ∃ r s, recs.head? = some r ∧ recs.getLast? = some s ∧ r.1 ≤ t ∧ t ≤ s.1

/-- A time is answered if extrapolation is allowed, or if there is but one record (a current that is constant), or if it is inside. -/
def Answered (recs : List Rec) (q : Int × Bool) : Prop := q.2 = true ∨ recs.length = 1 ∨ Inside recs q.1

/-- the right answer to a query -/
def Right (fs : List File) (q : Int × Bool) (v : Option ℚ) : Prop :=
  (Answered fs.flatten q → ∃ x, v = some x ∧ IsValue fs.flatten q.1 x) ∧ (¬ Answered fs.flatten q → v = none)

/-- The claim: every query of any sequence is answered right. -/
def C133_claim : Prop := ∀ fs : List File, Ordered fs → ∀ qs : List (Int × Bool), List.Forall₂ (Right fs) qs (asks fs {} qs)

/-- Which queries may follow each other: of one file, all but from before the first of
several records to after the last or back; of several, there is
at most one record from one time to the next, and if times go backwards all files have three records or more. -/
def Hop (fs : List File) (t0 t : Int) : Prop :=
  (fs.length = 1 → fs.flatten.length ≠ 1 → ∀ r s, fs.flatten.head? = some r → fs.flatten.getLast? = some s → ¬ (t0 < r.1 ∧ s.1 < t) ∧ ¬ (s.1 < t0 ∧ t < r.1)) ∧
  (fs.length ≠ 1 → Near fs t0 t ∧ (t0 ≤ t ∨ ∀ f ∈ fs, 3 ≤ f.length))

/-! ## The specification determines the value -/

theorem index_of_infix {α : Type} {l : List α} {x y : α} (h : [x, y] <:+: l) : ∃ i : Nat, l[i]? = some x ∧ l[i + 1]? = some y := by
  obtain ⟨a, b, rfl⟩ := h
  exact ⟨a.length, by simp, by simp⟩

theorem value_unique {recs : List Rec} (hs : (recs.map Prod.fst).Pairwise (· < ·)) {t : Int} {v w : ℚ} (hv : IsValue recs t v)
    (hw : IsValue recs t w) : v = w := by
  have lt : ∀ {i j : Nat} {r s : Rec}, recs[i]? = some r → recs[j]? = some s → i < j → r.1 < s.1 := by
    intro i j r s hr hs' hij
    have := hs.sublist ((sublist_of_index hij hr hs').map Prod.fst)
    simp only [List.map_cons, List.map_nil, List.pairwise_cons, List.mem_singleton, forall_eq] at this
    exact this.1
  have le : ∀ {i j : Nat} {r s : Rec}, recs[i]? = some r → recs[j]? = some s → i ≤ j → r.1 ≤ s.1 := by
    intro i j r s hr hs' hij
    rcases Nat.lt_or_ge i j with h | h
    · exact (lt hr hs' h).le
    · have : i = j := by omega
      subst this
      rw [hr] at hs'; cases hs'; exact le_refl _
  have at_left : ∀ {a b : Rec} {v : ℚ}, a.1 < b.1 → t = a.1 → v * (b.1 - a.1) = a.2 * (b.1 - t) + b.2 * (t - a.1) → v = a.2 := by
    intro a b v hab ht he
    have hne : ((b.1 : ℚ) - a.1) ≠ 0 := by
      have : (a.1 : ℚ) < b.1 := by exact_mod_cast hab
      exact (sub_pos.mpr this).ne'
    rw [ht] at he
    have : v * ((b.1 : ℚ) - a.1) = a.2 * (b.1 - a.1) := by linarith
    exact mul_right_cancel₀ hne this
  have at_right : ∀ {a b : Rec} {v : ℚ}, a.1 < b.1 → t = b.1 → v * (b.1 - a.1) = a.2 * (b.1 - t) + b.2 * (t - a.1) → v = b.2 := by
    intro a b v hab ht he
    have hne : ((b.1 : ℚ) - a.1) ≠ 0 := by
      have : (a.1 : ℚ) < b.1 := by exact_mod_cast hab
      exact (sub_pos.mpr this).ne'
    rw [ht] at he
    have : v * ((b.1 : ℚ) - a.1) = b.2 * (b.1 - a.1) := by linarith
    exact mul_right_cancel₀ hne this
  have bb : ∀ {a b c d : Rec} {v w : ℚ} {i j : Nat}, recs[i]? = some a → recs[i + 1]? = some b → recs[j]? = some c → recs[j + 1]? = some d →
      i < j → t ≤ b.1 → c.1 ≤ t → v * (b.1 - a.1) = a.2 * (b.1 - t) + b.2 * (t - a.1) →
      w * (d.1 - c.1) = c.2 * (d.1 - t) + d.2 * (t - c.1) → v = w := by
    intro a b c d v w i j ha hb hc hd hij h2 h3 hv hw
    have hbc := le hb hc (by omega)
    have hab := lt ha hb (by omega)
    have hcd := lt hc hd (by omega)
    have e : j = i + 1 := by
      by_contra hne
      have := lt hb hc (by omega)
      omega
    subst e
    rw [hb] at hc; cases hc
    rw [at_right hab (by omega) hv, at_left hcd (by omega) hw]
  have bf : ∀ {a b c : Rec} {v : ℚ} {i : Nat}, recs[i]? = some a → recs[i + 1]? = some b → recs.head? = some c → a.1 ≤ t → t ≤ c.1 →
      v * (b.1 - a.1) = a.2 * (b.1 - t) + b.2 * (t - a.1) → v = c.2 := by
    intro a b c v i ha hb hc h1 h2 hv
    rw [List.head?_eq_getElem?] at hc
    have hca := le hc ha (by omega)
    have hab := lt ha hb (by omega)
    have e : i = 0 := by
      by_contra hne
      have := lt hc ha (by omega)
      omega
    subst e
    rw [ha] at hc; cases hc
    exact at_left hab (by omega) hv
  have bl : ∀ {a b c : Rec} {v : ℚ} {i : Nat}, recs[i]? = some a → recs[i + 1]? = some b → recs.getLast? = some c → t ≤ b.1 → c.1 ≤ t →
      v * (b.1 - a.1) = a.2 * (b.1 - t) + b.2 * (t - a.1) → v = c.2 := by
    intro a b c v i ha hb hc h1 h2 hv
    rw [List.getLast?_eq_getElem?] at hc
    have hlt : i + 1 < recs.length := (List.getElem?_eq_some_iff.mp hb).1
    have hbc := le hb hc (by omega)
    have hab := lt ha hb (by omega)
    have e : recs.length - 1 = i + 1 := by
      by_contra hne
      have := lt hb hc (by omega)
      omega
    rw [e, hb] at hc; cases hc
    exact at_right hab (by omega) hv
  have fl : ∀ {a b : Rec}, recs.head? = some a → recs.getLast? = some b → t ≤ a.1 → b.1 ≤ t → a = b := by
    intro a b ha hb h1 h2
    rw [List.head?_eq_getElem?] at ha
    rw [List.getLast?_eq_getElem?] at hb
    by_cases e : recs.length - 1 = 0
    · rw [e, ha] at hb; exact Option.some.inj hb
    · have := lt ha hb (by omega); omega
  cases hv with
  | between a b hi h1 h2 _ hv =>
    obtain ⟨i, ha, hb⟩ := index_of_infix hi
    cases hw with
    | between c d hj h3 h4 _ hw =>
      obtain ⟨j, hc, hd⟩ := index_of_infix hj
      rcases Nat.lt_trichotomy i j with hij | rfl | hij
      · exact bb ha hb hc hd hij h2 h3 hv hw
      · rw [ha] at hc; rw [hb] at hd; cases hc; cases hd
        have hab := lt ha hb (by omega)
        have hne : ((b.1 : ℚ) - a.1) ≠ 0 := by
          have : (a.1 : ℚ) < b.1 := by exact_mod_cast hab
          exact (sub_pos.mpr this).ne'
        exact mul_right_cancel₀ hne (hv.trans hw.symm)
      · exact (bb hc hd ha hb hij h4 h1 hw hv).symm
    | first c hc h3 => exact bf ha hb hc h1 h3 hv
    | last c hc h3 => exact bl ha hb hc h2 h3 hv
  | first a ha h1 =>
    cases hw with
    | between c d hj h3 h4 _ hw =>
      obtain ⟨j, hc, hd⟩ := index_of_infix hj
      exact (bf hc hd ha h3 h1 hw).symm
    | first c hc h3 => rw [ha] at hc; cases hc; rfl
    | last c hc h3 => rw [fl ha hc h1 h3]
  | last a ha h1 =>
    cases hw with
    | between c d hj h3 h4 _ hw =>
      obtain ⟨j, hc, hd⟩ := index_of_infix hj
      exact (bl hc hd ha h4 h1 hw).symm
    | first c hc h3 => rw [fl hc ha h3 h1]
    | last c hc h3 => rw [ha] at hc; cases hc; rfl

/-! ## The theorem -/

variable {fs : List File}

/-- loaded data for a time give its value -/
theorem good_value (ho : Ordered fs) {ext : Bool} {st : St} {t : Int} (h : Good fs t st)
    (he : ext = true ∨ (fs.length = 1 ∧ (fileAt fs 0).length = 1) ∨ Inside fs.flatten t) :
    ∃ x, value fs false 0 ext st t = some x ∧ IsValue fs.flatten t x := by
  have lin : ∀ {r s : Rec}, r.1 < s.1 → ∀ v, v = (((s.1 - t : Int) : ℚ) / ((s.1 - r.1 : Int) : ℚ)) * r.2 + (1 - ((s.1 - t : Int) : ℚ) / ((s.1 - r.1 : Int) : ℚ)) * s.2 →
      v * (s.1 - r.1) = r.2 * (s.1 - t) + s.2 * (t - r.1) := by
    intro r s hlt v hv
    have hne : ((s.1 : ℚ) - r.1) ≠ 0 := by
      have : (r.1 : ℚ) < s.1 := by exact_mod_cast hlt
      exact (sub_pos.mpr this).ne'
    rw [hv]
    push_cast
    field_simp
    ring
  have h0 := ho.pos
  obtain ⟨r0, hr0⟩ := ho.first h0
  obtain ⟨s0, hs0⟩ := ho.last (i := fs.length - 1) (by omega)
  cases h with
  | both c k r s o hr hs h1 h2 =>
    have hlt := ho.lt hr hs (Or.inr ⟨rfl, by omega⟩)
    have hn := hs.lt
    unfold value
    dsimp only
    rw [if_neg (by simp only [reduceCtorEq, false_and, or_false]; omega)]
    simp only [Bool.false_eq_true, false_and, and_false, if_false, Option.bind_some, hr.time, hs.time]
    exact ⟨_, rfl, IsValue.between r s (infix_in hr hs) h1 h2 _ (lin hlt _ rfl)⟩
  | gap c r s hr hs h1 h2 =>
    have hlt := ho.lt hr hs (Or.inl (by omega))
    have hn := hs.lt_files
    unfold value
    dsimp only
    rw [if_neg (by simp only [reduceCtorEq, false_and, or_false]; omega)]
    simp only [and_self, and_true, Option.bind_some, hs.time]
    rw [if_pos (by omega)]
    exact ⟨_, rfl, IsValue.between r s (infix_gap hr hs) h1 h2 _ (lin hlt _ rfl)⟩
  | before r o hr h1 =>
    refine ⟨r.2, ?_, IsValue.first r (head_of ho hr) h1.le⟩
    unfold value
    dsimp only
    rw [if_pos]
    rcases he with he | he | ⟨a, b, ha, hb, h3, h4⟩
    · right
      simp only [Option.bind_some, hr.time, lt?_some, decide_eq_true_eq, he, true_and]
      exact Or.inr h1
    · exact Or.inl ⟨he.2, by omega⟩
    · rw [head_of ho hr] at ha; cases ha; omega
  | after r o hr h1 =>
    refine ⟨r.2, ?_, IsValue.last r (last_of ho hr) h1.le⟩
    unfold value
    dsimp only
    rw [if_pos]
    rcases he with he | he | ⟨a, b, ha, hb, h3, h4⟩
    · right
      simp only [Option.bind_some, hr.time, lt?_some, decide_eq_true_eq, he, true_and]
      exact Or.inl h1
    · refine Or.inl ⟨?_, by omega⟩
      rw [show fs.length - 1 = 0 by omega]; exact he.2
    · rw [last_of ho hr] at hb; cases hb; omega
  | const r o hr h1 h2 =>
    refine ⟨r.2, ?_, ?_⟩
    · unfold value
      dsimp only
      rw [if_pos (Or.inl ⟨h2, by omega⟩)]
    · rcases Int.le_total t r.1 with h | h
      · exact IsValue.first r (head_of ho hr) h
      · have hl := hs0
        rw [show fs.length - 1 = 0 by omega, h2] at hl
        have e := hl.unique hr
        subst e
        exact IsValue.last s0 (last_of ho hs0) h

theorem one_record (ho : Ordered fs) : fs.flatten.length = 1 ↔ (fs.length = 1 ∧ (fileAt fs 0).length = 1) := by
  have h0 := ho.pos
  have hl := ho.len h0
  have e := flatten_split h0
  rw [← At.file h0] at e
  have e2 : fs.flatten.length = (fileAt fs 0).length + (fs.drop 1).flatten.length := by
    conv_lhs => rw [e]
    simp
  constructor
  · intro h
    have hd : (fs.drop 1).flatten.length = 0 := by omega
    refine ⟨?_, by omega⟩
    by_contra hne
    have h1 : 1 < fs.length := by omega
    obtain ⟨r, hr⟩ := ho.first h1
    have hm : fs[1] ∈ fs.drop 1 := List.mem_drop_iff_getElem.mpr ⟨0, by omega, rfl⟩
    have hlen := ho.len h1
    rw [At.file h1] at hlen
    have hx : fs[1][0] ∈ (fs.drop 1).flatten := List.mem_flatten.mpr ⟨_, hm, List.getElem_mem hlen⟩
    rw [List.length_eq_zero_iff.mp hd] at hx
    cases hx
  · rintro ⟨h1, h2⟩
    rw [e2, h2, List.drop_eq_nil_of_le (by omega)]
    rfl

/-- one query -/
theorem ask_right (ho : Ordered fs) (st : St) (q : Int × Bool) (h : Blank fs st ∨ ∃ t0, Good fs t0 st ∧ Hop fs t0 q.1) :
    Right fs q (ask fs st q).2 ∧ (Blank fs (ask fs st q).1 ∨ Good fs q.1 (ask fs st q).1) := by
  have hout : Outcome fs q.2 q.1 (setInterval fs q.2 st q.1) := by
    by_cases hm : fs.length = 1
    · refine step_one ho hm q.2 st q.1 ?_
      rcases h with h | ⟨t0, hg, hh⟩
      exacts [Or.inl h, Or.inr ⟨t0, hg, fun h1 => hh.1 hm (fun h2 => h1 ((one_record ho).mp h2).2)⟩]
    · refine step_multi ho (by have := ho.pos; omega) q.2 st q.1 ?_
      rcases h with h | ⟨t0, hg, hh⟩
      exacts [Or.inl h, Or.inr ⟨t0, hg, hh.2 hm⟩]
  unfold ask
  dsimp only
  generalize setInterval fs q.2 st q.1 = out at hout
  rcases hout with ⟨h1, h2, h3⟩ | ⟨h1, h2, h3, h4, r, s, hr, hs, hlt⟩
  · rw [if_pos h1]
    refine ⟨⟨fun _ => ?_, fun hn => ?_⟩, Or.inr h2⟩
    · exact good_value ho h2 h3
    · exfalso
      apply hn
      rcases h3 with h3 | h3 | h3
      · exact Or.inl h3
      · exact Or.inr (Or.inl ((one_record ho).mpr h3))
      · exact Or.inr (Or.inr h3)
  · rw [if_neg (by simp [h1])]
    refine ⟨⟨fun ha => ?_, fun _ => rfl⟩, Or.inl h2⟩
    exfalso
    rcases ha with ha | ha | ⟨a, b, ha, hb, h5, h6⟩
    · rw [h3] at ha; cases ha
    · exact h4 ((one_record ho).mp ha)
    · rw [hr] at ha; rw [hs] at hb; cases ha; cases hb
      omega

/-- **C133**, for the sequences of queries of `Hop`: each is answered by the value of the records of all files at that time, or refused
when that is outside of them, extrapolation is not allowed and the current is not constant. -/
theorem C133_partial (ho : Ordered fs) (qs : List (Int × Bool)) (hq : qs.IsChain (fun p q => Hop fs p.1 q.1)) :
    List.Forall₂ (Right fs) qs (asks fs {} qs) := by
  have key : ∀ (qs : List (Int × Bool)) (st : St), qs.IsChain (fun p q => Hop fs p.1 q.1) →
      (Blank fs st ∨ ∃ t0, Good fs t0 st ∧ ∀ q, qs.head? = some q → Hop fs t0 q.1) → List.Forall₂ (Right fs) qs (asks fs st qs) := by
    intro qs
    induction qs with
    | nil => intro st _ _; exact List.Forall₂.nil
    | cons q qs ih =>
      intro st hc h
      have h' : Blank fs st ∨ ∃ t0, Good fs t0 st ∧ Hop fs t0 q.1 := by
        rcases h with h | ⟨t0, hg, hh⟩
        exacts [Or.inl h, Or.inr ⟨t0, hg, hh q rfl⟩]
      obtain ⟨h1, h2⟩ := ask_right ho st q h'
      refine List.Forall₂.cons h1 (ih _ ?_ ?_)
      · cases qs with
        | nil => exact List.IsChain.nil
        | cons p qs => exact (List.isChain_cons_cons.mp hc).2
      · rcases h2 with h2 | h2
        · exact Or.inl h2
        · refine Or.inr ⟨q.1, h2, fun p hp => ?_⟩
          cases qs with
          | nil => cases hp
          | cons p' qs => cases hp; exact (List.isChain_cons_cons.mp hc).1
  exact key qs {} hq (Or.inl ⟨rfl, rfl, rfl, ho.pos⟩)

/-- **C133** for a single file without extrapolation: in full, whatever the order of the queries. -/
theorem C133_one_file {f : File} (ho : Ordered [f]) (qs : List (Int × Bool)) (hq : ∀ q ∈ qs, q.2 = false) :
    List.Forall₂ (Right [f]) qs (asks [f] {} qs) := by
  have key : ∀ (qs : List (Int × Bool)) (st : St), (∀ q ∈ qs, q.2 = false) →
      (Blank [f] st ∨ ∃ t0, Good [f] t0 st ∧ (f.length = 1 ∨ Inside [f].flatten t0)) → List.Forall₂ (Right [f]) qs (asks [f] st qs) := by
    intro qs
    induction qs with
    | nil => intro st _ _; exact List.Forall₂.nil
    | cons q qs ih =>
      intro st hc h
      have hqf := hc q (by simp)
      have hhop : ∀ t0, (f.length = 1 ∨ Inside [f].flatten t0) → Hop [f] t0 q.1 := by
        intro t0 hi
        refine ⟨fun _ hne r s hr hs => ?_, fun hn => absurd rfl hn⟩
        rcases hi with hi | ⟨a, b, ha, hb, h1, h2⟩
        · exact absurd (by simpa using hi) hne
        · rw [hr] at ha; rw [hs] at hb; cases ha; cases hb
          omega
      have h' : Blank [f] st ∨ ∃ t0, Good [f] t0 st ∧ Hop [f] t0 q.1 := by
        rcases h with h | ⟨t0, hg, hh⟩
        exacts [Or.inl h, Or.inr ⟨t0, hg, hhop t0 hh⟩]
      obtain ⟨h1, h2⟩ := ask_right ho st q h'
      refine List.Forall₂.cons h1 (ih _ (fun p hp => hc p (by simp [hp])) ?_)
      rcases h2 with h2 | h2
      · exact Or.inl h2
      · by_cases ha : Answered [f].flatten q
        · right
          refine ⟨q.1, h2, ?_⟩
          rcases ha with ha | ha | ha
          · rw [hqf] at ha; cases ha
          · left; simpa using ha
          · exact Or.inr ha
        · -- refused: nothing is loaded
          left
          have hn := h1.2 ha
          have hout : Outcome [f] q.2 q.1 (setInterval [f] q.2 st q.1) := by
            refine step_one ho rfl q.2 st q.1 ?_
            rcases h' with h' | ⟨t0, hg, hh⟩
            exacts [Or.inl h', Or.inr ⟨t0, hg, fun h1 => hh.1 rfl (fun h2 => h1 ((one_record ho).mp h2).2)⟩]
          rcases hout with ⟨_, _, h3⟩ | ⟨_, h3, _⟩
          · exfalso
            apply ha
            rcases h3 with h3 | h3 | h3
            exacts [Or.inl h3, Or.inr (Or.inl ((one_record ho).mpr h3)), Or.inr (Or.inr h3)]
          · exact h3
  exact key qs {} hq (Or.inl ⟨rfl, rfl, rfl, by simp⟩)

/-! ## Cases, and what goes wrong otherwise -/

def twoFiles : List File := [[(0, 1), (10, 2)], [(20, 3), (30, 4)]]

theorem twoFiles_ordered : Ordered twoFiles := ⟨by decide, by decide, by decide⟩

/-- forwards through both files and the gap between them -/
example : List.Forall₂ (Right twoFiles) [(4, false), (9, false), (15, false), (24, false), (35, false), (40, true)]
    (asks twoFiles {} [(4, false), (9, false), (15, false), (24, false), (35, false), (40, true)]) := by
  refine C133_partial twoFiles_ordered _ ?_
  have h : ∀ t0 t : Int, t0 ≤ t → Near twoFiles t0 t → Hop twoFiles t0 t := fun t0 t h1 h2 => ⟨fun h => by simp [twoFiles] at h, fun _ => ⟨h2, Or.inl h1⟩⟩
  refine List.isChain_cons_cons.mpr ⟨h _ _ (by norm_num) ?_, List.isChain_cons_cons.mpr ⟨h _ _ (by norm_num) ?_,
    List.isChain_cons_cons.mpr ⟨h _ _ (by norm_num) ?_, List.isChain_cons_cons.mpr ⟨h _ _ (by norm_num) ?_,
    List.isChain_cons_cons.mpr ⟨h _ _ (by norm_num) ?_, List.IsChain.singleton _⟩⟩⟩⟩⟩ <;>
  · intro r hr s hs
    simp only [twoFiles, List.flatten_cons, List.flatten_nil, List.append_nil, List.cons_append, List.nil_append, List.mem_cons,
      List.not_mem_nil, or_false] at hr hs
    rcases hr with rfl | rfl | rfl | rfl <;> rcases hs with rfl | rfl | rfl | rfl <;> simp [Between]

example : asks twoFiles {} [(5, false), (15, false), (25, false), (35, false)] = [some (3/2), some (5/2), some (7/2), none] := by
  decide +kernel

/-- At 5 again after 15, as for the second element of a step of a fourth order Runge-Kutta from 5 to 15: the data at 20 is taken for
that at 0, as both have the index 0 in their file. -/
theorem C133_counterexample : ¬ C133_claim := by
  intro h
  have h1 := h twoFiles twoFiles_ordered [(5, false), (15, false), (5, false)]
  have e : asks twoFiles {} [(5, false), (15, false), (5, false)] = [some (3/2), some (5/2), some (5/2)] := by decide +kernel
  rw [e] at h1
  cases h1 with
  | cons _ h1 => cases h1 with
    | cons _ h1 => cases h1 with
      | cons h1 _ =>
        obtain ⟨x, hx, hv⟩ := h1.1 (Or.inr (Or.inr ⟨(0, 1), (30, 4), rfl, rfl, by norm_num, by norm_num⟩))
        cases hx
        have := value_unique (v := 3/2) twoFiles_ordered.sorted
          (IsValue.between (0, 1) (10, 2) ⟨[], [(20, 3), (30, 4)], rfl⟩ (by norm_num) (by norm_num) _ (by norm_num)) hv
        norm_num at this

/-- One file with extrapolation: from after its end to before its start, as when a run that outlasts the data is made again: the last
record is used for times before the first. -/
theorem C133_counterexample_ends : ¬ C133_claim := by
  intro h
  have ho : Ordered [[(0, 1), (10, 2)]] := ⟨by decide, by decide, by decide⟩
  have h1 := h [[(0, 1), (10, 2)]] ho [(15, true), (-5, true)]
  have e : asks [[(0, 1), (10, 2)]] {} [(15, true), (-5, true)] = [some 2, some 2] := by decide +kernel
  rw [e] at h1
  cases h1 with
  | cons _ h1 => cases h1 with
    | cons h1 _ =>
      obtain ⟨x, hx, hv⟩ := h1.1 (Or.inl rfl)
      cases hx
      have := value_unique ho.sorted (IsValue.first (0, 1) rfl (by norm_num)) hv
      norm_num at this

/-! ## Data on the nodes of a curvilinear grid -/

/-- The claim for data on nodes: the value is the same as for data on cells, whatever the time shift. -/
def C133_claim_nodes : Prop := ∀ fs : List File, Ordered fs → ∀ (st : St) (t shift : Int) (ext : Bool), Good fs t st →
  value fs true shift ext st t = value fs false shift ext st t

/-- **C133** for data on nodes: only without a time shift, and not between files. -/
theorem C133_nodes_partial {st : St} {t : Int} {ext : Bool} (h : st.over = false) : value fs true 0 ext st t = value fs false 0 ext st t := by
  unfold value
  simp [h]

/-- the data of a file in another time zone: at the time of the first record, the value of the second is used -/
theorem C133_counterexample_nodes : ¬ C133_claim_nodes := by
  intro h
  have ho : Ordered [[(0, 1), (3600, 2)]] := ⟨by decide, by decide, by decide⟩
  have := h _ ho ⟨0, ⟨some 0, some 1⟩, ⟨some 1, some 2⟩, false, 0⟩ 0 3600 false (Good.both 0 0 (0, 1) (3600, 2) 0 rfl rfl (by norm_num) (by norm_num))
  revert this
  decide +kernel

/-- and between two files there is no start time to read -/
theorem C133_counterexample_nodes_gap : ¬ C133_claim_nodes := by
  intro h
  have := h _ twoFiles_ordered ⟨1, ⟨none, some 2⟩, ⟨some 0, some 3⟩, true, 10⟩ 15 0 false
    (Good.gap 0 (10, 2) (20, 3) rfl rfl (by norm_num) (by norm_num))
  revert this
  decide +kernel

end Verif.TGrid
