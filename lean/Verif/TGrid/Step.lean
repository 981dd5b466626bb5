import Verif.TGrid.Lemmas
/-!
# One query: what is loaded afterwards
-/
namespace Verif.TGrid

variable {fs : List File}

def off (fs : List File) (st : St) : St := if 1 < fs.length then { st with over := false } else st

/-- the time is between the two files of an overlap that is loaded -/
def InOver (fs : List File) (st : St) (t : Int) : Prop :=
  1 < fs.length ∧ st.over = true ∧ st.overStart ≤ t ∧ le? (some t) (st.fin.idx.bind (timeAt (fileAt fs st.cur))) = true

/-- what `CheckInterval` finds, of a current that is not constant -/
inductive CI (fs : List File) (ext : Bool) (st : St) (t : Int) (iv : Int) : St × Bool × Int → Prop
  | both (a b : Nat) (x y : Rec) (ha : st.start.idx = some a) (hb : st.fin.idx = some b) (hx : At fs st.cur a x) (hy : At fs st.cur b y)
      (h1 : x.1 ≤ t) (h2 : t ≤ y.1) : CI fs ext st t iv (st, true, b)
  | over (h : InOver fs st t) : CI fs ext st t iv (st, true, iv)
  | found (i : Nat) (hn : ¬ InOver fs st t) (h : findIv (fileAt fs st.cur) t = some i) : CI fs ext st t iv (off fs st, false, i + 1)
  | below (r : Rec) (l : Bool) (hn : ¬ InOver fs st t) (hr : At fs st.cur 0 r) (h : t < r.1)
      (hl : l = true ↔ (some r.1 = startTime fs 0 ∧ ext = true ∧ st.fin.idx = none ∧ st.start.idx ≠ none)) :
      CI fs ext st t iv (off fs st, l, 0)
  | above (r : Rec) (l : Bool) (hn : ¬ InOver fs st t) (hr : At fs st.cur ((fileAt fs st.cur).length - 1) r) (h : r.1 < t)
      (hl : l = true ↔ (some r.1 = endTime fs (fs.length - 1) ∧ ext = true ∧ st.fin.idx = none ∧ st.start.idx ≠ none)) :
      CI fs ext st t iv (off fs st, l, (fileAt fs st.cur).length)
  | single (r : Rec) (hn : ¬ InOver fs st t) (h1 : (fileAt fs st.cur).length = 1) (hr : At fs st.cur 0 r) (h : t = r.1) :
      CI fs ext st t iv (off fs st, false, iv)

theorem ci (ho : Ordered fs) (ext : Bool) (st : St) (t iv : Int) (hc : st.cur < fs.length)
    (hk : ¬ ((fileAt fs st.cur).length = 1 ∧ ¬ 1 < fs.length)) : CI fs ext st t iv (checkInterval fs ext st t iv) := by
  have hpos := ho.len hc
  obtain ⟨r, hr⟩ := ho.first hc
  obtain ⟨s, hs⟩ := ho.last hc
  unfold checkInterval
  dsimp only
  rw [if_neg (by omega), if_neg hk]
  split
  · rename_i b hb
    split at hb
    · rename_i a b' ha hb'
      split at hb
      · rename_i hle
        cases hb
        simp only [Bool.and_eq_true] at hle
        obtain ⟨x, y, hx, hy, hxy⟩ := le?_iff.mp hle.1
        obtain ⟨x', y', hx', hy', hxy'⟩ := le?_iff.mp hle.2
        obtain ⟨r, hr, rfl⟩ := At.of_time hx
        obtain ⟨s, hs, rfl⟩ := At.of_time hy'
        cases hy; cases hx'
        exact CI.both a _ r s ha hb' hr hs hxy hxy'
      · cases hb
    · cases hb
  · split
    · rename_i h
      exact CI.over h
    · rename_i hn
      have hn' : ¬ InOver fs st t := hn
      have e : (if 1 < fs.length then { st with over := false } else st) = off fs st := rfl
      rw [e]
      split
      · rename_i i hi
        exact CI.found i hn' hi
      · rename_i hnone
        rw [hr.time, hs.time]
        have hsi : (off fs st).start = st.start := by unfold off; split <;> rfl
        have hfi : (off fs st).fin = st.fin := by unfold off; split <;> rfl
        rcases findIv_none hnone hr hs with hlt | hgt | h1
        · rw [if_pos (by simpa using hlt)]
          split
          · rename_i hne
            refine CI.below r false hn' hr hlt ⟨fun h => by simp at h, fun h => absurd (eq?_iff.mpr ⟨r.1, rfl, h.1.symm⟩) hne⟩
          · rename_i heq
            refine CI.below r _ hn' hr hlt ?_
            rw [hsi, hfi]
            have heq' : eq? (some r.1) (startTime fs 0) = true := by simpa using heq
            obtain ⟨x, hx, hx'⟩ := eq?_iff.mp heq'
            cases hx
            rw [hx']
            cases ext <;> cases st.fin.idx <;> cases st.start.idx <;> simp
        · have hrs := ho.le hr hs (Or.inr ⟨rfl, by omega⟩)
          rw [if_neg (by simp; omega), if_pos (by simpa using hgt)]
          split
          · rename_i hne
            refine CI.above s false hn' hs hgt ⟨fun h => by simp at h, fun h => absurd (eq?_iff.mpr ⟨s.1, rfl, h.1.symm⟩) hne⟩
          · rename_i heq
            refine CI.above s _ hn' hs hgt ?_
            rw [hsi, hfi]
            have heq' : eq? (some s.1) (endTime fs (fs.length - 1)) = true := by simpa using heq
            obtain ⟨x, hx, hx'⟩ := eq?_iff.mp heq'
            cases hx
            rw [hx']
            cases ext <;> cases st.fin.idx <;> cases st.start.idx <;> simp
        · have hrs : r = s := by
            have hs' := hs; rw [h1] at hs'; exact hr.unique hs'
          subst hrs
          rcases lt_trichotomy t r.1 with hlt | heq | hgt
          · rw [if_pos (by simpa using hlt)]
            split
            · rename_i hne
              refine CI.below r false hn' hr hlt ⟨fun h => by simp at h, fun h => absurd (eq?_iff.mpr ⟨r.1, rfl, h.1.symm⟩) hne⟩
            · rename_i heq
              refine CI.below r _ hn' hr hlt ?_
              rw [hsi, hfi]
              have heq' : eq? (some r.1) (startTime fs 0) = true := by simpa using heq
              obtain ⟨x, hx, hx'⟩ := eq?_iff.mp heq'
              cases hx
              rw [hx']
              cases ext <;> cases st.fin.idx <;> cases st.start.idx <;> simp
          · rw [if_neg (by simp; omega), if_neg (by simp; omega)]
            exact CI.single r hn' h1 hr heq
          · rw [if_neg (by simp; omega), if_pos (by simpa using hgt)]
            split
            · rename_i hne
              refine CI.above r false hn' hs hgt ⟨fun h => by simp at h, fun h => absurd (eq?_iff.mpr ⟨r.1, rfl, h.1.symm⟩) hne⟩
            · rename_i heq
              refine CI.above r _ hn' hs hgt ?_
              rw [hsi, hfi]
              have heq' : eq? (some r.1) (endTime fs (fs.length - 1)) = true := by simpa using heq
              obtain ⟨x, hx, hx'⟩ := eq?_iff.mp heq'
              cases hx
              rw [hx']
              cases ext <;> cases st.fin.idx <;> cases st.start.idx <;> simp

/-- The data for time `t` are loaded: the two records around it, in one file or in two; the first or the last alone before or after all;
the only one. -/
inductive Good (fs : List File) (t : Int) : St → Prop
  | both (c k : Nat) (r s : Rec) (o : Int) (hr : At fs c k r) (hs : At fs c (k + 1) s) (h1 : r.1 ≤ t) (h2 : t ≤ s.1) :
      Good fs t ⟨c, ⟨some k, some r.2⟩, ⟨some (k + 1), some s.2⟩, false, o⟩
  | gap (c : Nat) (r s : Rec) (hr : At fs c ((fileAt fs c).length - 1) r) (hs : At fs (c + 1) 0 s) (h1 : r.1 ≤ t) (h2 : t ≤ s.1) :
      Good fs t ⟨c + 1, ⟨none, some r.2⟩, ⟨some 0, some s.2⟩, true, r.1⟩
  | before (r : Rec) (o : Int) (hr : At fs 0 0 r) (h : t < r.1) : Good fs t ⟨0, ⟨some 0, some r.2⟩, {}, false, o⟩
  | after (r : Rec) (o : Int) (hr : At fs (fs.length - 1) ((fileAt fs (fs.length - 1)).length - 1) r) (h : r.1 < t) :
      Good fs t ⟨fs.length - 1, ⟨some ((fileAt fs (fs.length - 1)).length - 1), some r.2⟩, {}, false, o⟩
  | const (r : Rec) (o : Int) (hr : At fs 0 0 r) (h1 : fs.length = 1) (h2 : (fileAt fs 0).length = 1) :
      Good fs t ⟨0, ⟨some 0, some r.2⟩, {}, false, o⟩

/-- nothing is loaded -/
def Blank (fs : List File) (st : St) : Prop := st.start = {} ∧ st.fin = {} ∧ st.over = false ∧ st.cur < fs.length

def Inv (fs : List File) (st : St) : Prop := Blank fs st ∨ ∃ t, Good fs t st

theorem Inv.cur_lt (ho : Ordered fs) {st : St} (h : Inv fs st) : st.cur < fs.length := by
  rcases h with h | ⟨t, h⟩
  · exact h.2.2.2
  · have := ho.pos
    cases h with
    | both c k r s o hr => exact hr.lt_files
    | gap c r s hr hs => exact hs.lt_files
    | before => exact this
    | after => show fs.length - 1 < fs.length; omega
    | const => exact this

/-- the end data, if any, is of the current file -/
theorem Inv.fin_ok {st : St} (h : Inv fs st) {b : Nat} (hb : st.fin.idx = some b) : ∃ s, At fs st.cur b s ∧ st.fin.data = some s.2 := by
  rcases h with h | ⟨t, h⟩
  · rw [h.2.1] at hb; cases hb
  · cases h with
    | both c k r s o hr hs => cases hb; exact ⟨s, hs, rfl⟩
    | gap c r s hr hs => cases hb; exact ⟨s, hs, rfl⟩
    | before => cases hb
    | after => cases hb
    | const => cases hb

theorem load_both {st : St} {a : Nat} {r s : Rec} (hr : At fs st.cur a r) (hs : At fs st.cur (a + 1) s)
    (hc : st.fin.idx = some a → st.fin.data = some r.2) :
    load fs st a (some (a + 1)) = { st with start := ⟨some a, some r.2⟩, fin := ⟨some (a + 1), some s.2⟩ } := by
  unfold load
  dsimp only
  rw [if_pos hs.lt, hs.data, hr.data]
  by_cases h : st.fin.idx = some a
  · have h2 := hc h
    rw [if_pos h, h2]
    have : st.fin = ⟨some a, some r.2⟩ := by
      cases hf : st.fin with
      | mk i d => rw [hf] at h h2; simp only at h h2; rw [h, h2]
    simp [this]
  · rw [if_neg h]

theorem load_one {st : St} {a : Nat} {b : Option Nat} {r : Rec} (hr : At fs st.cur a r) (hb : ∀ k, b = some k → (fileAt fs st.cur).length ≤ k)
    (hc : st.fin.idx = some a → st.fin.data = some r.2) :
    load fs st a b = { st with start := ⟨some a, some r.2⟩, fin := {} } := by
  unfold load
  dsimp only
  rw [hr.data]
  have e : (if st.fin.idx = some a then (if st.fin.data.isSome = true then st.fin else ⟨some a, some r.2⟩) else ⟨some a, some r.2⟩ : Loaded) =
      ⟨some a, some r.2⟩ := by
    by_cases h : st.fin.idx = some a
    · have h2 := hc h
      rw [if_pos h, h2]
      have : st.fin = ⟨some a, some r.2⟩ := by
        cases hf : st.fin with
        | mk i d => rw [hf] at h h2; simp only at h h2; rw [h, h2]
      simp [this]
    · rw [if_neg h]
  rw [e]
  cases b with
  | none => rfl
  | some k =>
    have := hb k rfl
    simp only
    rw [if_neg (by omega)]

/-- the outcomes of a query: the data are loaded, or it is refused, as the time is outside and extrapolation is not allowed -/
def Outcome (fs : List File) (ext : Bool) (t : Int) (out : St × Bool) : Prop :=
  (out.2 = true ∧ Good fs t out.1 ∧ (ext = true ∨ (fs.length = 1 ∧ (fileAt fs 0).length = 1) ∨
    ∃ r s, fs.flatten.head? = some r ∧ fs.flatten.getLast? = some s ∧ r.1 ≤ t ∧ t ≤ s.1)) ∨
  (out.2 = false ∧ Blank fs out.1 ∧ ext = false ∧ ¬ (fs.length = 1 ∧ (fileAt fs 0).length = 1) ∧
    ∃ r s, fs.flatten.head? = some r ∧ fs.flatten.getLast? = some s ∧ (t < r.1 ∨ s.1 < t))

theorem within (ho : Ordered fs) {i j a b : Nat} {x y : Rec} (hx : At fs i a x) (hy : At fs j b y) {t : Int} (h1 : x.1 ≤ t) (h2 : t ≤ y.1) :
    ∃ r s, fs.flatten.head? = some r ∧ fs.flatten.getLast? = some s ∧ r.1 ≤ t ∧ t ≤ s.1 := by
  have h0 := ho.pos
  obtain ⟨r, hr⟩ := ho.first h0
  obtain ⟨s, hs⟩ := ho.last (i := fs.length - 1) (by omega)
  refine ⟨r, s, head_of ho hr, last_of ho hs, le_trans (ho.le hr hx (by omega)) h1, le_trans h2 (ho.le hy hs ?_)⟩
  have h3 := hy.lt_files
  have h4 := hy.lt
  rcases Nat.lt_or_ge j (fs.length - 1) with h | h
  · exact Or.inl h
  · have : j = fs.length - 1 := by omega
    subst this
    exact Or.inr ⟨rfl, by omega⟩

end Verif.TGrid
