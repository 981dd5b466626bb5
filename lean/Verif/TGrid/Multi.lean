import Verif.TGrid.Step
/-!
# Queries over a list of files
-/
namespace Verif.TGrid

variable {fs : List File}

/-- what `CheckAndScanFile` does -/
inductive Scanned (fs : List File) (ext : Bool) (st : St) (t : Int) : Option St → Prop
  | inside (i : Nat) (x y : Rec) (hx : At fs i 0 x) (hy : At fs i ((fileAt fs i).length - 1) y) (h1 : x.1 ≤ t) (h2 : t ≤ y.1)
      (h3 : 2 ≤ (fileAt fs i).length) : Scanned fs ext st t (some { st with cur := i, over := false })
  | gap (c : Nat) (r s : Rec) (hr : At fs c ((fileAt fs c).length - 1) r) (hs : At fs (c + 1) 0 s) (h1 : r.1 ≤ t) (h2 : t ≤ s.1) :
      Scanned fs ext st t (some ⟨c + 1, ⟨none, some r.2⟩, ⟨some 0, some s.2⟩, true, r.1⟩)
  | above (r : Rec) (he : ext = true) (hr : At fs (fs.length - 1) ((fileAt fs (fs.length - 1)).length - 1) r) (h : r.1 < t) :
      Scanned fs ext st t (some { st with cur := fs.length - 1, over := false })
  | below (r : Rec) (he : ext = true) (hr : At fs 0 0 r) (h : t < r.1) : Scanned fs ext st t (some { st with cur := 0, over := false })
  | refused (r s : Rec) (he : ext = false) (hr : At fs 0 0 r) (hs : At fs (fs.length - 1) ((fileAt fs (fs.length - 1)).length - 1) s)
      (h : t < r.1 ∨ s.1 < t) : Scanned fs ext st t none

/-- no test of the loop succeeds only outside of all files -/
theorem none_outside (ho : Ordered fs) {t : Int}
    (h : ∀ i < fs.length, (inFile fs t i || atFile fs t i || beforeFile fs t i) = false) {r s : Rec} (hr : At fs 0 0 r)
    (hs : At fs (fs.length - 1) ((fileAt fs (fs.length - 1)).length - 1) s) : t < r.1 ∨ s.1 < t := by
  by_contra hc
  push Not at hc
  obtain ⟨h1, h2⟩ := hc
  have aux : ∀ i < fs.length, ∀ x, At fs i 0 x → x.1 ≤ t → ∀ y, At fs i ((fileAt fs i).length - 1) y → y.1 < t := by
    intro i hi x hx hxt y hy
    by_contra hge
    have := h i hi
    simp only [Bool.or_eq_false_iff, inFile, atFile, start_eq hx, end_eq hy, le?_some, eq?_some] at this
    obtain ⟨⟨ha, hb⟩, _⟩ := this
    by_cases hxy : x.1 = y.1
    · simp [hxy] at hb; omega
    · simp [hxy, hxt] at ha; omega
  have key : ∀ i, i < fs.length → ∀ y, At fs i ((fileAt fs i).length - 1) y → y.1 < t := by
    intro i
    induction i with
    | zero => intro hi y hy; exact aux 0 hi r hr h1 y hy
    | succ i ih =>
      intro hi y hy
      obtain ⟨z, hz⟩ := ho.last (i := i) (by omega)
      have hzt := ih (by omega) z hz
      obtain ⟨x, hx⟩ := ho.first hi
      refine aux (i + 1) hi x hx ?_ y hy
      by_contra hlt
      have := h (i + 1) hi
      simp only [Bool.or_eq_false_iff, beforeFile, Nat.add_sub_cancel, start_eq hx, end_eq hz, lt?_some] at this
      have h3 := this.2
      simp [hzt] at h3
      omega
  have := key (fs.length - 1) (by have := ho.pos; omega) s hs
  omega

theorem loadGap_eq {st : St} {test : Option Int} {c : Nat} {r s : Rec} (hr : At fs c ((fileAt fs c).length - 1) r) (hs : At fs (c + 1) 0 s)
    (ht : test = some r.1 → st.fin.data = some r.2) :
    loadGap fs st test (c + 1) = ⟨c + 1, ⟨none, some r.2⟩, ⟨some 0, some s.2⟩, true, r.1⟩ := by
  unfold loadGap
  simp only [Nat.add_sub_cancel, end_eq hr, hr.data, hs.data, Option.getD_some]
  by_cases h : eq? (some r.1) test = true
  · rw [if_pos h]
    obtain ⟨x, hx, hx'⟩ := eq?_iff.mp h
    cases hx
    rw [ht hx']
  · rw [if_neg h]

theorem scanned (ho : Ordered fs) (hm : 1 < fs.length) (ext : Bool) (st : St) (t : Int)
    (hf : ∀ b, st.fin.idx = some b → ∃ s, At fs st.cur b s ∧ st.fin.data = some s.2) : Scanned fs ext st t (scan fs ext st t) := by
  obtain ⟨r0, hr0⟩ := ho.first ho.pos
  obtain ⟨s0, hs0⟩ := ho.last (i := fs.length - 1) (by omega)
  have hord : r0.1 ≤ s0.1 := ho.le hr0 hs0 (by omega)
  unfold scan
  dsimp only
  split
  · rename_i i hi
    have hmem : i < fs.length := List.mem_range.mp (List.mem_of_find?_eq_some hi)
    have hp := List.find?_some hi
    obtain ⟨x, hx⟩ := ho.first hmem
    obtain ⟨y, hy⟩ := ho.last hmem
    have hlen := ho.len hmem
    split
    · rename_i hin
      simp only [inFile, start_eq hx, end_eq hy, le?_some, eq?_some, Bool.and_eq_true, decide_eq_true_eq, Bool.not_eq_true',
        decide_eq_false_iff_not] at hin
      refine Scanned.inside i x y hx hy hin.1.1 hin.1.2 ?_
      by_contra hlt
      have : (fileAt fs i).length = 1 := by omega
      have hy' := hy; rw [this] at hy'
      exact hin.2 (by rw [hx.unique hy'])
    · split
      · rename_i hat
        simp only [atFile, start_eq hx, end_eq hy, eq?_some, Bool.and_eq_true, decide_eq_true_eq] at hat
        by_cases hl : i < fs.length - 1
        · rw [if_pos hl]
          obtain ⟨s, hs⟩ := ho.first (i := i + 1) (by omega)
          rw [loadGap_eq hy hs (by simp)]
          have := ho.lt hy hs (Or.inl (by omega))
          exact Scanned.gap i y s hy hs (by omega) (by omega)
        · rw [if_neg hl]
          obtain ⟨c, rfl⟩ : ∃ c, i = c + 1 := ⟨i - 1, by omega⟩
          obtain ⟨z, hz⟩ := ho.last (i := c) (by omega)
          rw [loadGap_eq hz hx (by simp)]
          have := ho.lt hz hx (Or.inl (by omega))
          exact Scanned.gap c z x hz hx (by omega) (by omega)
      · rename_i hnin hnat
        have hb : beforeFile fs t i = true := by simpa [hnin, hnat] using hp
        have hi0 : 0 < i := by
          simp only [beforeFile, Bool.and_eq_true, decide_eq_true_eq] at hb; exact hb.1.1
        obtain ⟨c, rfl⟩ : ∃ c, i = c + 1 := ⟨i - 1, by omega⟩
        obtain ⟨z, hz⟩ := ho.last (i := c) (by omega)
        simp only [beforeFile, Nat.add_sub_cancel, start_eq hx, end_eq hz, lt?_some, Bool.and_eq_true, decide_eq_true_eq] at hb
        rw [loadGap_eq hz hx]
        · exact Scanned.gap c z x hz hx (by omega) (by omega)
        · intro htest
          cases hidx : st.fin.idx with
          | none => rw [hidx] at htest; simp at htest
          | some b =>
            obtain ⟨s, hs, hd⟩ := hf b hidx
            rw [hidx] at htest
            simp only [Option.bind_some, hs.time, Option.some.injEq] at htest
            obtain ⟨hc, hb'⟩ := ho.place hs hz htest
            have hs' := hs
            rw [hc, hb'] at hs'
            rw [hd, hs'.unique hz]
  · rename_i hnone
    have hall : ∀ i < fs.length, (inFile fs t i || atFile fs t i || beforeFile fs t i) = false := by
      intro i hi
      have := List.find?_eq_none.mp hnone i (List.mem_range.mpr hi)
      simpa using this
    have hout := none_outside ho hall hr0 hs0
    rw [end_eq hs0, start_eq hr0]
    simp only [lt?_some]
    cases ext
    · simpa using Scanned.refused r0 s0 rfl hr0 hs0 hout
    · simp only [Bool.true_and, decide_eq_true_eq]
      rcases hout with h | h
      · rw [if_neg (show ¬ s0.1 < t by omega), if_pos h]
        exact Scanned.below r0 rfl hr0 h
      · rw [if_pos h]
        exact Scanned.above s0 rfl hs0 h

end Verif.TGrid
