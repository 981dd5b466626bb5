import Verif.TGrid.Multi
/-!
# The data for the time asked for are loaded
-/
namespace Verif.TGrid

variable {fs : List File}

def Between (t0 t x : Int) : Prop := (t0 ≤ x ∧ x ≤ t) ∨ (t ≤ x ∧ x ≤ t0)

/-- there is at most one record from one time to the other -/
def Near (fs : List File) (t0 t : Int) : Prop :=
  ∀ r ∈ fs.flatten, ∀ s ∈ fs.flatten, Between t0 t r.1 → Between t0 t s.1 → r.1 = s.1

theorem off_multi (hm : 1 < fs.length) (st : St) : off fs st = { st with over := false } := by unfold off; rw [if_pos hm]
theorem off_one (hm : ¬ 1 < fs.length) (st : St) : off fs st = st := by unfold off; rw [if_neg hm]

/-- the loading of both records of an interval of the current file, from data of which the end is not of another file -/
theorem good_load {t : Int} {c i : Nat} {st : St} {r s : Rec} (hcur : st.cur = c) (hov : st.over = false)
    (hr : At fs c i r) (hs : At fs c (i + 1) s) (h1 : r.1 ≤ t) (h2 : t ≤ s.1) (hc : st.fin.idx = some i → st.fin.data = some r.2) :
    Good fs t (load fs st i (some (i + 1))) := by
  subst hcur
  rw [load_both hr hs hc, hov]
  exact Good.both _ _ _ _ _ hr hs h1 h2

theorem step_multi (ho : Ordered fs) (hm : 1 < fs.length) (ext : Bool) (st : St) (t : Int)
    (h : Blank fs st ∨ ∃ t0, Good fs t0 st ∧ Near fs t0 t ∧ (t0 ≤ t ∨ ∀ f ∈ fs, 3 ≤ f.length)) :
    Outcome fs ext t (setInterval fs ext st t) := by
  have hinv : Inv fs st := by rcases h with h | ⟨t0, h, _⟩; exacts [Or.inl h, Or.inr ⟨t0, h⟩]
  have hcur := hinv.cur_lt ho
  have hk : ¬ ((fileAt fs st.cur).length = 1 ∧ ¬ 1 < fs.length) := by omega
  have hpos := ho.len hcur
  have h1n : ¬ fs.length = 1 := by omega
  have hk0 : ¬ (fs.length = 1 ∧ (fileAt fs 0).length = 1) := by omega
  have hne : ∀ n : Nat, ¬ (n = 1 ∧ ¬ 1 < fs.length) := by omega
  obtain ⟨r0, hr0⟩ := ho.first ho.pos
  obtain ⟨s0, hs0⟩ := ho.last (i := fs.length - 1) (by omega)
  have hci := ci ho ext st t 0 hcur hk
  -- what is left to do when the time is not in the current file
  have rest : ∀ iv : Int, ¬ InOver fs st t →
      Outcome fs ext t (match scan fs ext { st with over := false } t with
        | none => ({ { st with over := false } with start := {}, fin := {} }, false)
        | some st =>
          if st.over then (st, true)
          else
            match checkInterval fs ext st t iv with
            | (st, loaded, iv) =>
              if ext = true ∧ (iv = ((fileAt fs st.cur).length : Int) ∨ iv = 0) then
                if loaded then (st, true) else (load fs st (iv - 1).toNat none, true)
              else (load fs st (iv - 1).toNat (some iv.toNat), true)) := by
    intro iv hnover
    have hsc := scanned ho hm ext { st with over := false } t (fun b hb => by
      obtain ⟨s, hs, hd⟩ := hinv.fin_ok hb
      exact ⟨s, hs, hd⟩)
    generalize scan fs ext { st with over := false } t = sc at hsc
    cases hsc with
    | gap c r s hr hs h1 h2 =>
      simp only [if_true]
      exact Or.inl ⟨rfl, Good.gap c r s hr hs h1 h2, Or.inr (Or.inr (within ho hr hs h1 h2))⟩
    | refused r s he hr hs hlt =>
      exact Or.inr ⟨rfl, ⟨rfl, rfl, rfl, hcur⟩, he, hk0, r, s, head_of ho hr, last_of ho hs, hlt⟩
    | inside i x y hx hy h1 h2 h3 =>
      simp only [Bool.false_eq_true, if_false]
      have hci2 := ci ho ext { st with cur := i, over := false } t iv hx.lt_files (hne _)
      generalize checkInterval fs ext { st with cur := i, over := false } t iv = out at hci2
      cases hci2 with
      | both a b x' y' ha hb hx' hy' h1' h2' =>
        rcases h with h | ⟨t0, h, hnear, hback⟩
        · simp only at ha; rw [h.1] at ha; cases ha
        · cases h with
          | both c k r s o hr hs h1'' h2'' =>
            simp only at ha hb hx' hy'
            cases ha; cases hb
            have hlt := hy'.lt
            dsimp only
            rw [if_neg (by omega)]
            have e : (((a + 1 : Nat) : Int) - 1).toNat = a := by omega
            have e2 : (((a + 1 : Nat) : Int)).toNat = a + 1 := by omega
            rw [e, e2]
            refine Or.inl ⟨rfl, good_load (c := i) rfl rfl hx' hy' h1' h2' (fun hh => ?_), Or.inr (Or.inr (within ho hx' hy' h1' h2'))⟩
            simp at hh
          | gap => simp only at ha; cases ha
          | before => simp only at hb; cases hb
          | after => simp only at hb; cases hb
          | const => simp only at hb; cases hb
      | over hov => exact absurd hov.2.1 (by simp)
      | found j hn hj =>
        obtain ⟨r', s', hr', hs', hrt, hst⟩ := findIv_some hj
        simp only at hr' hs'
        rw [off_multi hm]
        have hlt := hs'.lt
        dsimp only
        rw [if_neg (by omega)]
        have e : ((j + 1 : Int) - 1).toNat = j := by omega
        have e2 : ((j + 1 : Int)).toNat = j + 1 := by omega
        rw [e, e2]
        refine Or.inl ⟨rfl, good_load (c := i) rfl rfl hr' hs' hrt hst (fun hh => ?_), Or.inr (Or.inr (within ho hr' hs' hrt hst))⟩
        simp only at hh
        -- the end data is not of another file
        rcases h with h | ⟨t0, h, hnear, hback⟩
        · rw [h.2.1] at hh; cases hh
        · cases h with
          | both c k r s o hr hs h1'' h2'' =>
            simp only at hh ⊢
            cases hh
            rcases Nat.lt_trichotomy c i with hlt' | rfl | hgt
            · have hlt2 := ho.lt hs hr' (Or.inl hlt')
              have := hnear s hs.mem r' hr'.mem (Or.inl ⟨h2'', by omega⟩) (Or.inl ⟨by omega, hrt⟩)
              omega
            · rw [hs.unique hr']
            · have hlt2 := ho.lt hs' hr (Or.inl hgt)
              have := hnear r hr.mem s' hs'.mem (Or.inr ⟨by omega, h1''⟩) (Or.inr ⟨hst, by omega⟩)
              omega
          | gap c r s hr hs h1'' h2'' =>
            simp only at hh ⊢
            cases hh
            rcases Nat.lt_trichotomy (c + 1) i with hlt' | rfl | hgt
            · have hlt2 := ho.lt hs hr' (Or.inl hlt')
              have := hnear s hs.mem r' hr'.mem (Or.inl ⟨h2'', by omega⟩) (Or.inl ⟨by omega, hrt⟩)
              omega
            · rw [hs.unique hr']
            · have hs'r : s'.1 ≤ r.1 := by
                refine ho.le hs' hr ?_
                rcases Nat.lt_or_ge i c with h | h
                · exact Or.inl h
                · have : i = c := by omega
                  subst this
                  exact Or.inr ⟨rfl, by omega⟩
              have htr : t < r.1 := by
                by_contra hge
                apply hnover
                refine ⟨hm, rfl, by simpa using hge, ?_⟩
                simp only [Option.bind_some, hs.time, le?_some, decide_eq_true_eq]
                have := ho.lt hr hs (Or.inl (by omega))
                omega
              have h3 : 3 ≤ (fileAt fs i).length := by
                rcases hback with hb | hb
                · omega
                · rw [At.file hr'.lt_files]; exact hb _ (List.getElem_mem _)
              obtain ⟨z, hz⟩ : ∃ z, At fs i 2 z := At.exists_lt (by omega)
              have hsz := ho.lt hs' hz (Or.inr ⟨rfl, by omega⟩)
              have hzr : z.1 ≤ r.1 := by
                refine ho.le hz hr ?_
                rcases Nat.lt_or_ge i c with h | h
                · exact Or.inl h
                · have : i = c := by omega
                  subst this
                  exact Or.inr ⟨rfl, by omega⟩
              have := hnear s' hs'.mem z hz.mem (Or.inr ⟨hst, by omega⟩) (Or.inr ⟨by omega, by omega⟩)
              omega
          | before => cases hh
          | after => cases hh
          | const => cases hh
      | below r' l hn hr' hlt hl => simp only at hr'; rw [hr'.unique hx] at hlt; omega
      | above r' l hn hr' hlt hl => simp only at hr'; rw [hr'.unique hy] at hlt; omega
      | single r' hn hl hr' heq => simp only at hl; omega
    | above r he hr hlt =>
      simp only [Bool.false_eq_true, if_false]
      have hci2 := ci ho ext { st with cur := fs.length - 1, over := false } t iv hr.lt_files (hne _)
      generalize checkInterval fs ext { st with cur := fs.length - 1, over := false } t iv = out at hci2
      have top : ∀ b y, At fs (fs.length - 1) b y → y.1 ≤ r.1 := fun b y hy => ho.le hy hr (Or.inr ⟨rfl, by have := hy.lt; omega⟩)
      cases hci2 with
      | both a b x' y' ha hb hx' hy' h1' h2' => have := top _ _ hy'; omega
      | over hov => exact absurd hov.2.1 (by simp)
      | found j hn hj =>
        obtain ⟨r', s', hr', hs', hrt, hst⟩ := findIv_some hj
        have := top _ _ hs'; omega
      | below r' l hn hr' hlt' hl => have := top _ _ hr'; omega
      | single r' hn hl hr' heq => have := top _ _ hr'; omega
      | above r' l hn hr' hlt' hl =>
        simp only at hr' hl
        rw [off_multi hm]
        dsimp only
        rw [if_pos ⟨he, Or.inl rfl⟩]
        have e : (((fileAt fs (fs.length - 1)).length : Int) - 1).toNat = (fileAt fs (fs.length - 1)).length - 1 := by omega
        rw [e]
        by_cases hl' : l = true
        · rw [if_pos hl']
          obtain ⟨-, -, hfn, hsn⟩ := hl.mp hl'
          rcases h with h | ⟨t0, h, hnear, hback⟩
          · rw [h.1] at hsn; exact absurd rfl hsn
          · cases h with
            | both => cases hfn
            | gap => cases hfn
            | before r'' o hr'' h'' =>
              have h01 := ho.lt hr'' hr (Or.inl (by omega))
              have := hnear r'' hr''.mem r hr.mem (Or.inl ⟨by omega, by omega⟩) (Or.inl ⟨by omega, by omega⟩)
              omega
            | after r'' o hr'' h'' => exact Or.inl ⟨rfl, Good.after r'' o hr'' (by rw [hr''.unique hr]; exact hlt), Or.inl he⟩
            | const _ _ _ h1 => exact absurd h1 h1n
        · rw [if_neg hl', load_one hr (by simp)]
          · exact Or.inl ⟨rfl, Good.after r _ hr hlt, Or.inl he⟩
          · intro hh
            simp only at hh
            rcases h with h | ⟨t0, h, hnear, hback⟩
            · rw [h.2.1] at hh; cases hh
            · cases h with
              | both c k r1 s1 o hr1 hs1 h1'' h2'' =>
                simp only at hh ⊢
                have hkk : k + 1 = (fileAt fs (fs.length - 1)).length - 1 := Option.some.inj hh
                by_cases hc : c = fs.length - 1
                · subst hc; rw [hkk] at hs1; rw [hs1.unique hr]
                · have hlt2 := ho.lt hs1 hr (Or.inl (by have := hs1.lt_files; omega))
                  have := hnear s1 hs1.mem r hr.mem (Or.inl ⟨h2'', by omega⟩) (Or.inl ⟨by omega, by omega⟩)
                  omega
              | gap c r1 s1 hr1 hs1 h1'' h2'' =>
                simp only at hh ⊢
                have hkk : 0 = (fileAt fs (fs.length - 1)).length - 1 := Option.some.inj hh
                by_cases hc : c + 1 = fs.length - 1
                · rw [hc, hkk] at hs1; rw [hs1.unique hr]
                · have hlt2 := ho.lt hs1 hr (Or.inl (by have := hs1.lt_files; omega))
                  have := hnear s1 hs1.mem r hr.mem (Or.inl ⟨h2'', by omega⟩) (Or.inl ⟨by omega, by omega⟩)
                  omega
              | before => cases hh
              | after => cases hh
              | const => cases hh
    | below r he hr hlt =>
      simp only [Bool.false_eq_true, if_false]
      have hci2 := ci ho ext { st with cur := 0, over := false } t iv hr.lt_files (hne _)
      generalize checkInterval fs ext { st with cur := 0, over := false } t iv = out at hci2
      have bot : ∀ b y, At fs 0 b y → r.1 ≤ y.1 := fun b y hy => ho.le hr hy (Or.inr ⟨rfl, by omega⟩)
      cases hci2 with
      | both a b x' y' ha hb hx' hy' h1' h2' => have := bot _ _ hx'; omega
      | over hov => exact absurd hov.2.1 (by simp)
      | found j hn hj =>
        obtain ⟨r', s', hr', hs', hrt, hst⟩ := findIv_some hj
        have := bot _ _ hr'; omega
      | above r' l hn hr' hlt' hl => have := bot _ _ hr'; omega
      | single r' hn hl hr' heq => have := bot _ _ hr'; omega
      | below r' l hn hr' hlt' hl =>
        simp only at hr' hl
        rw [off_multi hm]
        dsimp only
        rw [if_pos ⟨he, Or.inr rfl⟩]
        have e : ((0 : Int) - 1).toNat = 0 := by omega
        rw [e]
        by_cases hl' : l = true
        · rw [if_pos hl']
          obtain ⟨-, -, hfn, hsn⟩ := hl.mp hl'
          rcases h with h | ⟨t0, h, hnear, hback⟩
          · rw [h.1] at hsn; exact absurd rfl hsn
          · cases h with
            | both => cases hfn
            | gap => cases hfn
            | after r'' o hr'' h'' =>
              have h01 := ho.lt hr hr'' (Or.inl (by omega))
              have := hnear r'' hr''.mem r hr.mem (Or.inr ⟨by omega, by omega⟩) (Or.inr ⟨by omega, by omega⟩)
              omega
            | before r'' o hr'' h'' => exact Or.inl ⟨rfl, Good.before r'' o hr'' (by rw [hr''.unique hr]; exact hlt), Or.inl he⟩
            | const _ _ _ h1 => exact absurd h1 h1n
        · rw [if_neg hl', load_one hr (by simp)]
          · exact Or.inl ⟨rfl, Good.before r _ hr hlt, Or.inl he⟩
          · intro hh
            simp only at hh
            rcases h with h | ⟨t0, h, hnear, hback⟩
            · rw [h.2.1] at hh; cases hh
            · cases h with
              | both c k r1 s1 o hr1 hs1 h1'' h2'' => simp at hh
              | gap c r1 s1 hr1 hs1 h1'' h2'' =>
                have hlen0 := ho.len ho.pos
                have hrr : r.1 ≤ r1.1 := ho.le hr hr1 (by omega)
                have h3 : 3 ≤ (fileAt fs 0).length := by
                  rcases hback with hb | hb
                  · omega
                  · rw [At.file ho.pos]; exact hb _ (List.getElem_mem _)
                obtain ⟨z, hz⟩ : ∃ z, At fs 0 1 z := At.exists_lt (by omega)
                have hrz := ho.lt hr hz (Or.inr ⟨rfl, by omega⟩)
                have hzr : z.1 ≤ r1.1 := by
                  refine ho.le hz hr1 ?_
                  rcases Nat.eq_zero_or_pos c with rfl | h
                  · exact Or.inr ⟨rfl, by omega⟩
                  · exact Or.inl h
                have := hnear r hr.mem z hz.mem (Or.inr ⟨by omega, by omega⟩) (Or.inr ⟨by omega, by omega⟩)
                omega
              | before => cases hh
              | after => cases hh
              | const => cases hh
  unfold setInterval
  generalize checkInterval fs ext st t 0 = out at hci
  cases hci with
  | both a b x y ha hb hx hy h1 h2 =>
    dsimp only
    rw [if_pos rfl]
    rcases h with h | ⟨t0, h, -⟩
    · rw [h.1] at ha; cases ha
    · cases h with
      | both c k r s o hr hs =>
        cases ha; cases hb
        have e1 := hr.unique hx
        have e2 := hs.unique hy
        subst e1 e2
        exact Or.inl ⟨rfl, Good.both c _ r s o hr hs h1 h2, Or.inr (Or.inr (within ho hr hs h1 h2))⟩
      | gap => cases ha
      | before => cases hb
      | after => cases hb
      | const => cases hb
  | over hov =>
    dsimp only
    rw [if_pos rfl]
    obtain ⟨-, h1, h2, h3⟩ := hov
    rcases h with h | ⟨t0, h, -⟩
    · rw [h.2.2.1] at h1; cases h1
    · cases h with
      | gap c r s hr hs =>
        simp only [Option.bind_some, hs.time, le?_some, decide_eq_true_eq] at h3
        exact Or.inl ⟨rfl, Good.gap c r s hr hs h2 h3, Or.inr (Or.inr (within ho hr hs h2 h3))⟩
      | both => cases h1
      | before => cases h1
      | after => cases h1
      | const => cases h1
  | found i hn hi =>
    obtain ⟨r, s, hr, hs, hrt, hst⟩ := findIv_some hi
    have hlt := hs.lt
    rw [off_multi hm]
    dsimp only
    rw [if_neg (by simp), if_neg (hne _), if_neg (by omega)]
    have e : ((i + 1 : Int) - 1).toNat = i := by omega
    have e2 : ((i + 1 : Int)).toNat = i + 1 := by omega
    rw [e, e2]
    refine Or.inl ⟨rfl, good_load (c := st.cur) rfl rfl hr hs hrt hst (fun hh => ?_), Or.inr (Or.inr (within ho hr hs hrt hst))⟩
    obtain ⟨z, hz, hd⟩ := hinv.fin_ok hh
    rw [hz.unique hr] at hd
    exact hd
  | below r l hn hr hlt hl =>
    rw [off_multi hm]
    dsimp only
    by_cases hl' : l = true
    · rw [if_pos hl']
      obtain ⟨hfirst, he, hfn, hsn⟩ := hl.mp hl'
      rcases h with h | ⟨t0, h, hnear, hback⟩
      · rw [h.1] at hsn; exact absurd rfl hsn
      · rw [start_eq hr0, Option.some.injEq] at hfirst
        obtain ⟨hc0, -⟩ := ho.place hr hr0 hfirst
        cases h with
        | both => cases hfn
        | gap => cases hfn
        | after r'' o hr'' h'' => simp only at hc0; omega
        | before r'' o hr'' h'' => exact Or.inl ⟨rfl, Good.before r'' o hr'' (by rw [hr''.unique hr]; exact hlt), Or.inl he⟩
        | const _ _ _ h1 => exact absurd h1 h1n
    · rw [if_neg hl', if_neg (hne _), if_pos (Or.inl rfl), if_pos hm]
      exact rest 0 hn
  | above r l hn hr hlt hl =>
    rw [off_multi hm]
    dsimp only
    by_cases hl' : l = true
    · rw [if_pos hl']
      obtain ⟨hlast, he, hfn, hsn⟩ := hl.mp hl'
      rcases h with h | ⟨t0, h, hnear, hback⟩
      · rw [h.1] at hsn; exact absurd rfl hsn
      · rw [end_eq hs0, Option.some.injEq] at hlast
        obtain ⟨hc0, -⟩ := ho.place hr hs0 hlast
        cases h with
        | both => cases hfn
        | gap => cases hfn
        | before r'' o hr'' h'' => simp only at hc0; omega
        | after r'' o hr'' h'' => exact Or.inl ⟨rfl, Good.after r'' o hr'' (by rw [hr''.unique hr]; exact hlt), Or.inl he⟩
        | const _ _ _ h1 => exact absurd h1 h1n
    · rw [if_neg hl', if_neg (hne _), if_pos (Or.inr rfl), if_pos hm]
      exact rest _ hn
  | single r hn h1 hr heq =>
    rw [off_multi hm]
    dsimp only
    rw [if_neg (by simp), if_neg (hne _), if_pos (Or.inl rfl), if_pos hm]
    exact rest 0 hn

/-- With one file: what is asked for may jump about as it likes, but not from before the first to after the last record or back -/
theorem step_one (ho : Ordered fs) (hm : fs.length = 1) (ext : Bool) (st : St) (t : Int)
    (h : Blank fs st ∨ ∃ t0, Good fs t0 st ∧ ((fileAt fs 0).length ≠ 1 → ∀ r s, fs.flatten.head? = some r → fs.flatten.getLast? = some s →
      ¬ (t0 < r.1 ∧ s.1 < t) ∧ ¬ (s.1 < t0 ∧ t < r.1))) :
    Outcome fs ext t (setInterval fs ext st t) := by
  have hinv : Inv fs st := by rcases h with h | ⟨t0, h, _⟩; exacts [Or.inl h, Or.inr ⟨t0, h⟩]
  have hcur := hinv.cur_lt ho
  have hm' : ¬ 1 < fs.length := by omega
  have hc0 : st.cur = 0 := by omega
  have hov : st.over = false := by
    rcases h with h | ⟨t0, h, _⟩
    · exact h.2.2.1
    · cases h with
      | gap c r s hr hs => have := hs.lt_files; omega
      | _ => rfl
  have hpos := ho.len hcur
  obtain ⟨r0, hr0⟩ := ho.first ho.pos
  obtain ⟨s0, hs0⟩ := ho.last (i := fs.length - 1) (by omega)
  have hh0 := head_of ho hr0
  have hl0 := last_of ho hs0
  have hl1 : fs.length - 1 = 0 := by omega
  rw [hl1] at hs0
  by_cases hk : (fileAt fs st.cur).length = 1
  · -- constant current
    have hk0 : (fileAt fs 0).length = 1 := by rw [← hc0]; exact hk
    have e : checkInterval fs ext st t 0 = (st, decide (st.start.idx = some 0) && st.start.data.isSome, -1) := by
      unfold checkInterval
      dsimp only
      rw [if_neg (by omega), if_pos ⟨hk, hm'⟩]
    unfold setInterval
    rw [e]
    dsimp only
    by_cases hl : (decide (st.start.idx = some 0) && st.start.data.isSome) = true
    · rw [if_pos hl]
      simp only [Bool.and_eq_true, decide_eq_true_eq] at hl
      refine Or.inl ⟨rfl, ?_, Or.inr (Or.inl ⟨hm, hk0⟩)⟩
      rcases h with h | ⟨t0, h, _⟩
      · rw [h.1] at hl; cases hl.1
      · cases h with
        | both c k r s o hr hs => have := hs.lt; simp only at hk; omega
        | gap c r s hr hs => have := hs.lt_files; omega
        | before r o hr => exact Good.const r o hr hm hk0
        | after r o hr =>
          have hr' := hr
          simp only [hl1, hk0] at hr' ⊢
          exact Good.const r o hr' hm hk0
        | const r o hr => exact Good.const r o hr hm hk0
    · have hr0' : At fs st.cur 0 r0 := by
        rw [show st.cur = 0 from hc0]; exact hr0
      rw [if_neg hl, if_pos ⟨hk, hm'⟩, load_one hr0' (by simp)]
      · rw [hov, hc0]
        exact Or.inl ⟨rfl, Good.const r0 _ hr0 hm hk0, Or.inr (Or.inl ⟨hm, hk0⟩)⟩
      · intro hh
        obtain ⟨z, hz, hd⟩ := hinv.fin_ok hh
        rw [hz.unique hr0'] at hd
        exact hd
  have hci := ci ho ext st t 0 hcur (by omega)
  have hk0 : ¬ (fs.length = 1 ∧ (fileAt fs 0).length = 1) := by rw [← hc0]; omega
  have hne : ¬ ((fileAt fs st.cur).length = 1 ∧ ¬ 1 < fs.length) := by omega
  unfold setInterval
  generalize checkInterval fs ext st t 0 = out at hci
  cases hci with
  | both a b x y ha hb hx hy h1 h2 =>
    dsimp only
    rw [if_pos rfl]
    rcases h with h | ⟨t0, h, -⟩
    · rw [h.1] at ha; cases ha
    · cases h with
      | both c k r s o hr hs =>
        cases ha; cases hb
        have e1 := hr.unique hx
        have e2 := hs.unique hy
        subst e1 e2
        exact Or.inl ⟨rfl, Good.both c _ r s o hr hs h1 h2, Or.inr (Or.inr (within ho hr hs h1 h2))⟩
      | gap => cases ha
      | before => cases hb
      | after => cases hb
      | const => cases hb
  | over hov' => exact absurd hov'.1 hm'
  | found i hn hi =>
    obtain ⟨r, s, hr, hs, hrt, hst⟩ := findIv_some hi
    have hlt := hs.lt
    rw [off_one hm']
    dsimp only
    rw [if_neg (by simp), if_neg hne, if_neg (by omega)]
    have e : ((i + 1 : Int) - 1).toNat = i := by omega
    have e2 : ((i + 1 : Int)).toNat = i + 1 := by omega
    rw [e, e2]
    refine Or.inl ⟨rfl, good_load (c := st.cur) rfl hov hr hs hrt hst (fun hh => ?_), Or.inr (Or.inr (within ho hr hs hrt hst))⟩
    obtain ⟨z, hz, hd⟩ := hinv.fin_ok hh
    rw [hz.unique hr] at hd
    exact hd
  | below r l hn hr hlt hl =>
    rw [off_one hm']
    rw [hc0] at hr
    have e0 := hr.unique hr0
    subst e0
    dsimp only
    by_cases hl' : l = true
    · rw [if_pos hl']
      obtain ⟨-, he, hfn, hsn⟩ := hl.mp hl'
      rcases h with h | ⟨t0, h, hj⟩
      · rw [h.1] at hsn; exact absurd rfl hsn
      · cases h with
        | both => cases hfn
        | gap => cases hfn
        | after r'' o hr'' h'' =>
          simp only [hl1] at hr''
          rw [hr''.unique hs0] at h''
          exact absurd ⟨h'', hlt⟩ (hj (fun h => hk0 ⟨hm, h⟩) _ _ hh0 hl0).2
        | before r'' o hr'' h'' => exact Or.inl ⟨rfl, Good.before r'' o hr'' (by rw [hr''.unique hr]; exact hlt), Or.inl he⟩
        | const _ _ _ h1 h2 => exact absurd ⟨h1, h2⟩ hk0
    · rw [if_neg hl', if_neg hne, if_pos (Or.inl rfl), if_neg hm', if_neg (by omega)]
      cases ext with
      | false =>
        rw [if_neg (by simp)]
        exact Or.inr ⟨rfl, ⟨rfl, rfl, hov, hcur⟩, rfl, hk0, r, s0, hh0, hl0, Or.inl hlt⟩
      | true =>
        rw [if_pos ⟨rfl, rfl⟩, load_one (r := r) (by simp only [hc0]; exact hr) (by simp) (by simp)]
        simp only [hov, hc0]
        exact Or.inl ⟨rfl, Good.before r _ hr hlt, Or.inl rfl⟩
  | above r l hn hr hlt hl =>
    rw [off_one hm']
    have hr1 := hr
    rw [hc0] at hr1
    have e0 := hr1.unique hs0
    subst e0
    dsimp only
    by_cases hl' : l = true
    · rw [if_pos hl']
      obtain ⟨-, he, hfn, hsn⟩ := hl.mp hl'
      rcases h with h | ⟨t0, h, hj⟩
      · rw [h.1] at hsn; exact absurd rfl hsn
      · cases h with
        | both => cases hfn
        | gap => cases hfn
        | before r'' o hr'' h'' =>
          rw [hr''.unique hr0] at h''
          exact absurd ⟨h'', hlt⟩ (hj (fun h => hk0 ⟨hm, h⟩) _ _ hh0 hl0).1
        | after r'' o hr'' h'' =>
          have hr2 := hr''
          rw [hl1] at hr2
          exact Or.inl ⟨rfl, Good.after r'' o hr'' (by rw [hr2.unique hs0]; exact hlt), Or.inl he⟩
        | const _ _ _ h1 h2 => exact absurd ⟨h1, h2⟩ hk0
    · rw [if_neg hl', if_neg hne, if_pos (Or.inr rfl), if_neg hm']
      cases ext with
      | false =>
        rw [if_neg (by simp), if_neg (by simp)]
        exact Or.inr ⟨rfl, ⟨rfl, rfl, hov, hcur⟩, rfl, hk0, r0, r, hh0, hl0, Or.inr hlt⟩
      | true =>
        rw [if_pos ⟨rfl, rfl⟩, load_one (r := r) (by exact hr) (by simp) (by simp)]
        have hg : Good fs t ⟨fs.length - 1, ⟨some ((fileAt fs (fs.length - 1)).length - 1), some r.2⟩, {}, false, st.overStart⟩ :=
          Good.after r _ (by rw [hl1]; exact hs0) hlt
        simp only [hov, hc0, hl1] at hg ⊢
        exact Or.inl ⟨rfl, hg, Or.inl rfl⟩
  | single r hn h1 hr heq => exact absurd h1 hk

end Verif.TGrid
