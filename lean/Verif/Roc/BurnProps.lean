import Verif.Roc.BurnModel
import Mathlib.Tactic.Linarith
import Mathlib.Tactic.FieldSimp
import Mathlib.Tactic.Ring
import Mathlib.Tactic.NormNum
import Mathlib.Tactic.Positivity
import Mathlib.Data.Rat.Floor
/-!
# Time and capacity of the in-situ burn (C136, C137)
-/
namespace Verif.Roc.Burn

/-- the sum of the times in the list of states of the step -/
def total (l : List (Act × ℚ)) : ℚ := (l.map Prod.snd).sum

/-- the time spent burning according to the list of states -/
def totalOf (a : Act) (l : List (Act × ℚ)) : ℚ := total (l.filter (fun e => e.1 == a))

@[simp] theorem total_append (l : List (Act × ℚ)) (a : Act) (x : ℚ) : total (l ++ [(a, x)]) = total l + x := by
  simp [total]

/-- what the response is doing -/
inductive Phase | idle | collect | transit | burn | clean
deriving DecidableEq

structure Is (s : St) (p : Phase) : Prop where
  c : s.collecting = decide (p = .collect)
  t : s.transiting = decide (p = .transit)
  b : s.burning = decide (p = .burn)
  k : s.cleaning = decide (p = .clean)

/-- sensible settings -/
structure Good (c : Cfg) : Prop where
  cap : 0 ≤ c.capMax
  offset : 0 ≤ c.offset
  draft : 0 ≤ c.draft
  gal : 0 < c.gal

/-- sensible oil: with a thickness, some of it is recovered; without, none -/
structure GoodOil (o : Oil) : Prop where
  pos : o.thick = true → 0 < o.rr
  zero : o.thick = false → o.rr = 0
  rate : 0 ≤ o.rate

structure Inv (c : Cfg) (s : St) : Prop where
  cap0 : 0 ≤ s.cap
  cap1 : s.cap ≤ c.capMax
  off : 0 ≤ s.offRem
  burn : 0 ≤ s.burnRem
  clean : 0 ≤ s.cleanRem
  rate : 0 ≤ s.burnRate.getD 0
  full : s.full = true → s.cap = 0 ∧ (s.transiting = true ∨ s.burning = true)
  start : s.burning = true → s.burnTime = none → s.cap = 0
  log : ∀ e ∈ s.log, 0 ≤ e.2
  rem : 0 ≤ s.rem

theorem log_snoc {l : List (Act × ℚ)} {a : Act} {x : ℚ} (h : ∀ e ∈ l, 0 ≤ e.2) (hx : 0 ≤ x) : ∀ e ∈ l ++ [(a, x)], 0 ≤ e.2 := by
  intro e he
  rcases List.mem_append.1 he with h1 | h1
  · exact h e h1
  · simp at h1; subst h1; exact hx

theorem close_zero : close 0 = true := by decide +kernel

theorem collect_ok {c : Cfg} {o : Oil} {s : St} (hc : Good c) (ho : GoodOil o) (hi : Inv c s) (hp : Is s .collect) (hr : 0 < s.rem) :
    Inv c (collect c o s) ∧ total (collect c o s).log + (collect c o s).rem = total s.log + s.rem ∧
    (collect c o s).cap = s.cap - (collect c o s).tsCollected ∧ (collect c o s).tsBurned = s.tsBurned ∧
    (collect c o s).rem ≤ s.rem ∧
    ((Is (collect c o s) .collect ∧ (collect c o s).rem = 0) ∨
      (Is (collect c o s) .transit ∧ (collect c o s).full = true ∧ 0 < (collect c o s).rem)) := by
  have hnf : s.full = false := by
    by_contra h
    have h1 := (hi.full (by simpa using h)).2
    rw [hp.t, hp.b] at h1
    simp at h1
  have hrate : 0 ≤ (match s.burnRate with | some r => some r | none => some o.rate : Option ℚ).getD 0 := by
    have := hi.rate
    cases h : s.burnRate with
    | none => simpa using ho.rate
    | some r => rw [h] at this; simpa using this
  unfold collect
  dsimp only
  cases hth : o.thick with
  | false =>
    have hz := ho.zero hth
    simp only [Bool.false_eq_true, if_false, le_refl, if_true, hz, zero_mul, zero_div, sub_zero]
    refine ⟨⟨hi.cap0, hi.cap1, hi.off, hi.burn, hi.clean, hrate, ?_, hi.start, log_snoc hi.log hi.rem, le_refl _⟩, by simp, trivial, trivial, hi.rem, Or.inl ⟨⟨hp.c, hp.t, hp.b, hp.k⟩, trivial⟩⟩
    intro h; rw [hnf] at h; exact absurd h (by simp)
  | true =>
    have hz := ho.pos hth
    have hg := hc.gal
    have h0 := hi.cap0
    have h1 := hi.cap1
    simp only [if_true]
    have httf : 0 ≤ c.gal * s.cap / o.rr := by positivity
    by_cases hle : s.rem ≤ c.gal * s.cap / o.rr
    · rw [if_pos hle]
      have hcol : 0 ≤ o.rr * s.rem / c.gal := by positivity
      have hcol1 : o.rr * s.rem / c.gal ≤ s.cap := by
        rw [div_le_iff₀ hg]
        rw [le_div_iff₀ hz] at hle
        nlinarith
      refine ⟨⟨by simpa using hcol1, ?_, hi.off, hi.burn, hi.clean, hrate, ?_, ?_, log_snoc hi.log hi.rem, le_refl _⟩, by simp, rfl, rfl, hi.rem, Or.inl ⟨⟨hp.c, hp.t, hp.b, hp.k⟩, rfl⟩⟩
      · show s.cap - _ ≤ _
        linarith
      · intro h; rw [hnf] at h; exact absurd h (by simp)
      · intro h; rw [hp.b] at h; exact absurd h (by simp)
    · have hcol : o.rr * (c.gal * s.cap / o.rr) / c.gal = s.cap := by field_simp
      have hle' := not_le.1 hle
      rw [if_neg hle, if_pos hr, hcol]
      refine ⟨⟨by simp, ?_, hc.offset, hi.burn, hi.clean, hrate, ?_, ?_, log_snoc hi.log httf, ?_⟩, by simp, rfl, rfl, ?_, Or.inr ⟨⟨by simp, by simp, hp.b, hp.k⟩, rfl, ?_⟩⟩
      · simpa using hc.cap
      · intro _; simp
      · intro h; rw [hp.b] at h; exact absurd h (by simp)
      · show 0 ≤ s.rem - _
        linarith
      · show s.rem - _ ≤ s.rem
        linarith
      · show 0 < s.rem - _
        linarith

theorem transit_ok {c : Cfg} {s : St} (hi : Inv c s) (hp : Is s .transit) (hr : 0 < s.rem) :
    Inv c (transit s) ∧ total (transit s).log + (transit s).rem = total s.log + s.rem ∧
    (transit s).cap = s.cap ∧ (transit s).tsCollected = s.tsCollected ∧ (transit s).tsBurned = s.tsBurned ∧ (transit s).rem ≤ s.rem ∧
    ((Is (transit s) .transit ∧ (transit s).rem = 0) ∨ (Is (transit s) .burn ∧ s.full = true) ∨
      (Is (transit s) .collect ∧ s.full = false)) := by
  unfold transit
  have hoff := hi.off
  split
  · rename_i h
    refine ⟨⟨hi.cap0, hi.cap1, ?_, hi.burn, hi.clean, hi.rate, hi.full, hi.start, log_snoc hi.log hi.rem, le_refl _⟩, by simp, rfl, rfl, rfl, hi.rem, Or.inl ⟨⟨hp.c, hp.t, hp.b, hp.k⟩, rfl⟩⟩
    show 0 ≤ s.offRem - s.rem
    linarith
  · rename_i h
    refine ⟨⟨hi.cap0, hi.cap1, le_refl _, hi.burn, hi.clean, hi.rate, ?_, ?_, log_snoc hi.log hi.off, ?_⟩, ?_, rfl, rfl, rfl, ?_, Or.inr ?_⟩
    · intro hf
      have hf' : s.full = true := hf
      exact ⟨(hi.full hf').1, Or.inr (by simp [hf'])⟩
    · intro hb _
      have hb' : (s.burning || s.full) = true := hb
      rw [hp.b] at hb'
      exact (hi.full (by simpa using hb')).1
    · show 0 ≤ s.rem - s.offRem
      linarith
    · simp
    · show s.rem - s.offRem ≤ s.rem
      linarith
    · cases hf : s.full with
      | true => exact Or.inl ⟨⟨by simp [hp.c], by simp, by simp [hp.b], hp.k⟩, rfl⟩
      | false => exact Or.inr ⟨⟨by simp [hp.c], by simp, by simp [hp.b], hp.k⟩, rfl⟩

theorem startBurn_ok {c : Cfg} {s : St} (hc : Good c) (hi : Inv c s) (hp : Is s .burn) :
    0 ≤ (startBurn c s).burnRem ∧ (startBurn c s).burnTime ≠ none ∧ (startBurn c s).cap = s.cap ∧ (startBurn c s).rem = s.rem ∧
    (startBurn c s).log = s.log ∧ (startBurn c s).offRem = s.offRem ∧ (startBurn c s).cleanRem = s.cleanRem ∧
    (startBurn c s).burnRate = s.burnRate ∧ (startBurn c s).tsCollected = s.tsCollected ∧ (startBurn c s).tsBurned = s.tsBurned ∧
    (startBurn c s).timeBurning = s.timeBurning ∧ Is (startBurn c s) .burn := by
  unfold startBurn
  cases h : s.burnTime with
  | some x => exact ⟨hi.burn, by simp [h], rfl, rfl, rfl, rfl, rfl, rfl, rfl, rfl, rfl, hp⟩
  | none =>
    have hcap := hi.start (by rw [hp.b]; rfl) h
    have h1 := hc.draft
    have h2 := hi.rate
    refine ⟨?_, by simp, rfl, rfl, rfl, rfl, rfl, rfl, rfl, rfl, rfl, ⟨hp.c, hp.t, hp.b, hp.k⟩⟩
    dsimp only
    rw [hcap, close_zero, if_pos rfl]
    positivity

theorem burn_ok {c : Cfg} {s : St} (hc : Good c) (hi : Inv c s) (hp : Is s .burn) :
    Inv c (burn c s) ∧ total (burn c s).log + (burn c s).rem = total s.log + s.rem ∧
    (burn c s).tsCollected = s.tsCollected ∧ (burn c s).rem ≤ s.rem ∧ (burn c s).full = false ∧
    ((Is (burn c s) .burn ∧ (burn c s).rem = 0 ∧ (burn c s).cap = s.cap ∧ (burn c s).tsBurned = s.tsBurned) ∨
      (Is (burn c s) .clean ∧ (burn c s).cleanRem = 3600 ∧ (burn c s).cap = s.cap + (burn c s).tsBurned ∧
        (burn c s).timeBurning - s.timeBurning = totalOf .burn (burn c s).log - totalOf .burn s.log)) := by
  obtain ⟨a1, a2, a3, a4, a5, a6, a7, a8, a9, a10, a11, a12⟩ := startBurn_ok hc hi hp
  unfold burn
  generalize startBurn c s = u at *
  dsimp only
  have hr := hi.rem
  have h0 := hi.cap0
  have h1 := hi.cap1
  split
  · rename_i h
    refine ⟨⟨?_, ?_, ?_, ?_, ?_, ?_, by simp, ?_, ?_, le_refl _⟩, ?_, a9, ?_, rfl, Or.inl ⟨⟨a12.c, a12.t, a12.b, a12.k⟩, rfl, a3, a10⟩⟩
    · show 0 ≤ u.cap; rw [a3]; exact h0
    · show u.cap ≤ _; rw [a3]; exact h1
    · show 0 ≤ u.offRem; rw [a6]; exact hi.off
    · show 0 ≤ u.burnRem - u.rem; linarith
    · show 0 ≤ u.cleanRem; rw [a7]; exact hi.clean
    · show 0 ≤ u.burnRate.getD 0; rw [a8]; exact hi.rate
    · intro _ hb; exact absurd hb a2
    · refine log_snoc ?_ ?_
      · rw [a5]; exact hi.log
      · rw [a4]; exact hr
    · simp [a4, a5]
    · exact hr
  · rename_i h
    have h := not_lt.1 h
    split
    · refine ⟨⟨?_, ?_, ?_, ?_, ?_, ?_, by simp, by simp, ?_, ?_⟩, ?_, a9, ?_, rfl, Or.inr ⟨⟨a12.c, a12.t, rfl, rfl⟩, rfl, ?_, ?_⟩⟩
      · show 0 ≤ u.cap + (c.capMax - u.cap); linarith [hc.cap]
      · show u.cap + (c.capMax - u.cap) ≤ _; linarith
      · show 0 ≤ u.offRem; rw [a6]; exact hi.off
      · exact le_refl _
      · show (0 : ℚ) ≤ 3600; norm_num
      · show 0 ≤ u.burnRate.getD 0; rw [a8]; exact hi.rate
      · refine log_snoc ?_ a1
        rw [a5]; exact hi.log
      · show 0 ≤ u.rem - u.burnRem; linarith
      · simp [a4, a5]
      · show u.rem - u.burnRem ≤ _; linarith
      · show u.cap + (c.capMax - u.cap) = s.cap + (c.capMax - u.cap); rw [a3]
      · show u.timeBurning + u.burnRem - _ = totalOf .burn (u.log ++ [(Act.burn, u.burnRem)]) - _
        rw [a11, a5]
        simp [totalOf, total]
    · rename_i h'
      have hz : s.rem = 0 := by rw [← a4]; linarith
      refine ⟨⟨?_, ?_, ?_, ?_, ?_, ?_, by simp, ?_, ?_, ?_⟩, ?_, a9, ?_, rfl, Or.inl ⟨⟨a12.c, a12.t, a12.b, a12.k⟩, ?_, a3, a10⟩⟩
      · show 0 ≤ u.cap; rw [a3]; exact h0
      · show u.cap ≤ _; rw [a3]; exact h1
      · show 0 ≤ u.offRem; rw [a6]; exact hi.off
      · show 0 ≤ u.burnRem; exact a1
      · show 0 ≤ u.cleanRem; rw [a7]; exact hi.clean
      · show 0 ≤ u.burnRate.getD 0; rw [a8]; exact hi.rate
      · intro _ hb; exact absurd hb a2
      · show ∀ e ∈ u.log, _; rw [a5]; exact hi.log
      · show 0 ≤ u.rem; rw [a4]; exact hr
      · show total u.log + u.rem = _; rw [a4, a5]
      · show u.rem ≤ _; rw [a4]
      · show u.rem = 0; rw [a4]; exact hz

theorem clean_ok {c : Cfg} {s : St} (active : Bool) (hc : Good c) (hi : Inv c s) (hp : Is s .clean) (hnf : s.full = false) :
    Inv c (clean c active s) ∧ total (clean c active s).log + (clean c active s).rem ≤ total s.log + s.rem ∧
    (active = true → total (clean c active s).log + (clean c active s).rem = total s.log + s.rem) ∧
    (clean c active s).cap = s.cap ∧ (clean c active s).tsCollected = s.tsCollected ∧ (clean c active s).tsBurned = s.tsBurned ∧
    (clean c active s).timeBurning = s.timeBurning ∧ totalOf .burn (clean c active s).log = totalOf .burn s.log ∧
    (clean c active s).full = false ∧
    ((Is (clean c active s) .clean ∧ (clean c active s).rem = 0) ∨
      (Is (clean c active s) .transit ∧ (clean c active s).rem ≤ s.rem - s.cleanRem) ∨
      (Is (clean c active s) .idle ∧ (clean c active s).rem = 0)) := by
  unfold clean
  dsimp only
  have hr := hi.rem
  have hk := hi.clean
  split
  · rename_i h
    refine ⟨⟨hi.cap0, hi.cap1, hi.off, hi.burn, ?_, by simp, ?_, ?_, log_snoc hi.log hr, le_refl _⟩, ?_, ?_, rfl, rfl, rfl, rfl, ?_, hnf,
      Or.inl ⟨⟨hp.c, hp.t, hp.b, hp.k⟩, rfl⟩⟩
    · show 0 ≤ s.cleanRem - s.rem; linarith
    · intro hf; have hf' : s.full = true := hf; rw [hnf] at hf'; exact absurd hf' (by simp)
    · intro hb; have hb' : s.burning = true := hb; rw [hp.b] at hb'; exact absurd hb' (by simp)
    · simp
    · simp
    · simp [totalOf, total]
  · rename_i h
    have h := not_lt.1 h
    split
    · split
      · refine ⟨⟨hi.cap0, hi.cap1, hc.offset, hi.burn, le_refl _, by simp, ?_, ?_, log_snoc hi.log hk, ?_⟩, ?_, ?_, rfl, rfl, rfl, rfl, ?_, hnf,
          Or.inr (Or.inl ⟨⟨hp.c, rfl, hp.b, rfl⟩, le_refl _⟩)⟩
        · intro hf; have hf' : s.full = true := hf; rw [hnf] at hf'; exact absurd hf' (by simp)
        · intro hb; have hb' : s.burning = true := hb; rw [hp.b] at hb'; exact absurd hb' (by simp)
        · show 0 ≤ s.rem - s.cleanRem; linarith
        · simp
        · simp
        · simp [totalOf, total]
      · refine ⟨⟨hi.cap0, hi.cap1, hi.off, hi.burn, le_refl _, by simp, ?_, ?_, log_snoc hi.log hk, le_refl _⟩, ?_, ?_, rfl, rfl, rfl, rfl, ?_, hnf,
          Or.inr (Or.inr ⟨⟨hp.c, hp.t, hp.b, rfl⟩, rfl⟩)⟩
        · intro hf; have hf' : s.full = true := hf; rw [hnf] at hf'; exact absurd hf' (by simp)
        · intro hb; have hb' : s.burning = true := hb; rw [hp.b] at hb'; exact absurd hb' (by simp)
        · simp; linarith
        · intro ha; exact absurd ha (by assumption)
        · simp [totalOf, total]
    · rename_i h'
      have hz : s.rem = 0 := by linarith
      refine ⟨⟨hi.cap0, hi.cap1, hi.off, hi.burn, hi.clean, by simp, ?_, ?_, hi.log, hi.rem⟩, le_refl _, fun _ => rfl, rfl, rfl, rfl, rfl, rfl, hnf,
        Or.inl ⟨⟨hp.c, hp.t, hp.b, hp.k⟩, hz⟩⟩
      · intro hf; have hf' : s.full = true := hf; rw [hnf] at hf'; exact absurd hf' (by simp)
      · intro hb; have hb' : s.burning = true := hb; rw [hp.b] at hb'; exact absurd hb' (by simp)

end Verif.Roc.Burn
