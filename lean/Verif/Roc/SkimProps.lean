import Verif.Roc.SkimModel
import Mathlib.Tactic.Linarith
import Mathlib.Tactic.FieldSimp
import Mathlib.Tactic.Ring
import Mathlib.Tactic.NormNum
import Mathlib.Tactic.Positivity
import Mathlib.Data.Rat.Floor
/-!
# The skimmer of ROC (C140, C141, C142)
-/
namespace Verif.Roc.Skim

/-- sensible settings -/
structure Good (c : Cfg) : Prop where
  storage : 0 < c.storage
  swath : 0 ≤ c.swath
  speed : 0 < c.speed
  throughput : 0 ≤ c.throughput
  nameplate : 0 < c.nameplate
  recovery : 0 ≤ c.recovery
  recovery1 : c.recovery ≤ 1
  decant : 0 ≤ c.decant
  decant1 : c.decant ≤ 1
  decantPump : 0 ≤ c.decantPump
  dischargePump : 0 < c.dischargePump
  rigTime : 0 ≤ c.rigTime
  transitTime : 0 ≤ c.transitTime

structure GoodOil (o : Oil) : Prop where
  thick : 0 ≤ o.thick
  water : 0 ≤ o.water
  water1 : o.water ≤ 1

/-! ## the rates -/

theorem enc_pos {c : Cfg} {o : Oil} (hc : Good c) (ho : GoodOil o) (h : 0 < enc c o) :
    0 < c.recovery ∧ 0 < c.throughput ∧ 0 < o.thick ∧ enc c o * c.throughput / c.recovery ≤ c.nameplate := by
  unfold enc at h
  have h1 : 0 < o.thick * c.speed * swath c o := by
    by_contra hn
    have : o.thick * c.speed * swath c o * (6313 / 100) ≤ 0 := mul_nonpos_of_nonpos_of_nonneg (not_lt.1 hn) (by norm_num)
    linarith
  have ht : 0 < o.thick := by
    rcases ho.thick.lt_or_eq with h2 | h2
    · exact h2
    · rw [← h2] at h1; simp at h1
  have hs : 0 < swath c o := by
    by_contra hn
    have : o.thick * c.speed * swath c o ≤ 0 := mul_nonpos_of_nonneg_of_nonpos (mul_nonneg ht.le hc.speed.le) (not_lt.1 hn)
    linarith
  have hle : swath c o ≤ maxSwath c o := by
    unfold swath; split
    · exact le_refl _
    · exact not_lt.1 ‹_›
  have hm : 0 < maxSwath c o := hs.trans_le hle
  have hcond : 0 < c.recovery ∧ 0 < c.throughput ∧ 0 < o.thick := by
    by_contra hn
    unfold maxSwath at hm
    rw [if_neg hn] at hm
    exact lt_irrefl _ hm
  obtain ⟨hr, htp, _⟩ := hcond
  refine ⟨hr, htp, ht, ?_⟩
  have hM : maxSwath c o = c.nameplate * c.recovery / (6313 / 100 * c.speed * o.thick * c.throughput) := by
    unfold maxSwath; rw [if_pos ⟨hr, htp, ht⟩]
  rw [hM] at hle
  rw [div_le_iff₀ hr]
  unfold enc
  have hsp := hc.speed
  have hd : 0 < 6313 / 100 * c.speed * o.thick * c.throughput := by positivity
  rw [le_div_iff₀ hd] at hle
  linarith

/-- C140: whatever the oil, when there is something to skim: the pump is not asked for more than its nameplate says, and the throughput
is the user's; the fluid is emulsion and water; all water is decanted or retained; what is decanted is the user's part of it, limited by
the pump; and nothing is negative. -/
theorem C140_rates {c : Cfg} {o : Oil} {r : Rates} (hc : Good c) (ho : GoodOil o) (h : how c o = .rates r) :
    r.fluid ≤ c.nameplate ∧ r.throughput = c.throughput ∧
    r.emulsion = c.recovery * r.fluid ∧ r.fluid = r.emulsion + r.water ∧
    r.water = r.waterDecanted + r.waterRetained ∧ r.retain = r.emulsion + r.waterRetained ∧
    r.waterDecanted = min (c.decant * r.water) c.decantPump ∧
    0 < r.emulsion ∧ 0 ≤ r.water ∧ 0 ≤ r.waterDecanted ∧ 0 ≤ r.waterRetained ∧ 0 ≤ r.oil ∧ r.oil ≤ r.emulsion ∧ 0 < r.retain := by
  unfold how at h
  split at h
  · rename_i he
    obtain ⟨h1, h2, h3, h4⟩ := enc_pos hc ho he
    rw [if_pos h1] at h
    have hf : fluid c (enc c o) = (enc c o * c.throughput / c.recovery, c.throughput) := by
      unfold fluid
      dsimp only
      rw [if_neg (not_lt.2 h4)]
    rw [hf, if_pos h2] at h
    cases h
    unfold ratesOf
    simp only [hf]
    have hE : enc c o * c.throughput / c.recovery * c.recovery = enc c o * c.throughput := div_mul_cancel₀ _ h1.ne'
    have hfl : 0 < enc c o * c.throughput / c.recovery := by positivity
    generalize hF : enc c o * c.throughput / c.recovery = F at *
    have hw : F - enc c o * c.throughput = (1 - c.recovery) * F := by rw [← hE]; ring
    have hw0 : 0 ≤ (1 - c.recovery) * F := mul_nonneg (by linarith [hc.recovery1]) hfl.le
    rw [hw]
    generalize (1 - c.recovery) * F = W at *
    have hem : 0 < enc c o * c.throughput := by positivity
    generalize enc c o * c.throughput = E at *
    have hd0 := hc.decant
    have hd1 := hc.decant1
    have hdp := hc.decantPump
    have hdW : c.decant * W ≤ W := by nlinarith
    have hdW0 : 0 ≤ c.decant * W := mul_nonneg hd0 hw0
    refine ⟨h4, trivial, by linarith, by linarith, by ring, by ring, ?_, hem, by linarith, ?_, ?_, ?_, ?_, ?_⟩
    · by_cases hp : c.decantPump < c.decant * W
      · rw [if_pos hp]
        have e : c.decant * (E + W - E) = c.decant * W := by ring
        rw [e, min_eq_right hp.le]; ring
      · rw [if_neg hp]
        have e : c.decant * (E + W - E) = c.decant * W := by ring
        rw [e, min_eq_left (not_lt.1 hp)]; ring
    · split <;> nlinarith
    · split <;> nlinarith
    · exact mul_nonneg hem.le (by linarith [ho.water1])
    · nlinarith [ho.water]
    · split <;> nlinarith
  · simp at h

/-- C140: when there is something to skim, it is skimmed. -/
theorem C140_some {c : Cfg} {o : Oil} (hc : Good c) (ho : GoodOil o) : how c o ≠ .noOp ∧ (how c o = .nothing ↔ ¬ 0 < enc c o) := by
  unfold how
  split
  · rename_i he
    obtain ⟨h1, h2, h3, h4⟩ := enc_pos hc ho he
    rw [if_pos h1]
    have hf : fluid c (enc c o) = (enc c o * c.throughput / c.recovery, c.throughput) := by
      unfold fluid
      dsimp only
      rw [if_neg (not_lt.2 h4)]
    rw [hf, if_pos h2]
    exact ⟨by simp, by simp [he]⟩
  · rename_i he
    exact ⟨by simp, by simp [he]⟩

/-! ## the time -/

def total (l : List (Act × ℚ)) : ℚ := (l.map Prod.snd).sum

def totalOf (a : Act) (l : List (Act × ℚ)) : ℚ := total (l.filter (fun e => e.1 == a))

@[simp] theorem total_append (l : List (Act × ℚ)) (a : Act) (x : ℚ) : total (l ++ [(a, x)]) = total l + x := by simp [total]

inductive Phase | collect | transit | offload
deriving DecidableEq

structure Is (s : St) (p : Phase) : Prop where
  c : s.collecting = decide (p = .collect)
  t : s.transiting = decide (p = .transit)
  o : s.offloading = decide (p = .offload)

structure Inv (c : Cfg) (s : St) : Prop where
  room0 : 0 ≤ s.room
  room1 : s.room ≤ c.storage
  tr : 0 ≤ s.transitRem
  off : 0 ≤ s.offloadRem
  log : ∀ e ∈ s.log, 0 ≤ e.2
  rem : 0 ≤ s.rem

theorem log_snoc {l : List (Act × ℚ)} {a : Act} {x : ℚ} (h : ∀ e ∈ l, 0 ≤ e.2) (hx : 0 ≤ x) : ∀ e ∈ l ++ [(a, x)], 0 ≤ e.2 := by
  intro e he
  rcases List.mem_append.1 he with h1 | h1
  · exact h e h1
  · simp at h1; subst h1; exact hx

/-- the amounts of the step are the rates times the time spent skimming -/
def Led (h : How) (s : St) : Prop :=
  match h with
  | .rates r => s.tsTime = totalOf .skim s.log ∧ s.tsFluid = r.retain * s.tsTime / 60 ∧ s.tsEmulsion = r.emulsion * s.tsTime / 60 ∧
      s.tsOil = r.oil * s.tsTime / 60 ∧ s.tsWater = r.water * s.tsTime / 60 ∧ s.tsDecanted = r.waterDecanted * s.tsTime / 60 ∧
      s.tsRetained = r.waterRetained * s.tsTime / 60 ∧ s.tsArea = r.area * s.tsTime / 60
  | _ => s.tsTime = 0 ∧ s.tsFluid = 0 ∧ s.tsEmulsion = 0 ∧ s.tsOil = 0 ∧ s.tsWater = 0 ∧ s.tsDecanted = 0 ∧ s.tsRetained = 0 ∧ s.tsArea = 0

structure Keep (c : Cfg) (h : How) (s s' : St) : Prop where
  inv : Inv c s'
  eq : total s'.log + s'.rem = total s.log + s.rem
  rem : s'.rem ≤ s.rem
  led : Led h s → Led h s'

theorem Keep.refl {c : Cfg} {h : How} {s : St} (hi : Inv c s) : Keep c h s s := ⟨hi, rfl, le_refl _, id⟩

theorem Keep.trans {c : Cfg} {h : How} {s s' s'' : St} (h1 : Keep c h s s') (h2 : Keep c h s' s'') : Keep c h s s'' :=
  ⟨h2.inv, h2.eq.trans h1.eq, h2.rem.trans h1.rem, fun h => h2.led (h1.led h)⟩

theorem collect_ok {c : Cfg} {h : How} {s : St} (hc : Good c) (hn : h ≠ .noOp) (hh : ∀ r, h = .rates r → 0 < r.retain) (hi : Inv c s) (hp : Is s .collect)
    (hr : 0 < s.rem) :
    Keep c h s (collect c h s) ∧ ((Is (collect c h s) .collect ∧ (collect c h s).rem = 0) ∨ (Is (collect c h s) .transit ∧ (collect c h s).room = 0)) := by
  unfold collect
  cases h with
  | noOp => exact absurd rfl hn
  | nothing =>
    dsimp only
    exact ⟨⟨⟨hi.room0, hi.room1, hi.tr, hi.off, log_snoc hi.log hi.rem, le_refl _⟩, by simp, hi.rem, id⟩, Or.inl ⟨⟨hp.c, hp.t, hp.o⟩, rfl⟩⟩
  | rates r =>
    have hret := hh r rfl
    have hroom := hi.room0
    have ht0 : 0 ≤ timeToFill s.room r.retain := by unfold timeToFill; positivity
    have hgot : r.retain * (timeToFill s.room r.retain / 60) = 42 * s.room := by
      unfold timeToFill; field_simp; ring
    dsimp only
    unfold gather
    dsimp only
    generalize timeToFill s.room r.retain = ttf at *
    by_cases hlt : s.rem < ttf
    · simp only [hlt, decide_true, Bool.not_true, Bool.false_eq_true, if_false]
      have hg0 : 0 ≤ r.retain * (s.rem / 60) := by have := hi.rem; positivity
      refine ⟨⟨⟨?_, ?_, hi.tr, hi.off, log_snoc hi.log hi.rem, le_refl _⟩, by simp, hi.rem, ?_⟩, Or.inl ⟨⟨hp.c, hp.t, hp.o⟩, trivial⟩⟩
      · dsimp only; split
        · exact le_refl _
        · rename_i hx; linarith
      · dsimp only; split
        · exact hc.storage.le
        · linarith [hi.room1]
      · rintro ⟨l1, l2, l3, l4, l5, l6, l7, l8⟩
        refine ⟨by simp [totalOf, l1], ?_, ?_, ?_, ?_, ?_, ?_, ?_⟩ <;> dsimp only <;>
          first | (rw [l2]; ring) | (rw [l3]; ring) | (rw [l4]; ring) | (rw [l5]; ring) | (rw [l6]; ring) | (rw [l7]; ring) | (rw [l8]; ring)
    · simp only [hlt, decide_false, Bool.not_false, if_true]
      have hle := not_lt.1 hlt
      have hroom' : (if s.room < r.retain * (ttf / 60) then 0 else s.room - r.retain * (ttf / 60)) = 0 := by
        rw [hgot]
        split
        · rfl
        · linarith
      refine ⟨⟨⟨?_, ?_, mul_nonneg hc.transitTime (by norm_num), hi.off, log_snoc hi.log ht0, by dsimp only; linarith⟩, by simp, by dsimp only; linarith, ?_⟩,
        Or.inr ⟨⟨rfl, rfl, hp.o⟩, hroom'⟩⟩
      · dsimp only; rw [hroom']
      · dsimp only; rw [hroom']; exact hc.storage.le
      · rintro ⟨l1, l2, l3, l4, l5, l6, l7, l8⟩
        refine ⟨by simp [totalOf, l1], ?_, ?_, ?_, ?_, ?_, ?_, ?_⟩ <;> dsimp only <;>
          first | (rw [l2]; ring) | (rw [l3]; ring) | (rw [l4]; ring) | (rw [l5]; ring) | (rw [l6]; ring) | (rw [l7]; ring) | (rw [l8]; ring)

theorem led_log {h : How} {s s' : St} (hl : Led h s) (h1 : totalOf .skim s'.log = totalOf .skim s.log) (h2 : s'.tsTime = s.tsTime)
    (h3 : s'.tsFluid = s.tsFluid) (h4 : s'.tsEmulsion = s.tsEmulsion) (h5 : s'.tsOil = s.tsOil) (h6 : s'.tsWater = s.tsWater)
    (h7 : s'.tsDecanted = s.tsDecanted) (h8 : s'.tsRetained = s.tsRetained) (h9 : s'.tsArea = s.tsArea) : Led h s' := by
  unfold Led at *
  rw [h1, h2, h3, h4, h5, h6, h7, h8, h9]
  exact hl

theorem transit_ok {c : Cfg} (h : How) {s : St} (hc : Good c) (hi : Inv c s) (hp : Is s .transit) :
    Keep c h s (transit c s) ∧ ((Is (transit c s) .transit ∧ (transit c s).rem = 0 ∧ (transit c s).room = s.room) ∨
      (Is (transit c s) .offload ∧ s.room = 0 ∧ (transit c s).offloadRem = offloadTime c + c.rigTime * 60) ∨
      (Is (transit c s) .collect ∧ s.room ≠ 0)) := by
  have ho : 0 ≤ offloadTime c + c.rigTime * 60 := by
    have := hc.storage; have := hc.dischargePump; have := hc.rigTime; unfold offloadTime; positivity
  unfold transit
  dsimp only
  split
  · rename_i hle
    split
    · rename_i hr
      exact ⟨⟨⟨hi.room0, hi.room1, le_refl _, ho, log_snoc hi.log hi.tr, by dsimp only; linarith⟩, by simp, by dsimp only; linarith [hi.tr],
        fun hl => led_log hl (by simp [totalOf, total]) rfl rfl rfl rfl rfl rfl rfl rfl⟩, Or.inr (Or.inl ⟨⟨hp.c, rfl, rfl⟩, hr, rfl⟩)⟩
    · rename_i hr
      exact ⟨⟨⟨hi.room0, hi.room1, le_refl _, hi.off, log_snoc hi.log hi.tr, by dsimp only; linarith⟩, by simp, by dsimp only; linarith [hi.tr],
        fun hl => led_log hl (by simp [totalOf, total]) rfl rfl rfl rfl rfl rfl rfl rfl⟩, Or.inr (Or.inr ⟨⟨rfl, rfl, hp.o⟩, hr⟩)⟩
  · rename_i hlt
    exact ⟨⟨⟨hi.room0, hi.room1, by dsimp only; linarith, hi.off, log_snoc hi.log hi.rem, le_refl _⟩, by simp, hi.rem,
        fun hl => led_log hl (by simp [totalOf, total]) rfl rfl rfl rfl rfl rfl rfl rfl⟩, Or.inl ⟨⟨hp.c, hp.t, hp.o⟩, rfl, rfl⟩⟩

theorem offload_ok {c : Cfg} (h : How) {s : St} (hc : Good c) (hi : Inv c s) (hp : Is s .offload) :
    Keep c h s (offload c s) ∧ ((Is (offload c s) .offload ∧ (offload c s).rem = 0) ∨
      (Is (offload c s) .transit ∧ (offload c s).room = c.storage ∧ (offload c s).rem = s.rem - s.offloadRem)) := by
  unfold offload
  split
  · exact ⟨⟨⟨hc.storage.le, le_refl _, mul_nonneg hc.transitTime (by norm_num), le_refl _, log_snoc hi.log hi.off, by dsimp only; linarith⟩, by simp,
      by dsimp only; linarith [hi.off], fun hl => led_log hl (by simp [totalOf, total]) rfl rfl rfl rfl rfl rfl rfl rfl⟩, Or.inr ⟨⟨hp.c, rfl, rfl⟩, rfl, rfl⟩⟩
  · exact ⟨⟨⟨hi.room0, hi.room1, hi.tr, by dsimp only; linarith, log_snoc hi.log hi.rem, le_refl _⟩, by simp, hi.rem,
      fun hl => led_log hl (by simp [totalOf, total]) rfl rfl rfl rfl rfl rfl rfl rfl⟩, Or.inl ⟨⟨hp.c, hp.t, hp.o⟩, rfl⟩⟩

def rank (p : Phase) (s : St) : Nat :=
  match p with
  | .collect => 0
  | .transit => if s.room = 0 then 0 else 1
  | .offload => 2

theorem pass_ok {c : Cfg} {h : How} {s : St} (hc : Good c) (hn : h ≠ .noOp) (hh : ∀ r, h = .rates r → 0 < r.retain) (hi : Inv c s) {p : Phase}
    (hp : Is s p) (hr : 0 < s.rem) :
    Keep c h s (pass c h s) ∧ ∃ q, Is (pass c h s) q ∧ ((pass c h s).rem = 0 ∨ (pass c h s).rem ≤ s.rem - (offloadTime c + c.rigTime * 60) ∨
      rank q (pass c h s) < rank p s) := by
  -- the end of a pass from offloading
  have off : ∀ u : St, Inv c u → Is u .offload → Keep c h u (if u.offloading then offload c u else u) ∧
      ∃ q, Is (if u.offloading then offload c u else u) q ∧ ((if u.offloading then offload c u else u).rem = 0 ∨
        (q = .transit ∧ (if u.offloading then offload c u else u).room = c.storage ∧ (if u.offloading then offload c u else u).rem = u.rem - u.offloadRem)) := by
    intro u hu hpu
    rw [if_pos (show u.offloading = true by rw [hpu.o]; rfl)]
    obtain ⟨k, e⟩ := offload_ok h hc hu hpu
    rcases e with ⟨a, b⟩ | ⟨a, b, d⟩
    · exact ⟨k, _, a, Or.inl b⟩
    · exact ⟨k, _, a, Or.inr ⟨rfl, b, d⟩⟩
  -- from transit
  have tr : ∀ u : St, Inv c u → Is u .transit → 
      Keep c h u (let v := transit c u; if v.offloading then offload c v else v) ∧
      ∃ q, Is (let v := transit c u; if v.offloading then offload c v else v) q ∧
        ((let v := transit c u; if v.offloading then offload c v else v).rem = 0 ∨
         (let v := transit c u; if v.offloading then offload c v else v).rem ≤ u.rem - (offloadTime c + c.rigTime * 60) ∨ (q = .collect ∧ u.room ≠ 0)) := by
    intro u hu hpu
    obtain ⟨k, e⟩ := transit_ok h hc hu hpu
    dsimp only
    generalize transit c u = v at *
    rcases e with ⟨a, b, _⟩ | ⟨a, b, d⟩ | ⟨a, b⟩
    · rw [if_neg (show ¬ v.offloading = true by rw [a.o]; simp)]
      exact ⟨k, _, a, Or.inl b⟩
    · obtain ⟨k2, q, a2, e2⟩ := off v k.inv a
      refine ⟨k.trans k2, q, a2, e2.imp id (fun e2 => Or.inl ?_)⟩
      rw [e2.2.2, d]
      linarith [k.rem]
    · rw [if_neg (show ¬ v.offloading = true by rw [a.o]; simp)]
      exact ⟨k, _, a, Or.inr (Or.inr ⟨rfl, b⟩)⟩
  have hpass : pass c h s = (let v := (if s.collecting then collect c h s else s)
      let w := if v.transiting then transit c v else v
      if w.offloading then offload c w else w) := rfl
  rw [hpass]
  cases p with
  | collect =>
    have e1 : s.collecting = true := by rw [hp.c]; rfl
    simp only [e1, if_true]
    obtain ⟨k, e⟩ := collect_ok hc hn hh hi hp hr
    generalize collect c h s = v at *
    rcases e with ⟨a, b⟩ | ⟨a, b⟩
    · have e2 : v.transiting = false := by rw [a.t]; rfl
      have e3 : v.offloading = false := by rw [a.o]; rfl
      simp only [e2, e3, Bool.false_eq_true, if_false]
      exact ⟨k, _, a, Or.inl b⟩
    · have e2 : v.transiting = true := by rw [a.t]; rfl
      simp only [e2, if_true]
      obtain ⟨k2, q, a2, f⟩ := tr v k.inv a
      refine ⟨k.trans k2, q, a2, ?_⟩
      rcases f with f | f | f
      · exact Or.inl f
      · exact Or.inr (Or.inl (f.trans (by linarith [k.rem])))
      · exact absurd b f.2
  | transit =>
    have e1 : s.collecting = false := by rw [hp.c]; rfl
    have e2 : s.transiting = true := by rw [hp.t]; rfl
    simp only [e1, Bool.false_eq_true, if_false]
    simp only [e2, if_true]
    obtain ⟨k2, q, a2, f⟩ := tr s hi hp
    refine ⟨k2, q, a2, ?_⟩
    rcases f with f | f | ⟨rfl, f⟩
    · exact Or.inl f
    · exact Or.inr (Or.inl f)
    · exact Or.inr (Or.inr (by simp [rank, f]))
  | offload =>
    have e1 : s.collecting = false := by rw [hp.c]; rfl
    have e2 : s.transiting = false := by rw [hp.t]; rfl
    simp only [e1, Bool.false_eq_true, if_false]
    simp only [e2, Bool.false_eq_true, if_false]
    obtain ⟨k, q, a, f⟩ := off s hi hp
    refine ⟨k, q, a, f.imp id (fun f => Or.inr ?_)⟩
    obtain ⟨rfl, f1, _⟩ := f
    have hx : ∀ x : ℚ, (if x = 0 then 0 else 1 : Nat) < 2 := by intro x; split <;> omega
    exact hx _

theorem loop_ok {c : Cfg} {h : How} {active : Bool} (hc : Good c) (hn : h ≠ .noOp) (hh : ∀ r, h = .rates r → 0 < r.retain) :
    ∀ (n : Nat) (s s' : St) (p : Phase), Inv c s → Is s p → loop c h active n s = some s' →
    Keep c h s s' ∧ (∃ q, Is s' q) ∧ (active = true → s'.rem = 0) := by
  intro n
  have stop : ∀ s : St, Inv c s → ¬ goes active s → active = true → s.rem = 0 := by
    intro s hi hg ha
    by_contra hne
    exact hg ⟨lt_of_le_of_ne hi.rem (Ne.symm hne), Or.inl ha⟩
  induction n with
  | zero =>
    intro s s' p hi hp h
    unfold loop at h
    split at h
    · simp at h
    · cases h; exact ⟨Keep.refl hi, ⟨p, hp⟩, stop s hi ‹_›⟩
  | succ n ih =>
    intro s s' p hi hp h
    unfold loop at h
    split at h
    · rename_i hg
      obtain ⟨k, q, a, _⟩ := pass_ok hc hn hh hi hp hg.1
      obtain ⟨k2, a2, r2⟩ := ih _ s' q k.inv a h
      exact ⟨k.trans k2, a2, r2⟩
    · cases h; exact ⟨Keep.refl hi, ⟨p, hp⟩, stop s hi ‹_›⟩

theorem off_pos {c : Cfg} (hc : Good c) : 0 < offloadTime c + c.rigTime * 60 := by
  have := hc.storage; have := hc.dischargePump; have := hc.rigTime; unfold offloadTime; positivity

theorem loop_ends {c : Cfg} {h : How} (active : Bool) (hc : Good c) (hn : h ≠ .noOp) (hh : ∀ r, h = .rates r → 0 < r.retain) :
    ∀ (m : Nat) (s : St) (p : Phase), Inv c s → Is s p →
    3 * ⌊s.rem / (offloadTime c + c.rigTime * 60)⌋.toNat + rank p s < m → ∃ s', loop c h active m s = some s' := by
  have hO := off_pos hc
  generalize hOe : offloadTime c + c.rigTime * 60 = O at *
  intro m
  induction m with
  | zero => intro s p _ _ h; omega
  | succ m ih =>
    intro s p hi hp hm
    unfold loop
    split
    · rename_i hg
      obtain ⟨k1, q, k3, k4⟩ := pass_ok hc hn hh hi hp hg.1
      rw [hOe] at k4
      generalize pass c h s = u at *
      have hu := k1.inv.rem
      have f0 : 0 ≤ ⌊u.rem / O⌋ := Int.floor_nonneg.2 (by positivity)
      rcases k4 with k | k | k
      · refine ⟨u, ?_⟩
        have hz : ¬ goes active u := fun hg => by have := hg.1; rw [k] at this; exact lt_irrefl _ this
        cases m with
        | zero => unfold loop; rw [if_neg hz]
        | succ m => unfold loop; rw [if_neg hz]
      · refine ih u q k1.inv k3 ?_
        have hf : ⌊u.rem / O⌋ + 1 ≤ ⌊s.rem / O⌋ := by
          rw [Int.le_floor]
          have := Int.floor_le (u.rem / O)
          push_cast
          have h2 : u.rem / O ≤ s.rem / O - 1 := by
            rw [div_le_iff₀ hO, sub_mul, div_mul_cancel₀ _ hO.ne']; linarith
          linarith
        have hrk : rank q u ≤ 2 := by
          unfold rank; split
          · omega
          · split <;> omega
          · exact le_refl _
        omega
      · refine ih u q k1.inv k3 ?_
        have hf : ⌊u.rem / O⌋ ≤ ⌊s.rem / O⌋ := Int.floor_le_floor (div_le_div_of_nonneg_right k1.rem hO.le)
        omega
    · exact ⟨s, rfl⟩

/-! ## the steps -/

/-- the states a skimmer can be in after any number of steps -/
inductive Reach (c : Cfg) : St → Prop
  | new : Reach c (new c)
  | step {s s' : St} (o : Oil) (active : Bool) (dt : ℚ) (n : Nat) : Reach c s → GoodOil o → 0 ≤ dt → step c o active dt n s = some s' → Reach c s'

theorem how_ok {c : Cfg} {o : Oil} (hc : Good c) (ho : GoodOil o) : how c o ≠ .noOp ∧ ∀ r, how c o = .rates r → 0 < r.retain :=
  ⟨(C140_some hc ho).1, fun r hr => by
    obtain ⟨_, _, _, _, _, _, _, _, _, _, _, _, _, h⟩ := C140_rates hc ho hr
    exact h⟩

theorem led_start (h : How) (s : St) (dt : ℚ) : Led h { s with log := [], tsFills := 0, tsEmulsion := 0, tsOil := 0, tsWater := 0, tsDecanted := 0, tsRetained := 0, tsArea := 0, tsTime := 0, tsFluid := 0, rem := dt } := by
  unfold Led
  split <;> simp [totalOf, total]

theorem step_ok {c : Cfg} {o : Oil} {s s' : St} {active : Bool} {dt : ℚ} {n : Nat} (hc : Good c) (ho : GoodOil o) (hdt : 0 ≤ dt)
    (hi : Inv c s) {p : Phase} (hp : Is s p) (h : step c o active dt n s = some s') :
    Inv c s' ∧ (∃ q, Is s' q) ∧
    ((active || s.transiting || s.offloading) = true → total s'.log ≤ dt ∧ (active = true → total s'.log = dt) ∧ Led (how c o) s') := by
  obtain ⟨h1, h2⟩ := how_ok hc ho
  unfold step at h
  split at h
  · obtain ⟨k, q, r⟩ := loop_ok hc h1 h2 n _ s' p (by exact ⟨hi.room0, hi.room1, hi.tr, hi.off, by simp, hdt⟩) (by exact ⟨hp.c, hp.t, hp.o⟩) h
    have e := k.eq
    have t0 : total ([] : List (Act × ℚ)) = 0 := rfl
    simp only [t0, zero_add] at e
    refine ⟨k.inv, q, fun _ => ⟨by linarith [k.inv.rem], fun ha => by rw [r ha] at e; linarith, k.led (led_start _ s dt)⟩⟩
  · rename_i hne
    cases h
    exact ⟨hi, ⟨p, hp⟩, fun h => absurd h hne⟩

theorem reach_ok {c : Cfg} {s : St} (hc : Good c) (h : Reach c s) : Inv c s ∧ ∃ p, Is s p := by
  induction h with
  | new => exact ⟨⟨hc.storage.le, le_refl _, le_refl _, le_refl _, by simp [new], le_refl _⟩, .collect, ⟨rfl, rfl, rfl⟩⟩
  | step o active dt n _ ho hdt hs ih =>
    obtain ⟨i1, ⟨p, i2⟩⟩ := ih
    obtain ⟨k1, k2, _⟩ := step_ok hc ho hdt i1 i2 hs
    exact ⟨k1, k2⟩

/-- C141: in every step in which the skimmer is active, the times in the list of states are not negative, add up to no more than the
length of the step, and to all of it within the schedule. -/
theorem C141_time {c : Cfg} {o : Oil} {s s' : St} {active : Bool} {dt : ℚ} {n : Nat} (hc : Good c) (h : Reach c s) (ho : GoodOil o)
    (hdt : 0 ≤ dt) (hs : step c o active dt n s = some s') (ha : (active || s.transiting || s.offloading) = true) :
    (∀ e ∈ s'.log, 0 ≤ e.2) ∧ total s'.log ≤ dt ∧ (active = true → total s'.log = dt) := by
  obtain ⟨i1, ⟨p, i2⟩⟩ := reach_ok hc h
  obtain ⟨k1, _, k3⟩ := step_ok hc ho hdt i1 i2 hs
  exact ⟨k1.log, (k3 ha).1, (k3 ha).2.1⟩

/-- C141: a step always ends. -/
theorem C141_ends {c : Cfg} {o : Oil} {s : St} (active : Bool) {dt : ℚ} (hc : Good c) (h : Reach c s) (ho : GoodOil o) (hdt : 0 ≤ dt) :
    ∃ n s', step c o active dt n s = some s' := by
  obtain ⟨i1, ⟨p, i2⟩⟩ := reach_ok hc h
  obtain ⟨h1, h2⟩ := how_ok hc ho
  unfold step
  split
  · exact ⟨_, loop_ends active hc h1 h2 _ _ p (by exact ⟨i1.room0, i1.room1, i1.tr, i1.off, by simp, hdt⟩) (by exact ⟨i2.c, i2.t, i2.o⟩) (Nat.lt_succ_self _)⟩
  · exact ⟨0, s, rfl⟩

/-- C141: a skimmer that arrives full stays for the time the discharge pump needs for the whole storage and the time for rigging (both in minutes). -/
theorem C141_ashore {c : Cfg} {s : St} (hc : Good c) (hi : Inv c s) (hp : Is s .transit) (ho : (transit c s).offloading = true) :
    s.room = 0 ∧ (transit c s).offloadRem = (c.storage / c.dischargePump + c.rigTime) * 60 := by
  rcases (transit_ok .nothing hc hi hp).2 with h | h | h
  · have := h.1.o; rw [ho] at this; cases this
  · refine ⟨h.2.1, ?_⟩
    rw [h.2.2]
    unfold offloadTime
    ring
  · have := h.1.o; rw [ho] at this; cases this

/-- C141: the room left is between nothing and the storage, over any number of steps. -/
theorem C141_room {c : Cfg} {s : St} (hc : Good c) (h : Reach c s) : 0 ≤ s.room ∧ s.room ≤ c.storage :=
  ⟨(reach_ok hc h).1.room0, (reach_ok hc h).1.room1⟩

/-- C141: the amounts of a step are the rates times the time spent skimming; all water is decanted or retained. -/
theorem C141_amounts {c : Cfg} {o : Oil} {s s' : St} {active : Bool} {dt : ℚ} {n : Nat} (hc : Good c) (h : Reach c s) (ho : GoodOil o)
    (hdt : 0 ≤ dt) (hs : step c o active dt n s = some s') (ha : (active || s.transiting || s.offloading) = true) :
    s'.tsWater = s'.tsDecanted + s'.tsRetained ∧ s'.tsFluid = s'.tsEmulsion + s'.tsRetained ∧ 0 ≤ s'.tsOil ∧ s'.tsOil ≤ s'.tsEmulsion ∧
    s'.tsEmulsion + s'.tsWater ≤ c.nameplate * totalOf .skim s'.log / 60 ∧
    (0 < enc c o → s'.tsTime = totalOf .skim s'.log ∧ ∃ r, how c o = .rates r ∧ s'.tsEmulsion = r.emulsion * s'.tsTime / 60 ∧
      s'.tsOil = r.oil * s'.tsTime / 60 ∧ s'.tsWater = r.water * s'.tsTime / 60 ∧ s'.tsDecanted = r.waterDecanted * s'.tsTime / 60) := by
  obtain ⟨i1, ⟨p, i2⟩⟩ := reach_ok hc h
  obtain ⟨k1, _, k3⟩ := step_ok hc ho hdt i1 i2 hs
  have hl := (k3 ha).2.2
  have hsk : 0 ≤ totalOf .skim s'.log := by
    unfold totalOf total
    refine List.sum_nonneg ?_
    intro x hx
    obtain ⟨e, he, rfl⟩ := List.mem_map.1 hx
    exact k1.log e (List.mem_filter.1 he).1
  obtain ⟨hno, hnt⟩ := C140_some hc ho
  cases hw : how c o with
  | noOp => exact absurd hw hno
  | nothing =>
    rw [hw] at hl
    obtain ⟨l1, l2, l3, l4, l5, l6, l7, l8⟩ := hl
    have := hc.nameplate
    refine ⟨by rw [l5, l6, l7]; simp, by rw [l2, l3, l7]; simp, by rw [l4], by rw [l3, l4], by rw [l3, l5, add_zero]; positivity, ?_⟩
    intro hpos
    exact absurd hpos (hnt.1 hw)
  | rates r =>
    rw [hw] at hl
    obtain ⟨l1, l2, l3, l4, l5, l6, l7, l8⟩ := hl
    obtain ⟨r1, r2, r3, r4, r5, r6, r7, r8, r9, r10, r11, r12, r13, r14⟩ := C140_rates hc ho hw
    rw [← l1] at hsk ⊢
    refine ⟨?_, ?_, ?_, ?_, ?_, ?_⟩
    · rw [l5, l6, l7, r5]; ring
    · rw [l2, l3, l7, r6]; ring
    · rw [l4]; positivity
    · rw [l3, l4]
      have := mul_le_mul_of_nonneg_right r13 hsk
      linarith
    · rw [l3, l5]
      have := mul_le_mul_of_nonneg_right r1 hsk
      rw [r4] at this
      linarith
    · intro _
      exact ⟨rfl, r, rfl, l3, l4, l5, l6⟩

/-! ## the storage -/

/-- The claim about the storage: what is retained in a step without an offload fits into the room there was. -/
def C142_claim : Prop := ∀ (c : Cfg) (o : Oil) (s s' : St) (active : Bool) (dt : ℚ) (n : Nat), Good c → Reach c s → GoodOil o → 0 ≤ dt →
  (active || s.transiting || s.offloading) = true → step c o active dt n s = some s' → (∀ e ∈ s'.log, e.1 ≠ .offload) → s'.tsFluid ≤ s.room

/-- a skimmer with a storage of ten gallons that is full in a minute -/
def tiny : Cfg := ⟨10, 100, 1, 1, 1000, 1, 0, 0, 10, 0, 60⟩

theorem tiny_good : Good tiny := by constructor <;> norm_num [tiny]

/-- a film of a thousandth of an inch or so -/
def film : Oil := ⟨10 / 6313, 0⟩

theorem film_good : GoodOil film := by constructor <;> norm_num [film]

/-- The time it takes to fill the storage is computed in the wrong unit: 42 times what fits is taken. -/
theorem C142_counterexample : ¬ C142_claim := by
  intro h
  have := h tiny film (new tiny) ((step tiny film true 3600 5 (new tiny)).getD (new tiny)) true 3600 5 tiny_good .new film_good (by norm_num)
    rfl (by decide +kernel) (by decide +kernel)
  revert this
  decide +kernel

/-- C142: that much is taken whenever the storage is filled at one go. -/
theorem C142_overfull (c : Cfg) (r : Rates) (s : St) (hr : 0 < r.retain) (hf : timeToFill s.room r.retain ≤ s.rem) :
    (gather c r s).tsFluid = s.tsFluid + 42 * s.room := by
  unfold gather
  simp only [not_lt.2 hf, decide_false, Bool.not_false, if_true]
  unfold timeToFill
  field_simp
  ring

/-- C142, in part: when what the step can bring fits, the room becomes less by what is retained, and the skimmer goes on collecting. -/
theorem C142_partial {c : Cfg} {o : Oil} {s s' : St} {dt : ℚ} {n : Nat} {r : Rates} (hc : Good c) (ho : GoodOil o) (h : Reach c s) (hcol : s.collecting = true)
    (hdt : 0 < dt) (hr : how c o = .rates r) (hfit : r.retain * dt / 60 ≤ s.room) (hs : step c o true dt n s = some s') :
    s'.room = s.room - s'.tsFluid ∧ s'.tsFluid = r.retain * dt / 60 ∧ s'.collecting = true := by
  obtain ⟨i1, ⟨p, i2⟩⟩ := reach_ok hc h
  have hret := (how_ok hc ho).2 r hr
  have hp : p = .collect := by
    have := i2.c; rw [hcol] at this; simpa using this.symm
  subst hp
  unfold step at hs
  rw [hr] at hs
  simp only [Bool.true_or, if_true] at hs
  have hpos : 0 < s.room := lt_of_lt_of_le (by positivity) hfit
  have hlt : dt < timeToFill s.room r.retain := by
    unfold timeToFill
    have h1 : dt ≤ s.room / r.retain * 60 := by
      rw [div_mul_eq_mul_div, le_div_iff₀ hret]; linarith
    have h2 : 0 < s.room / r.retain := by positivity
    have e : 7 / 10 * s.room / r.retain * 60 * 60 = s.room / r.retain * 2520 := by ring
    rw [e]; linarith
  have hpass : ∀ u : St, u.collecting = true → u.transiting = false → u.offloading = false → u.rem = dt → u.room = s.room → u.tsFluid = 0 →
      (pass c (.rates r) u).rem = 0 ∧ (pass c (.rates r) u).room = s.room - r.retain * dt / 60 ∧ (pass c (.rates r) u).tsFluid = r.retain * dt / 60 ∧
      (pass c (.rates r) u).collecting = true := by
    intro u u1 u2 u3 u4 u5 u6
    unfold pass collect gather
    rw [← u4, ← u5] at hlt
    have hg : ¬ u.room < r.retain * (u.rem / 60) := by rw [u4, u5]; rw [mul_div_assoc] at hfit; exact not_lt.2 hfit
    simp only [u1, hlt, decide_true, Bool.not_true, Bool.false_eq_true, if_false, if_true, u2, u3, hg]
    rw [u4, u5, u6]
    exact ⟨trivial, by ring, by ring, trivial⟩
  have i2t : s.transiting = false := i2.t
  have i2o : s.offloading = false := i2.o
  cases n with
  | zero =>
    unfold loop at hs
    rw [if_pos ⟨hdt, Or.inl rfl⟩] at hs
    simp at hs
  | succ n =>
    unfold loop at hs
    rw [if_pos ⟨hdt, Or.inl rfl⟩] at hs
    have hq := hpass { s with log := [], tsFills := 0, tsEmulsion := 0, tsOil := 0, tsWater := 0, tsDecanted := 0, tsRetained := 0, tsArea := 0, tsTime := 0, tsFluid := 0, rem := dt } hcol i2t i2o rfl rfl rfl
    generalize pass c (.rates r) _ = u at hs hq
    obtain ⟨q1, q2, q3, q4⟩ := hq
    have hz : ¬ goes true u := fun hg => by have := hg.1; rw [q1] at this; exact lt_irrefl _ this
    have : s' = u := by
      cases n with
      | zero => unfold loop at hs; rw [if_neg hz] at hs; exact (Option.some.inj hs).symm
      | succ m => unfold loop at hs; rw [if_neg hz] at hs; exact (Option.some.inj hs).symm
    rw [this, q2, q3]
    exact ⟨rfl, rfl, q4⟩

/-- C141. A step ends with its time used up, or after the campaign with the skimmer back at work: never on its way or offloading. -/
theorem C141_goes_on (c : Cfg) (o : Oil) (active : Bool) (dt : ℚ) (n : Nat) (s s' : St) (h : step c o active dt n s = some s')
    (hg : active = true ∨ s.transiting = true ∨ s.offloading = true) (hr : 0 < s'.rem) :
    active = false ∧ s'.transiting = false ∧ s'.offloading = false := by
  have key : ∀ (n : Nat) (u : St), loop c (how c o) active n u = some s' → ¬ goes active s' := by
    intro n
    induction n with
    | zero =>
      intro u h
      unfold loop at h
      split at h
      · exact absurd h nofun
      · cases h; assumption
    | succ n ih =>
      intro u h
      unfold loop at h
      split at h
      · exact ih _ h
      · cases h; assumption
  unfold step at h
  have hb : (active || s.transiting || s.offloading) = true := by
    rcases hg with hg | hg | hg <;> simp [hg]
  rw [if_pos hb] at h
  have := key n _ h
  unfold goes at this
  have h2 : ¬ (active = true ∨ s'.transiting = true ∨ s'.offloading = true) := fun hc => this ⟨hr, hc⟩
  rw [not_or, not_or] at h2
  exact ⟨Bool.eq_false_iff.2 h2.1, Bool.eq_false_iff.2 h2.2.1, Bool.eq_false_iff.2 h2.2.2⟩

/-- Half a minute: half the storage. -/
example : (step tiny film true 30 3 (new tiny)).map (fun s => (s.log, s.room, s.tsFluid)) = some ([(.skim, 30)], 5, 5) := by decide +kernel

/-- the condition of `C141_ashore` -/
example : ∃ s, Is s .transit ∧ Inv tiny s ∧ (transit tiny s).offloading = true := by
  refine ⟨{ new tiny with collecting := false, transiting := true, room := 0, rem := 3600, transitRem := 600 }, ⟨rfl, rfl, rfl⟩, ?_, by decide +kernel⟩
  refine ⟨le_refl _, tiny_good.storage.le, ?_, ?_, ?_, ?_⟩ <;> decide +kernel

/-- Two hours: 42 minutes of skimming, an hour to the shore, offloading, the way back. -/
example : (step tiny film true 7200 9 (new tiny)).map (fun s => (s.log, s.room, s.tsFluid)) =
    some ([(.skim, 2520), (.transit, 3600), (.offload, 60), (.transit, 1020)], 10, 420) := by decide +kernel

end Verif.Roc.Skim
