import Verif.Roc.PlaneModel
import Verif.Roc.SeriesProps
import Mathlib.Tactic.Linarith
import Mathlib.Tactic.Positivity
import Mathlib.Tactic.Ring
import Mathlib.Tactic.NormNum
/-!
# Spraying dispersant from a plane (C143, C144)
-/
namespace Verif.Roc.Plane

def total (l : List (Act × Int)) : Int := (l.map Prod.snd).sum

def totalOf (a : Act) (l : List (Act × Int)) : Int := total (l.filter (fun e => e.1 == a))

@[simp] theorem total_append (l : List (Act × Int)) (a : Act) (x : Int) : total (l ++ [(a, x)]) = total l + x := by simp [total]

theorem log_snoc {l : List (Act × Int)} {a : Act} {x : Int} (h : ∀ e ∈ l, 0 ≤ e.2) (hx : 0 ≤ x) : ∀ e ∈ l ++ [(a, x)], 0 ≤ e.2 := by
  intro e he
  rcases List.mem_append.1 he with h1 | h1
  · exact h e h1
  · simp at h1; subst h1; exact hx

/-- sensible settings -/
structure Good (c : Cfg) : Prop where
  transit : 0 < c.transit
  approach : 0 ≤ c.approach
  spray : 0 < c.spray
  uTurn : 0 ≤ c.uTurn
  depart : 0 ≤ c.depart
  refuel : 0 ≤ c.refuel
  cascade : 0 ≤ c.cascade
  payload : 0 < c.payload

/-- the plane is doing something that ends at a certain time -/
def Timed : Cur → Bool
  | .enRoute | .approach | .disperse _ | .uTurn | .departure | .holding | .rtb | .reload => true
  | _ => false

/-- at the slick -/
def Onsite : Cur → Bool
  | .approach | .disperse _ | .uTurn | .departure | .holding => true
  | _ => false

/-- the invariant of the loop of a step that ends at `E`, of length `D`, `S` being the dispersant sprayed before it, `r` the rate of the pump -/
structure Inv (c : Cfg) (E D : Int) (S r : ℚ) (s : St) : Prop where
  rem : 0 ≤ s.rem
  now : 0 < s.rem → s.now = E - s.rem ∧ s.ts = s.rem
  nst : Timed s.cur = true → ∃ n, s.nst = some n ∧ E - s.rem ≤ n
  casc : s.cur = .cascade → ∀ n, s.nst = some n → E - s.rem ≤ n
  op : Onsite s.cur = true → s.opEnd.isSome = true
  bid : s.cur = .uTurn → c.bidir = true
  d0 : 0 ≤ s.disp
  d1 : s.disp ≤ c.payload
  log : ∀ e ∈ s.log, 0 ≤ e.2
  tot : total s.log + s.rem ≤ D
  live : s.cur ≠ .deactivated
  sp0 : S ≤ s.sprayed
  sp1 : s.sprayed - S ≤ r * (totalOf .onsite s.log : ℚ) / 1000000

/-- the fields that waiting does not change -/
theorem advance_ok {E : Int} {s : St} {d : Int} (hr : 0 < s.rem) (hn : s.now = E - s.rem ∧ s.ts = s.rem) (hd : 0 ≤ d) :
    0 ≤ (advance s d).rem ∧ (0 < (advance s d).rem → (advance s d).now = E - (advance s d).rem ∧ (advance s d).ts = (advance s d).rem ∧ (advance s d).now = s.now + d) ∧
    E - (advance s d).rem ≤ s.now + d ∧ (advance s d).rem = s.rem - min s.rem d ∧ (0 < d → (advance s d).rem < s.rem) := by
  unfold advance
  dsimp only
  obtain ⟨h1, h2⟩ := hn
  refine ⟨by omega, ?_, by omega, rfl, by intro; omega⟩
  intro h
  rw [if_pos h, if_pos h]
  refine ⟨by omega, rfl, by omega⟩

theorem advance_same (s : St) (d : Int) : (advance s d).cur = s.cur ∧ (advance s d).nst = s.nst ∧ (advance s d).disp = s.disp ∧
    (advance s d).opEnd = s.opEnd ∧ (advance s d).sprayed = s.sprayed ∧ (advance s d).log = s.log ∧ (advance s d).treated = s.treated :=
  ⟨rfl, rfl, rfl, rfl, rfl, rfl, rfl⟩

/-- how many passes may go by without time passing -/
def rank (now : Int) (s : St) : Nat :=
  match s.cur with
  | .ready => 1
  | .retired | .cascade => 2
  | .deactivated => 0
  | .approach | .uTurn | .departure => if s.nst = some now then 1 else 0
  | .enRoute | .disperse _ | .holding | .reload => if s.nst = some now then 2 else 0
  | .rtb => if s.nst = some now then 3 else 0

theorem rank_le (now : Int) (s : St) : rank now s ≤ 3 := by
  unfold rank
  split <;> first | omega | (split <;> omega)

/-- a pass makes progress -/
def Less (E : Int) (s s' : St) : Prop := s'.rem = 0 ∨ s'.rem < s.rem ∨ (s'.rem = s.rem ∧ rank (E - s'.rem) s' < rank (E - s.rem) s)

/-- spending time in a timed state: everything but the state afterwards -/
theorem spend_ok {c : Cfg} {E D : Int} {S r : ℚ} {s : St} (a : Act) {n : Int} (hi : Inv c E D S r s) (hr : 0 < s.rem) (hn : E - s.rem ≤ n) (hrate : 0 ≤ r) :
    0 ≤ (spend s a (n - s.now)).rem ∧
    (0 < (spend s a (n - s.now)).rem → (spend s a (n - s.now)).now = E - (spend s a (n - s.now)).rem ∧
      (spend s a (n - s.now)).ts = (spend s a (n - s.now)).rem ∧ (spend s a (n - s.now)).now = n) ∧
    E - (spend s a (n - s.now)).rem ≤ n ∧ (spend s a (n - s.now)).rem ≤ s.rem ∧
    (E - s.rem < n → (spend s a (n - s.now)).rem < s.rem) ∧
    (∀ e ∈ (spend s a (n - s.now)).log, 0 ≤ e.2) ∧ total (spend s a (n - s.now)).log + (spend s a (n - s.now)).rem = total s.log + s.rem ∧
    s.sprayed - S ≤ r * (totalOf .onsite (spend s a (n - s.now)).log : ℚ) / 1000000 := by
  have hnow := hi.now hr
  have hd : 0 ≤ n - s.now := by omega
  obtain ⟨a1, a2, a3, a4, a5⟩ := advance_ok (E := E) hr hnow hd
  have hrem : (spend s a (n - s.now)).rem = (advance s (n - s.now)).rem := rfl
  have hlog : (spend s a (n - s.now)).log = s.log ++ [(a, min s.rem (n - s.now))] := rfl
  have hm : 0 ≤ min s.rem (n - s.now) := by omega
  rw [hrem, hlog]
  refine ⟨a1, ?_, by omega, by omega, ?_, log_snoc hi.log hm, by rw [total_append]; omega, ?_⟩
  · intro h
    obtain ⟨b1, b2, b3⟩ := a2 h
    exact ⟨b1, b2, by rw [show (spend s a (n - s.now)).now = (advance s (n - s.now)).now from rfl, b3]; omega⟩
  · intro h; exact a5 (by omega)
  · have h1 := hi.sp1
    have h2 : totalOf .onsite s.log ≤ totalOf .onsite (s.log ++ [(a, min s.rem (n - s.now))]) := by
      unfold totalOf
      rw [List.filter_append]
      cases a <;> simp [total] <;> omega
    have h3 : r * (totalOf .onsite s.log : ℚ) / 1000000 ≤ r * (totalOf .onsite (s.log ++ [(a, min s.rem (n - s.now))]) : ℚ) / 1000000 := by
      have : (totalOf .onsite s.log : ℚ) ≤ totalOf .onsite (s.log ++ [(a, min s.rem (n - s.now))]) := by exact_mod_cast h2
      have := mul_le_mul_of_nonneg_left this hrate
      linarith
    linarith

theorem pass_ok {c : Cfg} {ts : List Period} {ttni : Int} {o : Oil} {E D : Int} {S : ℚ} {s : St} (hc : Good c) (ht : 0 < ttni) (hrate : 0 ≤ o.rate)
    (hi : Inv c E D S o.rate s) (hr : 0 < s.rem) :
    ∃ s', pass c ts ttni o s = some s' ∧ Inv c E D S o.rate s' ∧ Less E s s' := by
  have hnow := hi.now hr
  cases hcur : s.cur with
  | deactivated => exact absurd hcur hi.live
  | retired =>
    have : pass c ts ttni o s = some (retired ts ttni s) := by unfold pass; rw [hcur]
    refine ⟨_, this, ?_⟩
    unfold retired
    split
    · exact ⟨⟨hi.rem, hi.now, by simp [Timed], by simp, by simp [Onsite], by simp, hi.d0, hi.d1, hi.log, hi.tot, by simp, hi.sp0, hi.sp1⟩,
        Or.inr (Or.inr ⟨rfl, by simp [rank, hcur]⟩)⟩
    · obtain ⟨a1, a2, a3, a4, a5⟩ := advance_ok (E := E) hr hnow ht.le
      have htot := hi.tot
      have hi2 : ∀ k : Cur, Timed k = false → k ≠ .cascade → Onsite k = false → k ≠ .uTurn → k ≠ .deactivated →
          Inv c E D S o.rate { advance s ttni with cur := k } := by
        intro k k1 k2 k3 k4 k5
        exact ⟨a1, fun h => ⟨(a2 h).1, (a2 h).2.1⟩, fun h => by rw [k1] at h; simp at h, fun h => absurd h k2, fun h => by rw [k3] at h; simp at h,
          fun h => absurd h k4, hi.d0, hi.d1, hi.log, by
            show total s.log + (advance s ttni).rem ≤ D
            omega, k5, hi.sp0, hi.sp1⟩
      dsimp only
      split
      · exact ⟨hi2 .ready rfl (by simp) rfl (by simp) (by simp), Or.inr (Or.inl (a5 ht))⟩
      · have := hi2 .retired rfl (by simp) rfl (by simp) (by simp)
        have e : { advance s ttni with cur := Cur.retired } = advance s ttni := by
          conv_lhs => rw [← hcur, ← (advance_same s ttni).1]
        rw [e] at this
        exact ⟨this, Or.inr (Or.inl (a5 ht))⟩
  | ready =>
    have : pass c ts ttni o s = some (ready c ttni s) := by unfold pass; rw [hcur]
    refine ⟨_, this, ?_⟩
    unfold ready
    dsimp only
    split
    · refine ⟨⟨hi.rem, hi.now, fun _ => ⟨_, rfl, ?_⟩, by simp, by simp [Onsite], by simp, hi.d0, hi.d1, hi.log, hi.tot, by simp, hi.sp0, hi.sp1⟩,
        Or.inr (Or.inr ⟨rfl, ?_⟩)⟩
      · have := hc.transit; dsimp only; omega
      · have := hc.transit
        have hne : ¬ s.now + c.transit = E - s.rem := by omega
        simp [rank, hcur, hne]
    · obtain ⟨a1, a2, a3, a4, a5⟩ := advance_ok (E := E) (s := { s with calls := s.calls + 1 }) (d := ttni) hr hnow ht.le
      have htot := hi.tot
      refine ⟨⟨a1, fun h => ⟨(a2 h).1, (a2 h).2.1⟩, by simp [Timed], by simp, by simp [Onsite], by simp, hi.d0, hi.d1, hi.log, ?_, by simp, hi.sp0, hi.sp1⟩,
        Or.inr (Or.inl (a5 ht))⟩
      show total s.log + (advance { s with calls := s.calls + 1 } ttni).rem ≤ D
      have : min s.rem ttni ≥ 0 := by omega
      dsimp only at a4
      omega
  | cascade =>
    have : pass c ts ttni o s = some (cascade c s) := by unfold pass; rw [hcur]
    refine ⟨_, this, ?_⟩
    unfold cascade
    dsimp only
    have hn : E - s.rem ≤ s.nst.getD (s.now + c.cascade) := by
      cases h : s.nst with
      | none => have := hc.cascade; simp; omega
      | some n => exact hi.casc hcur n h
    generalize s.nst.getD (s.now + c.cascade) = n at *
    obtain ⟨a1, a2, a3, a4, a5⟩ := advance_ok (E := E) (s := { s with nst := some n }) (d := n - s.now) hr hnow (by omega)
    have htot := hi.tot
    dsimp only at a4 a3 a5
    split
    · rename_i hpos
      refine ⟨⟨a1, fun h => ⟨(a2 h).1, (a2 h).2.1⟩, by simp [Timed], by simp, by simp [Onsite], by simp, hi.d0, hi.d1, hi.log, ?_, by simp, hi.sp0, hi.sp1⟩, ?_⟩
      · show total s.log + (advance { s with nst := some n } (n - s.now)).rem ≤ D; omega
      · rcases lt_or_eq_of_le (show (advance { s with nst := some n } (n - s.now)).rem ≤ s.rem by omega) with h | h
        · exact Or.inr (Or.inl h)
        · exact Or.inr (Or.inr ⟨h, by simp [rank, hcur]⟩)
    · rename_i hpos
      have h0 : (advance { s with nst := some n } (n - s.now)).rem = 0 := by omega
      refine ⟨⟨a1, fun h => absurd h hpos, ?_, ?_, ?_, ?_, hi.d0, hi.d1, hi.log, ?_, ?_, hi.sp0, hi.sp1⟩, Or.inl h0⟩
      · intro h; rw [show (advance { s with nst := some n } (n - s.now)).cur = s.cur from rfl, hcur] at h; simp [Timed] at h
      · intro _ m hm
        have : n = m := Option.some.inj hm
        omega
      · intro h; rw [show (advance { s with nst := some n } (n - s.now)).cur = s.cur from rfl, hcur] at h; simp [Onsite] at h
      · intro h; rw [show (advance { s with nst := some n } (n - s.now)).cur = s.cur from rfl, hcur] at h; simp at h
      · show total s.log + (advance { s with nst := some n } (n - s.now)).rem ≤ D; omega
      · rw [show (advance { s with nst := some n } (n - s.now)).cur = s.cur from rfl, hcur]; simp
  | enRoute =>
    obtain ⟨n, hn, hle⟩ := hi.nst (by rw [hcur]; rfl)
    have : pass c ts ttni o s = some (enRoute c s n) := by unfold pass; rw [hcur, hn]
    refine ⟨_, this, ?_⟩
    unfold enRoute
    dsimp only
    obtain ⟨s1, s2, s3, s4, s5, s6, s7, s8⟩ := spend_ok .transit hi hr hle hrate
    have htot := hi.tot
    split
    · rename_i hpos
      obtain ⟨p1, p2, p3⟩ := s2 hpos
      have := hc.approach
      refine ⟨⟨s1, fun h => ⟨(s2 h).1, (s2 h).2.1⟩, fun _ => ⟨_, rfl, by dsimp only; omega⟩, by simp, fun _ => rfl, by simp, hi.d0, hi.d1, s6, by dsimp only; omega, by simp, hi.sp0, s8⟩, ?_⟩
      rcases lt_or_eq_of_le s4 with h | h
      · exact Or.inr (Or.inl h)
      · refine Or.inr (Or.inr ⟨h, ?_⟩)
        have hx : n = E - s.rem := by
          by_contra hne; have := s5 (by omega); omega
        simp only [rank, hcur, hn, hx, if_true]
        split <;> omega
    · rename_i hpos
      have h0 : (spend s .transit (n - s.now)).rem = 0 := by omega
      refine ⟨⟨s1, fun h => absurd h hpos, fun _ => ⟨n, hn, s3⟩, ?_, ?_, ?_, hi.d0, hi.d1, s6, by omega, hi.live, hi.sp0, s8⟩, Or.inl h0⟩
      · intro h; exact absurd (hcur.symm.trans h) (by simp)
      · intro h; rw [show (spend s .transit (n - s.now)).cur = s.cur from rfl, hcur] at h; simp [Onsite] at h
      · intro h; exact absurd (hcur.symm.trans h) (by simp)
  | approach =>
    obtain ⟨n, hn, hle⟩ := hi.nst (by rw [hcur]; rfl)
    have hop := hi.op (by rw [hcur]; rfl)
    have : pass c ts ttni o s = some (approach c s n) := by unfold pass; rw [hcur, hn]
    refine ⟨_, this, ?_⟩
    unfold approach
    dsimp only
    obtain ⟨s1, s2, s3, s4, s5, s6, s7, s8⟩ := spend_ok .onsite hi hr hle hrate
    have htot := hi.tot
    split
    · rename_i hpos
      obtain ⟨p1, p2, p3⟩ := s2 hpos
      have := hc.spray
      refine ⟨⟨s1, fun h => ⟨(s2 h).1, (s2 h).2.1⟩, fun _ => ⟨_, rfl, by dsimp only; omega⟩, by simp, fun _ => hop, by simp, hi.d0, hi.d1, s6, by dsimp only; omega, by simp, hi.sp0, s8⟩, ?_⟩
      rcases lt_or_eq_of_le s4 with h | h
      · exact Or.inr (Or.inl h)
      · refine Or.inr (Or.inr ⟨h, ?_⟩)
        have hx : n = E - s.rem := by
          by_contra hne; have := s5 (by omega); omega
        have hne : ¬ (spend s .onsite (n - s.now)).now + c.spray = E - (spend s .onsite (n - s.now)).rem := by omega
        simp only [rank, hcur, hn, hx, if_true, Option.some.injEq]
        rw [hx] at hne
        rw [if_neg hne]; omega
    · rename_i hpos
      have h0 : (spend s .onsite (n - s.now)).rem = 0 := by omega
      refine ⟨⟨s1, fun h => absurd h hpos, fun _ => ⟨n, hn, s3⟩, ?_, fun _ => hop, ?_, hi.d0, hi.d1, s6, by omega, hi.live, hi.sp0, s8⟩, Or.inl h0⟩
      · intro h; exact absurd (hcur.symm.trans h) (by simp)
      · intro h; exact absurd (hcur.symm.trans h) (by simp)
  | uTurn =>
    obtain ⟨n, hn, hle⟩ := hi.nst (by rw [hcur]; rfl)
    have hop := hi.op (by rw [hcur]; rfl)
    have hb := hi.bid hcur
    have : pass c ts ttni o s = uTurn c s n := by unfold pass; rw [hcur, hn]
    rw [this]
    unfold uTurn
    dsimp only
    rw [if_pos hb]
    refine ⟨_, rfl, ?_⟩
    obtain ⟨s1, s2, s3, s4, s5, s6, s7, s8⟩ := spend_ok .onsite hi hr hle hrate
    have htot := hi.tot
    split
    · rename_i hpos
      obtain ⟨p1, p2, p3⟩ := s2 hpos
      have := hc.spray
      refine ⟨⟨s1, fun h => ⟨(s2 h).1, (s2 h).2.1⟩, fun _ => ⟨_, rfl, by dsimp only; omega⟩, by simp, fun _ => hop, by simp, hi.d0, hi.d1, s6, by dsimp only; omega, by simp, hi.sp0, s8⟩, ?_⟩
      rcases lt_or_eq_of_le s4 with h | h
      · exact Or.inr (Or.inl h)
      · refine Or.inr (Or.inr ⟨h, ?_⟩)
        have hx : n = E - s.rem := by
          by_contra hne; have := s5 (by omega); omega
        have hne : ¬ (spend s .onsite (n - s.now)).now + c.spray = E - (spend s .onsite (n - s.now)).rem := by omega
        simp only [rank, hcur, hn, hx, if_true, Option.some.injEq]
        rw [hx] at hne
        rw [if_neg hne]; omega
    · rename_i hpos
      have h0 : (spend s .onsite (n - s.now)).rem = 0 := by omega
      refine ⟨⟨s1, fun h => absurd h hpos, fun _ => ⟨n, hn, s3⟩, ?_, fun _ => hop, fun _ => hb, hi.d0, hi.d1, s6, by omega, hi.live, hi.sp0, s8⟩, Or.inl h0⟩
      intro h; exact absurd (hcur.symm.trans h) (by simp)
  | departure =>
    obtain ⟨n, hn, hle⟩ := hi.nst (by rw [hcur]; rfl)
    obtain ⟨e, he⟩ := Option.isSome_iff_exists.1 (hi.op (by rw [hcur]; rfl))
    have : pass c ts ttni o s = departure c o s n := by unfold pass; rw [hcur, hn]
    rw [this]
    unfold departure
    dsimp only
    obtain ⟨s1, s2, s3, s4, s5, s6, s7, s8⟩ := spend_ok .onsite hi hr hle hrate
    have htot := hi.tot
    have hop : (spend s .onsite (n - s.now)).opEnd = some e := he
    have hdisp : (spend s .onsite (n - s.now)).disp = s.disp := rfl
    have hspr : (spend s .onsite (n - s.now)).sprayed = s.sprayed := rfl
    split
    · rename_i hpos
      obtain ⟨p1, p2, p3⟩ := s2 hpos
      rw [hop]
      dsimp only
      refine ⟨_, rfl, ?_⟩
      have ht1 := hc.transit
      have ht2 := hc.spray
      generalize spend s .onsite (n - s.now) = u at *
      have hless : ∀ u' : St, u'.rem = u.rem → rank (E - u'.rem) u' = 0 → Less E s u' := by
        intro u' h1 h2
        rcases lt_or_eq_of_le s4 with h | h
        · exact Or.inr (Or.inl (by omega))
        · refine Or.inr (Or.inr ⟨by omega, ?_⟩)
          rw [h2]
          have hx : n = E - s.rem := by
            by_contra hne; have := s5 (by omega); omega
          simp [rank, hcur, hn, hx]
      have base : Inv c E D S o.rate (toBase c { u with num := u.num + 1, calls := u.calls + 2 }) ∧ Less E s (toBase c { u with num := u.num + 1, calls := u.calls + 2 }) := by
        unfold toBase
        refine ⟨⟨s1, fun h => ⟨(s2 h).1, (s2 h).2.1⟩, fun _ => ⟨_, rfl, by dsimp only; omega⟩, by simp, by simp [Onsite], by simp, by dsimp only; rw [hdisp]; exact hi.d0,
          by dsimp only; rw [hdisp]; exact hi.d1, s6, by dsimp only; omega, by simp, by dsimp only; rw [hspr]; exact hi.sp0, by dsimp only; rw [hspr]; exact s8⟩, hless _ rfl ?_⟩
        have hne : ¬ u.now + c.transit = E - u.rem := by omega
        simp [rank, hne]
      split
      · exact base
      · split
        · split
          · refine ⟨⟨s1, fun h => ⟨(s2 h).1, (s2 h).2.1⟩, fun _ => ⟨_, rfl, by dsimp only; omega⟩, by simp, fun _ => by simp, by simp, by dsimp only; rw [hdisp]; exact hi.d0,
              by dsimp only; rw [hdisp]; exact hi.d1, s6, by dsimp only; omega, by simp, by dsimp only; rw [hspr]; exact hi.sp0, by dsimp only; rw [hspr]; exact s8⟩, hless _ rfl ?_⟩
            have hne : ¬ u.now + u.ts = E - u.rem := by omega
            simp [rank, hne]
          · exact base
        · split
          · exact base
          · refine ⟨⟨s1, fun h => ⟨(s2 h).1, (s2 h).2.1⟩, fun _ => ⟨_, rfl, by dsimp only; omega⟩, by simp, fun _ => by simp, by simp, by dsimp only; rw [hdisp]; exact hi.d0,
              by dsimp only; rw [hdisp]; exact hi.d1, s6, by dsimp only; omega, by simp, by dsimp only; rw [hspr]; exact hi.sp0, by dsimp only; rw [hspr]; exact s8⟩, hless _ rfl ?_⟩
            have hne : ¬ u.now + c.spray = E - u.rem := by omega
            simp [rank, hne]
    · rename_i hpos
      have h0 : (spend s .onsite (n - s.now)).rem = 0 := by omega
      refine ⟨_, rfl, ⟨s1, fun h => absurd h hpos, fun _ => ⟨n, hn, s3⟩, ?_, fun _ => by rw [hop]; rfl, ?_, hi.d0, hi.d1, s6, by omega, hi.live, hi.sp0, s8⟩, Or.inl h0⟩
      · intro h; exact absurd (hcur.symm.trans h) (by simp)
      · intro h; exact absurd (hcur.symm.trans h) (by simp)
  | holding =>
    obtain ⟨n, hn, hle⟩ := hi.nst (by rw [hcur]; rfl)
    have hop := hi.op (by rw [hcur]; rfl)
    have : pass c ts ttni o s = some (holding s n) := by unfold pass; rw [hcur, hn]
    refine ⟨_, this, ?_⟩
    unfold holding
    obtain ⟨s1, s2, s3, s4, s5, s6, s7, s8⟩ := spend_ok .onsite hi hr hle hrate
    have htot := hi.tot
    refine ⟨⟨s1, fun h => ⟨(s2 h).1, (s2 h).2.1⟩, fun _ => ⟨n, hn, s3⟩, by simp, fun _ => hop, by simp, hi.d0, hi.d1, s6, by dsimp only; omega, by simp, hi.sp0, s8⟩, ?_⟩
    rcases lt_or_eq_of_le s4 with h | h
    · exact Or.inr (Or.inl h)
    · refine Or.inr (Or.inr ⟨h, ?_⟩)
      have hx : n = E - s.rem := by
        by_contra hne; have := s5 (by omega); omega
      simp only [rank, hcur, hn, hx, if_true]
      split <;> omega
  | disperse b =>
    obtain ⟨n, hn, hle⟩ := hi.nst (by rw [hcur]; rfl)
    have hop := hi.op (by rw [hcur]; rfl)
    have : pass c ts ttni o s = some (disperse c o b s n) := by unfold pass; rw [hcur, hn]
    refine ⟨_, this, ?_⟩
    unfold disperse
    have hi' : Inv c E D S o.rate { s with calls := s.calls + 1 } :=
      ⟨hi.rem, hi.now, hi.nst, hi.casc, hi.op, hi.bid, hi.d0, hi.d1, hi.log, hi.tot, hi.live, hi.sp0, hi.sp1⟩
    obtain ⟨s1, s2, s3, s4, s5, s6, s7, s8⟩ := spend_ok (s := { s with calls := s.calls + 1 }) .onsite hi' hr hle hrate
    have htot := hi.tot
    -- the amounts
    have hu : ∀ u, u = sprayed c o s n → u.rem = (spend { s with calls := s.calls + 1 } .onsite (n - s.now)).rem ∧
        u.now = (spend { s with calls := s.calls + 1 } .onsite (n - s.now)).now ∧ u.ts = (spend { s with calls := s.calls + 1 } .onsite (n - s.now)).ts ∧
        u.log = (spend { s with calls := s.calls + 1 } .onsite (n - s.now)).log ∧ u.cur = s.cur ∧ u.nst = s.nst ∧ u.opEnd = s.opEnd ∧
        0 ≤ u.disp ∧ u.disp ≤ c.payload ∧ S ≤ u.sprayed ∧
        u.sprayed - S ≤ o.rate * (totalOf .onsite (spend { s with calls := s.calls + 1 } .onsite (n - s.now)).log : ℚ) / 1000000 := by
      rintro _ rfl
      refine ⟨rfl, rfl, rfl, rfl, rfl, rfl, rfl, ?_⟩
      have ht0 : 0 ≤ min s.rem (n - s.now) := by omega
      have hp0 : (0 : ℚ) ≤ ((min s.rem (n - s.now) : Int) : ℚ) / 1000000 * o.rate := by
        have : (0 : ℚ) ≤ ((min s.rem (n - s.now) : Int) : ℚ) := by exact_mod_cast ht0
        positivity
      have hlog : totalOf .onsite (spend { s with calls := s.calls + 1 } .onsite (n - s.now)).log = totalOf .onsite s.log + min s.rem (n - s.now) := by
        show totalOf .onsite (s.log ++ [(Act.onsite, min s.rem (n - s.now))]) = _
        simp [totalOf, total]
      rw [hlog]
      have hsp1 := hi.sp1
      have hd0 := hi.d0
      have hd1 := hi.d1
      have hsp0 := hi.sp0
      simp only [sprayed]
      generalize hx : ((min s.rem (n - s.now) : Int) : ℚ) / 1000000 * o.rate = x at *
      have hm0 : 0 ≤ min s.disp x := le_min hd0 hp0
      refine ⟨by have := min_le_left s.disp x; linarith, by linarith, by linarith, ?_⟩
      have hmx := min_le_right s.disp x
      push_cast
      have hx2 : o.rate * (((totalOf .onsite s.log : Int) : ℚ) + min (s.rem : ℚ) ((n : ℚ) - (s.now : ℚ))) / 1000000 =
          o.rate * ((totalOf .onsite s.log : Int) : ℚ) / 1000000 + x := by
        rw [← hx]; push_cast; ring
      rw [hx2]
      linarith
    obtain ⟨u1, u2, u3, u4, u5, u6, u7, u8, u9, u10, u11⟩ := hu _ rfl
    dsimp only at s2 s4 s5 s7
    rw [← u4] at s6 s7 u11
    rw [← u1] at s1 s2 s3 s4 s5 s7
    rw [← u2, ← u3] at s2
    dsimp only
    generalize sprayed c o s n = u at *
    have hless : ∀ u' : St, u'.rem = u.rem → 0 < u.rem → rank (E - u'.rem) u' ≤ 1 → Less E s u' := by
      intro u' h1 _ h2
      rcases lt_or_eq_of_le s4 with h | h
      · exact Or.inr (Or.inl (by omega))
      · refine Or.inr (Or.inr ⟨by omega, ?_⟩)
        have hx : n = E - s.rem := by
          by_contra hne; have := s5 (by omega); omega
        have : rank (E - s.rem) s = 2 := by simp [rank, hcur, hn, hx]
        omega
    by_cases hpos : 0 < u.rem
    · obtain ⟨p1, p2, p3⟩ := s2 hpos
      rw [if_pos hpos]
      have h1 := hc.uTurn
      have h2 := hc.depart
      split
      · rename_i hb
        simp only [Bool.and_eq_true] at hb
        refine ⟨⟨s1, fun h => ⟨(s2 h).1, (s2 h).2.1⟩, fun _ => ⟨_, rfl, by dsimp only; omega⟩, by simp, fun _ => by dsimp only; rw [u7]; exact hop, fun _ => hb.1.1, u8, u9, s6,
          by dsimp only; omega, by simp, u10, u11⟩, hless _ rfl hpos ?_⟩
        simp only [rank]
        split <;> omega
      · refine ⟨⟨s1, fun h => ⟨(s2 h).1, (s2 h).2.1⟩, fun _ => ⟨_, rfl, by dsimp only; omega⟩, by simp, fun _ => by dsimp only; rw [u7]; exact hop, by simp, u8, u9, s6,
          by dsimp only; omega, by simp, u10, u11⟩, hless _ rfl hpos ?_⟩
        simp only [rank]
        split <;> omega
    · rw [if_neg hpos]
      refine ⟨⟨s1, fun h => absurd h hpos, fun _ => ⟨n, by rw [u6, hn], s3⟩, ?_, fun _ => by rw [u7]; exact hop, ?_, u8, u9, s6, by omega, ?_, u10, u11⟩, Or.inl (by omega)⟩
      · intro h; rw [u5, hcur] at h; simp at h
      · intro h; rw [u5, hcur] at h; simp at h
      · rw [u5, hcur]; simp
  | rtb =>
    obtain ⟨n, hn, hle⟩ := hi.nst (by rw [hcur]; rfl)
    have : pass c ts ttni o s = some (rtb c s n) := by unfold pass; rw [hcur, hn]
    refine ⟨_, this, ?_⟩
    unfold rtb
    dsimp only
    obtain ⟨s1, s2, s3, s4, s5, s6, s7, s8⟩ := spend_ok .transit hi hr hle hrate
    have htot := hi.tot
    split
    · rename_i hpos
      obtain ⟨p1, p2, p3⟩ := s2 hpos
      have := hc.refuel
      refine ⟨⟨s1, fun h => ⟨(s2 h).1, (s2 h).2.1⟩, fun _ => ⟨_, rfl, by dsimp only; omega⟩, by simp, by simp [Onsite], by simp, hi.d0, hi.d1, s6, by dsimp only; omega, by simp, hi.sp0, s8⟩, ?_⟩
      rcases lt_or_eq_of_le s4 with h | h
      · exact Or.inr (Or.inl h)
      · refine Or.inr (Or.inr ⟨h, ?_⟩)
        have hx : n = E - s.rem := by
          by_contra hne; have := s5 (by omega); omega
        simp only [rank, hcur, hn, hx, if_true]
        split <;> omega
    · rename_i hpos
      have h0 : (spend s .transit (n - s.now)).rem = 0 := by omega
      refine ⟨⟨s1, fun h => absurd h hpos, fun _ => ⟨n, hn, s3⟩, ?_, ?_, ?_, hi.d0, hi.d1, s6, by omega, hi.live, hi.sp0, s8⟩, Or.inl h0⟩
      · intro h; exact absurd (hcur.symm.trans h) (by simp)
      · intro h; rw [show (spend s .transit (n - s.now)).cur = s.cur from rfl, hcur] at h; simp [Onsite] at h
      · intro h; exact absurd (hcur.symm.trans h) (by simp)
  | reload =>
    obtain ⟨n, hn, hle⟩ := hi.nst (by rw [hcur]; rfl)
    have : pass c ts ttni o s = some (reload c s n) := by unfold pass; rw [hcur, hn]
    refine ⟨_, this, ?_⟩
    unfold reload
    dsimp only
    obtain ⟨s1, s2, s3, s4, s5, s6, s7, s8⟩ := spend_ok .reload hi hr hle hrate
    have htot := hi.tot
    split
    · rename_i hpos
      refine ⟨⟨s1, fun h => ⟨(s2 h).1, (s2 h).2.1⟩, by simp [Timed], by simp, by simp [Onsite], by simp, hc.payload.le, le_refl _, s6, by dsimp only; omega, by simp, hi.sp0, s8⟩, ?_⟩
      rcases lt_or_eq_of_le s4 with h | h
      · exact Or.inr (Or.inl h)
      · refine Or.inr (Or.inr ⟨h, ?_⟩)
        have hx : n = E - s.rem := by
          by_contra hne; have := s5 (by omega); omega
        simp [rank, hcur, hn, hx]
    · rename_i hpos
      have h0 : (spend s .reload (n - s.now)).rem = 0 := by omega
      refine ⟨⟨s1, fun h => absurd h hpos, fun _ => ⟨n, hn, s3⟩, ?_, ?_, ?_, hi.d0, hi.d1, s6, by omega, hi.live, hi.sp0, s8⟩, Or.inl h0⟩
      · intro h; exact absurd (hcur.symm.trans h) (by simp)
      · intro h; rw [show (spend s .reload (n - s.now)).cur = s.cur from rfl, hcur] at h; simp [Onsite] at h
      · intro h; exact absurd (hcur.symm.trans h) (by simp)

end Verif.Roc.Plane
