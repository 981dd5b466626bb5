import Verif.Roc.BoatModel
import Mathlib.Tactic.Linarith
import Mathlib.Tactic.NormNum
import Mathlib.Tactic.Ring
import Mathlib.Tactic.FieldSimp
/-!
C259 (a step of a boat ends), C260 (the times a boat reports add up to the step), C261 (a boat carries no more than its payload and is back in
time), C262 (the oil a boat treats is a number).
-/
namespace Verif.Roc.Boat

/-! ## Specification -/

/-- settings that make sense -/
structure Sane (c : Cfg) : Prop where
  transit : 0 < c.transit
  refuel : 0 ≤ c.refuel
  mission : 2 * c.transit ≤ c.mission
  payload : 0 < c.payload

/-- the time at which a boat in the state `s` at the time `t` will next be ready for a sortie, at the earliest -/
def wait (c : Cfg) (s : St) (t : Int) : Int :=
  match s.cur with
  | .reload => s.nst.getD 0 - t
  | .rtb => s.nst.getD 0 - t + c.refuel
  | .onsite => c.transit + c.refuel
  | .enRoute => s.nst.getD 0 - t + c.transit + c.refuel
  | _ => 2 * c.transit + c.refuel

/-- where a boat is at the time `t`: on the way it arrives not before now, in time to be back at the time `last`; on site it has to leave in
time, on the way back it is there by `last` -/
def Sound (c : Cfg) (last t : Int) (s : St) : Prop :=
  match s.cur with
  | .enRoute => ∃ n, s.nst = some n ∧ t ≤ n ∧ n + c.transit ≤ last
  | .onsite => s.opEnd = some (last - c.transit) ∧ t + c.transit ≤ last
  | .rtb => ∃ n, s.nst = some n ∧ t ≤ n ∧ n ≤ last
  | .reload => ∃ n, s.nst = some n ∧ t ≤ n
  | .cascade => False
  | _ => True

/-- the times that are reported -/
def total (l : List (Act × Int)) : Int := (l.map Prod.snd).sum

/-- a step that lies in a period, and in which no sortie is begun that would end late: either there is time for one until its end, or none
can begin after its beginning -/
structure Fits (c : Cfg) (ts : List Period) (t dt : Int) (s : St) : Prop where
  pos : 0 < dt
  period : ∃ i p, ts[i]? = some p ∧ indexOf ts t = some i ∧ p.1 ≤ t ∧ t + dt ≤ p.2 ∧ ∀ u, t ≤ u → u < t + dt → indexOf ts u = some i
  first : ∀ p, ts.head? = some p → p.1 ≤ t
  last : t + dt ≤ lastEnd ts
  late : t + dt + 2 * c.transit ≤ lastEnd ts ∨ dt ≤ wait c s t

/-! ## One pass -/

theorem advance_rem (s : St) (d : Int) : (advance s d).rem = s.rem - min s.rem d := rfl
theorem advance_now (s : St) (d : Int) : (advance s d).now = if 0 < (advance s d).rem then s.now + s.ts - (advance s d).rem else s.now := rfl
theorem advance_ts (s : St) (d : Int) : (advance s d).ts = if 0 < (advance s d).rem then (advance s d).rem else s.ts := rfl

/-- the clock of the step that ends at `E` -/
def Clock (E : Int) (s : St) : Prop := 0 ≤ s.rem ∧ s.now + s.ts = E ∧ (0 < s.rem → s.ts = s.rem)

theorem clock_advance {E : Int} {s : St} {d : Int} (h : Clock E s) (_hd : 0 ≤ d) : Clock E (advance s d) := by
  obtain ⟨h1, h2, h3⟩ := h
  refine ⟨?_, ?_, ?_⟩
  · rw [advance_rem]; omega
  · rw [advance_now, advance_ts]; split <;> omega
  · intro h; rw [advance_ts, if_pos h]

theorem clock_now {E : Int} {s : St} (h : Clock E s) (hr : 0 < s.rem) : s.now = E - s.rem := by
  have := h.2.2 hr; have := h.2.1; omega

/-- what holds in a step from `t` to `E` that began with `sp` sprayed -/
structure Inv (c : Cfg) (L t E : Int) (sp : ℚ) (s : St) : Prop where
  clock : Clock E s
  rem : s.rem ≤ E - t
  sound : Sound c L (E - s.rem) s
  disp0 : 0 ≤ s.disp
  disp1 : s.disp ≤ c.payload
  pay : s.payloads * c.payload = s.sprayed - sp
  more : sp ≤ s.sprayed
  pos : ∀ x ∈ s.log, 0 ≤ x.2
  tot : total s.log ≤ E - t - s.rem
  all : s.cur ≠ .deactivated → total s.log = E - t - s.rem
  late : E + 2 * c.transit ≤ L ∨ (s.rem ≤ wait c s (E - s.rem) ∧ (s.cur = .ready ∨ s.cur = .retired → s.rem = E - t))
  off : s.cur = .deactivated → s.rem = 0

/-- how much is left to do: no more than so many passes -/
def measure (E : Int) (s : St) : Nat :=
  10 * s.rem.toNat + match s.cur with
    | .enRoute => if s.nst = some (E - s.rem) then 9 else 0
    | .onsite => 8
    | .rtb => if s.nst = some (E - s.rem) then 7 else 0
    | .reload => if s.nst = some (E - s.rem) then 6 else 0
    | .retired => 6
    | .ready => 5
    | _ => 0

theorem total_append (l : List (Act × Int)) (a : Act) (x : Int) : total (l ++ [(a, x)]) = total l + x := by
  simp [total]

theorem spray_spec (o : Oil) (disp : ℚ) (t : Int) (ht : 0 ≤ t) (hr : 0 < o.rate) (hd : 0 ≤ disp) :
    0 ≤ (spray o disp t).1 ∧ (spray o disp t).1 ≤ disp ∧ 0 ≤ (spray o disp t).2 ∧ (spray o disp t).2 ≤ t ∧
      ((spray o disp t).2 < t → (spray o disp t).1 = disp) := by
  have ht' : (0 : ℚ) ≤ t := by exact_mod_cast ht
  have hp : (0 : ℚ) ≤ (t : ℚ) / 1000000 * o.rate := by positivity
  simp only [spray]
  by_cases h : disp < (t : ℚ) / 1000000 * o.rate
  · have hm : min disp ((t : ℚ) / 1000000 * o.rate) = disp := min_eq_left h.le
    rw [hm, if_pos h.ne]
    have h1 : disp / o.rate * 1000000 < t := by
      have : disp / o.rate < (t : ℚ) / 1000000 := by rw [div_lt_iff₀ hr]; exact h
      linarith
    refine ⟨hd, le_refl _, ?_, ?_, fun _ => rfl⟩
    · apply Int.floor_nonneg.2
      positivity
    · have : ⌊disp / o.rate * 1000000 + 1 / 2⌋ < t + 1 := by
        rw [Int.floor_lt]; push_cast; linarith
      omega
  · have hm : min disp ((t : ℚ) / 1000000 * o.rate) = (t : ℚ) / 1000000 * o.rate := min_eq_right (not_lt.1 h)
    rw [hm, if_neg (by simp)]
    exact ⟨hp, not_lt.1 h, ht, le_refl _, fun h => absurd h (lt_irrefl _)⟩

section
variable {c : Cfg} {ts : List Period} {o : Oil} {L t E : Int} {sp : ℚ}

/-- spending time, with an entry, keeps all that does not depend on where the boat is -/
theorem spend_inv {s : St} {a : Act} {d : Int} (hI : Inv c L t E sp s) (hd : 0 ≤ d) (hc : s.cur ≠ .deactivated) :
    Clock E (spend s a d) ∧ (spend s a d).rem ≤ E - t ∧ (∀ x ∈ (spend s a d).log, 0 ≤ x.2) ∧
      total (spend s a d).log = E - t - (spend s a d).rem ∧ (spend s a d).rem = s.rem - min s.rem d ∧
      (0 < (spend s a d).rem → (spend s a d).now = E - (spend s a d).rem) := by
  have hk : Clock E (spend s a d) := clock_advance hI.clock hd
  have hr : (spend s a d).rem = s.rem - min s.rem d := rfl
  have h0 := hI.clock.1
  have h1 := hI.rem
  refine ⟨hk, by rw [hr]; omega, ?_, ?_, hr, clock_now hk⟩
  · intro x hx
    rw [show (spend s a d).log = s.log ++ [(a, min s.rem d)] from rfl, List.mem_append] at hx
    rcases hx with hx | hx
    · exact hI.pos x hx
    · rw [List.mem_singleton] at hx; subst hx; simp only; omega
  · rw [show (spend s a d).log = s.log ++ [(a, min s.rem d)] from rfl, total_append, hr, hI.all hc]
    omega

/-- a pass keeps all of it, and brings the step nearer to its end -/
theorem pass_inv {s : St} {ttni : Int} (hc : Sane c) (hs : c.onsiteReload = false) (hr : 0 < o.rate) (hI : Inv c L t E sp s) (h0 : 0 < s.rem)
    (hfirst : ∃ p, ts.head? = some p ∧ p.1 ≤ t) (httni : E - t ≤ ttni)
    (hop : ∀ u, t ≤ u → u < E → isOperating ts u = true ∧ ∃ i, timeToNext ts u = .ok (some i) ∧ E - u ≤ i) :
    ∃ s', pass c ts ttni (L - t) L o s = some s' ∧ Inv c L t E sp s' ∧ (0 < s'.rem → measure E s' < measure E s) ∧
      (s'.cur = .deactivated → s.cur = .ready ∧ L - t ≤ c.mission) := by
  have hnow := clock_now hI.clock h0
  have hrem := hI.rem
  have hT := hc.transit
  have hR := hc.refuel
  cases hcur : s.cur with
  | retired =>
    obtain ⟨p, hp, hpt⟩ := hfirst
    refine ⟨{ s with cur := .ready }, ?_, ?_, ?_, ?_⟩
    · simp only [pass, hcur, retired, hp]
      rw [if_neg (by omega)]
    · refine { clock := hI.clock, rem := hI.rem, sound := trivial, disp0 := hI.disp0, disp1 := hI.disp1, pay := hI.pay, more := hI.more,
               pos := hI.pos, tot := hI.tot, all := fun _ => hI.all (by rw [hcur]; simp), late := ?_, off := fun h => by cases h }
      rcases hI.late with h | h
      · exact Or.inl h
      · right
        exact ⟨by simpa [wait, hcur] using h.1, fun _ => h.2 (Or.inr hcur)⟩
    · intro _; simp [measure, hcur]
    · intro h; cases h
  | ready =>
    by_cases hm : c.mission < L - t
    · have hmis := hc.mission
      have hnn : E - s.rem + c.transit + c.transit ≤ L := by
        rcases hI.late with h | h
        · omega
        · have := h.2 (Or.inl hcur); omega
      refine ⟨{ s with nst := some (s.now + c.transit), cur := .enRoute }, ?_, ?_, ?_, ?_⟩
      · simp only [pass, hcur, ready, hm, if_true]
      · refine { clock := hI.clock, rem := hI.rem, sound := ⟨_, rfl, ?_, ?_⟩, disp0 := hI.disp0, disp1 := hI.disp1, pay := hI.pay, more := hI.more,
                 pos := hI.pos, tot := hI.tot, all := fun _ => hI.all (by rw [hcur]; simp), late := ?_, off := fun h => by cases h }
        · simp only; omega
        · omega
        · rcases hI.late with h | h
          · exact Or.inl h
          · right
            refine ⟨?_, fun h => by simp at h⟩
            have h1 := h.1
            simp only [wait, hcur] at h1
            simp only [wait, Option.getD_some]
            omega
      · intro _
        simp only [measure, hcur]
        rw [if_neg (by simp only [Option.some.injEq]; omega)]
        omega
      · intro h; cases h
    · have hz : (advance s ttni).rem = 0 := by rw [advance_rem]; omega
      refine ⟨{ advance s ttni with cur := .deactivated }, ?_, ?_, ?_, ?_⟩
      · simp only [pass, hcur, ready, hm, if_false]
      · have hk := clock_advance (d := ttni) hI.clock (by omega)
        have htot := hI.tot
        refine { clock := hk, rem := ?_, sound := trivial, disp0 := hI.disp0, disp1 := hI.disp1, pay := hI.pay, more := hI.more,
                 pos := hI.pos, tot := ?_, all := fun h => absurd rfl h, late := ?_, off := fun _ => hz }
        · simp only [hz]; omega
        · simp only [hz]
          rw [show (advance s ttni).log = s.log from rfl]; omega
        · right
          refine ⟨?_, fun h => by simp at h⟩
          simp only [hz, wait]; omega
      · intro h; simp only [hz] at h; omega
      · intro _; exact ⟨rfl, by omega⟩
  | enRoute =>
    have hsnd := hI.sound
    simp only [Sound, hcur] at hsnd
    obtain ⟨n, hn, hn1, hn2⟩ := hsnd
    obtain ⟨k1, k2, k3, k4, k5, k6⟩ := spend_inv (a := .transit) (d := n - s.now) hI (by omega) (by rw [hcur]; simp)
    by_cases hp : 0 < (spend s .transit (n - s.now)).rem
    · have hr' : (spend s .transit (n - s.now)).rem = s.rem - (n - s.now) := by rw [k5] at hp ⊢; omega
      refine ⟨{ spend s .transit (n - s.now) with opEnd := some (L - c.transit), cur := .onsite }, ?_, ?_, ?_, ?_⟩
      · simp only [pass, hcur, hn, Option.map_some, enRoute, hp, if_true]
      · refine { clock := k1, rem := k2, sound := ⟨rfl, ?_⟩, disp0 := hI.disp0, disp1 := hI.disp1, pay := hI.pay, more := hI.more,
                 pos := k3, tot := k4.le, all := fun _ => k4, late := ?_, off := fun h => by cases h }
        · simp only [hr']; omega
        · rcases hI.late with h | h
          · exact Or.inl h
          · right
            refine ⟨?_, fun h => by simp at h⟩
            have h1 := h.1
            simp only [wait, hcur, hn, Option.getD_some] at h1
            simp only [wait, hr']; omega
      · intro _
        simp only [measure, hcur, hn, hr', Option.some.injEq]
        split <;> omega
      · intro h; cases h
    · have hz : (spend s .transit (n - s.now)).rem = 0 := by have := k1.1; omega
      refine ⟨spend s .transit (n - s.now), ?_, ?_, ?_, ?_⟩
      · simp only [pass, hcur, hn, Option.map_some, enRoute, hp, if_false]
      · have hc2 : (spend s .transit (n - s.now)).cur = .enRoute := hcur
        have hn3 : (spend s .transit (n - s.now)).nst = some n := hn
        refine { clock := k1, rem := k2, sound := ?_, disp0 := hI.disp0, disp1 := hI.disp1, pay := hI.pay, more := hI.more,
                 pos := k3, tot := k4.le, all := fun _ => k4, late := ?_, off := fun _ => hz }
        · simp only [Sound, hc2]
          refine ⟨n, hn3, ?_, hn2⟩
          rw [k5] at hz; rw [k5]; omega
        · right
          refine ⟨?_, fun h => by rw [hc2] at h; simp at h⟩
          simp only [wait, hc2, hn3, Option.getD_some]
          rw [k5] at hz; rw [k5]; omega
      · intro h; omega
      · intro h
        have : (spend s .transit (n - s.now)).cur = .enRoute := hcur
        rw [this] at h; cases h
  | rtb =>
    have hsnd := hI.sound
    simp only [Sound, hcur] at hsnd
    obtain ⟨n, hn, hn1, hn2⟩ := hsnd
    obtain ⟨k1, k2, k3, k4, k5, k6⟩ := spend_inv (a := .transit) (d := n - s.now) hI (by omega) (by rw [hcur]; simp)
    by_cases hp : 0 < (spend s .transit (n - s.now)).rem
    · have hr' : (spend s .transit (n - s.now)).rem = s.rem - (n - s.now) := by rw [k5] at hp ⊢; omega
      have hnow' := k6 hp
      refine ⟨{ spend s .transit (n - s.now) with nst := some ((spend s .transit (n - s.now)).now + c.refuel), cur := .reload }, ?_, ?_, ?_, ?_⟩
      · simp only [pass, hcur, hn, Option.map_some, rtb, hp, if_true]
      · refine { clock := k1, rem := k2, sound := ⟨_, rfl, ?_⟩, disp0 := hI.disp0, disp1 := hI.disp1, pay := hI.pay, more := hI.more,
                 pos := k3, tot := k4.le, all := fun _ => k4, late := ?_, off := fun h => by cases h }
        · simp only; omega
        · rcases hI.late with h | h
          · exact Or.inl h
          · right
            refine ⟨?_, fun h => by simp at h⟩
            have h1 := h.1
            simp only [wait, hcur, hn, Option.getD_some] at h1
            simp only [wait, Option.getD_some]; omega
      · intro _
        simp only [measure, hcur, hn, Option.some.injEq]
        split <;> split <;> omega
      · intro h; cases h
    · have hz : (spend s .transit (n - s.now)).rem = 0 := by have := k1.1; omega
      have hc2 : (spend s .transit (n - s.now)).cur = .rtb := hcur
      refine ⟨spend s .transit (n - s.now), ?_, ?_, ?_, ?_⟩
      · simp only [pass, hcur, hn, Option.map_some, rtb, hp, if_false]
      · have hn3 : (spend s .transit (n - s.now)).nst = some n := hn
        refine { clock := k1, rem := k2, sound := ?_, disp0 := hI.disp0, disp1 := hI.disp1, pay := hI.pay, more := hI.more,
                 pos := k3, tot := k4.le, all := fun _ => k4, late := ?_, off := fun _ => hz }
        · simp only [Sound, hc2]
          refine ⟨n, hn3, ?_, hn2⟩
          rw [k5] at hz; rw [k5]; omega
        · right
          refine ⟨?_, fun h => by rw [hc2] at h; simp at h⟩
          simp only [wait, hc2, hn3, Option.getD_some]
          rw [k5] at hz; rw [k5]; omega
      · intro h; omega
      · intro h; rw [hc2] at h; cases h
  | reload =>
    have hsnd := hI.sound
    simp only [Sound, hcur] at hsnd
    obtain ⟨n, hn, hn1⟩ := hsnd
    obtain ⟨k1, k2, k3, k4, k5, k6⟩ := spend_inv (a := .reload) (d := n - s.now) hI (by omega) (by rw [hcur]; simp)
    by_cases hp : 0 < (spend s .reload (n - s.now)).rem
    · have hr' : (spend s .reload (n - s.now)).rem = s.rem - (n - s.now) := by rw [k5] at hp ⊢; omega
      refine ⟨{ spend s .reload (n - s.now) with disp := c.payload, cur := .ready }, ?_, ?_, ?_, ?_⟩
      · simp only [pass, hcur, hn, Option.map_some, reload, hp, if_true, hs, Bool.false_eq_true, if_false]
      · refine { clock := k1, rem := k2, sound := trivial, disp0 := hc.payload.le, disp1 := le_refl _, pay := hI.pay, more := hI.more,
                 pos := k3, tot := k4.le, all := fun _ => k4, late := ?_, off := fun h => by cases h }
        rcases hI.late with h | h
        · exact Or.inl h
        · exfalso
          have h1 := h.1
          simp only [wait, hcur, hn, Option.getD_some] at h1
          omega
      · intro _
        simp only [measure, hcur, hn, Option.some.injEq]
        split <;> omega
      · intro h; cases h
    · have hz : (spend s .reload (n - s.now)).rem = 0 := by have := k1.1; omega
      have hc2 : (spend s .reload (n - s.now)).cur = .reload := hcur
      refine ⟨spend s .reload (n - s.now), ?_, ?_, ?_, ?_⟩
      · simp only [pass, hcur, hn, Option.map_some, reload, hp, if_false]
      · have hn3 : (spend s .reload (n - s.now)).nst = some n := hn
        refine { clock := k1, rem := k2, sound := ?_, disp0 := hI.disp0, disp1 := hI.disp1, pay := hI.pay, more := hI.more,
                 pos := k3, tot := k4.le, all := fun _ => k4, late := ?_, off := fun _ => hz }
        · simp only [Sound, hc2]
          refine ⟨n, hn3, ?_⟩
          rw [k5] at hz; rw [k5]; omega
        · right
          refine ⟨?_, fun h => by rw [hc2] at h; simp at h⟩
          simp only [wait, hc2, hn3, Option.getD_some]
          rw [k5] at hz; rw [k5]; omega
      · intro h; omega
      · intro h; rw [hc2] at h; cases h
  | onsite =>
    have hsnd := hI.sound
    simp only [Sound, hcur] at hsnd
    obtain ⟨he, hle⟩ := hsnd
    obtain ⟨hop1, i, hi, hiE⟩ := hop s.now (by omega) (by omega)
    have hmin : min (min s.rem (L - c.transit - s.now)) i = min s.rem (L - c.transit - s.now) := by omega
    generalize hm : min s.rem (L - c.transit - s.now) = m at hmin
    have hm0 : 0 ≤ m := by omega
    obtain ⟨q1, q2, q3, q4, q5⟩ := spray_spec o s.disp m hm0 hr hI.disp0
    obtain ⟨k1, k2, k3, k4, k5, k6⟩ := spend_inv (a := .onsite) (d := (spray o s.disp m).2) hI q3 (by rw [hcur]; simp)
    have hsp : ∀ x, (sprayed c o s m).rem = x ↔ (spend s .onsite (spray o s.disp m).2).rem = x := fun x => Iff.rfl
    have e1 : (sprayed c o s m).rem = s.rem - min s.rem (spray o s.disp m).2 := k5
    have e2 : (sprayed c o s m).log = (spend s .onsite (spray o s.disp m).2).log := rfl
    have e3 : (sprayed c o s m).disp = s.disp - (spray o s.disp m).1 := rfl
    have e4 : (sprayed c o s m).cur = .onsite := hcur
    have e5 : (sprayed c o s m).opEnd = some (L - c.transit) := he
    have hk : Clock E (sprayed c o s m) := k1
    have hpay : (sprayed c o s m).payloads * c.payload = (sprayed c o s m).sprayed - sp := by
      have h1 : (sprayed c o s m).payloads = s.payloads + (spray o s.disp m).1 / c.payload := rfl
      have h2 : (sprayed c o s m).sprayed = s.sprayed + (spray o s.disp m).1 := rfl
      have h3 := hI.pay
      have h4 := hc.payload.ne'
      rw [h1, h2]; field_simp; linarith
    have hmore : sp ≤ (sprayed c o s m).sprayed := by
      have h2 : (sprayed c o s m).sprayed = s.sprayed + (spray o s.disp m).1 := rfl
      have := hI.more
      rw [h2]; linarith
    have hd0 : 0 ≤ (sprayed c o s m).disp := by rw [e3]; linarith
    have hd1 : (sprayed c o s m).disp ≤ c.payload := by have := hI.disp1; rw [e3]; linarith
    by_cases hp : 0 < (sprayed c o s m).rem
    · have hnow' : (sprayed c o s m).now = E - (sprayed c o s m).rem := clock_now hk hp
      have hlate : E + 2 * c.transit ≤ L ∨ (sprayed c o s m).rem ≤ c.transit + c.refuel := by
        rcases hI.late with h | h
        · exact Or.inl h
        · right
          have h1 := h.1
          simp only [wait, hcur] at h1
          rw [e1]; omega
      have hbase : Inv c L t E sp (toBase c (sprayed c o s m)) ∧ (0 < (toBase c (sprayed c o s m)).rem →
          measure E (toBase c (sprayed c o s m)) < measure E s) := by
        have hrr : (toBase c (sprayed c o s m)).rem = (sprayed c o s m).rem := rfl
        refine ⟨{ clock := k1, rem := k2, sound := ⟨_, rfl, ?_, ?_⟩, disp0 := hd0, disp1 := hd1, pay := hpay, more := hmore,
                  pos := k3, tot := k4.le, all := fun _ => k4, late := ?_, off := fun h => by cases h }, ?_⟩
        · rw [hrr]; omega
        · rw [hnow', e1]; omega
        · rcases hlate with h | h
          · exact Or.inl h
          · right
            refine ⟨?_, fun h => by simp [toBase] at h⟩
            simp only [wait, toBase, Option.getD_some]; omega
        · intro _
          simp only [measure, hcur, toBase, Option.some.injEq]
          rw [if_neg (by omega), e1]; omega
      by_cases hz : (sprayed c o s m).disp = 0
      · refine ⟨toBase c (sprayed c o s m), ?_, hbase.1, hbase.2, fun h => by cases h⟩
        simp only [pass, hcur, he, Option.bind_some, onsite, hop1, if_true, hi]
        rw [hm, hmin]
        simp only [hp, if_true, hz, hs, Bool.false_eq_true, if_false]
      · have hfull : ¬ (spray o s.disp m).2 < m := fun h => hz (by rw [e3, q5 h]; ring)
        have hend : (sprayed c o s m).now = L - c.transit := by rw [hnow', e1]; rw [e1] at hp; omega
        refine ⟨toBase c (sprayed c o s m), ?_, hbase.1, hbase.2, fun h => by cases h⟩
        simp only [pass, hcur, he, Option.bind_some, onsite, hop1, if_true, hi]
        rw [hm, hmin]
        simp only [hp, if_true, hz, if_false, hend]
    · have hz : (sprayed c o s m).rem = 0 := by have := hk.1; omega
      refine ⟨sprayed c o s m, ?_, ?_, fun h => by omega, fun h => by rw [e4] at h; cases h⟩
      · simp only [pass, hcur, he, Option.bind_some, onsite, hop1, if_true, hi]
        rw [hm, hmin]
        simp only [hp, if_false]
      · refine { clock := k1, rem := k2, sound := ?_, disp0 := hd0, disp1 := hd1, pay := hpay, more := hmore,
                 pos := k3, tot := k4.le, all := fun _ => k4, late := ?_, off := fun _ => hz }
        · simp only [Sound, e4]
          refine ⟨e5, ?_⟩
          rw [hz]; rw [e1] at hz; omega
        · right
          refine ⟨?_, fun h => by rw [e4] at h; simp at h⟩
          simp only [wait, e4, hz]; omega
  | cascade =>
    have hsnd := hI.sound
    simp only [Sound, hcur] at hsnd
  | deactivated => have := hI.off hcur; omega

/-- the loop ends -/
theorem loop_inv {ttni : Int} (hc : Sane c) (hs : c.onsiteReload = false) (hr : 0 < o.rate)
    (hfirst : ∃ p, ts.head? = some p ∧ p.1 ≤ t) (httni : E - t ≤ ttni)
    (hop : ∀ u, t ≤ u → u < E → isOperating ts u = true ∧ ∃ i, timeToNext ts u = .ok (some i) ∧ E - u ≤ i) :
    ∀ (k : Nat) (s : St), measure E s ≤ k → Inv c L t E sp s →
      ∃ n s', (∀ m, n ≤ m → loop c ts ttni (L - t) L o m s = some s') ∧ Inv c L t E sp s' ∧ s'.rem = 0 ∧
        (s'.cur = .deactivated → s.cur ≠ .deactivated → L - t ≤ c.mission) := by
  intro k
  induction k with
  | zero =>
    intro s hk hI
    have h0 : s.rem = 0 := by have := hI.clock.1; unfold measure at hk; omega
    refine ⟨0, s, ?_, hI, h0, fun h1 h2 => absurd h1 h2⟩
    intro m _
    cases m <;> simp [loop, h0]
  | succ k ih =>
    intro s hk hI
    by_cases h0 : 0 < s.rem
    · obtain ⟨s1, h1, h2, h3, h4⟩ := pass_inv hc hs hr hI h0 hfirst httni hop
      by_cases h5 : 0 < s1.rem
      · obtain ⟨n, s', h6, h7, h8, h9⟩ := ih s1 (by have := h3 h5; omega) h2
        refine ⟨n + 1, s', ?_, h7, h8, ?_⟩
        · intro m hm
          obtain ⟨m, rfl⟩ : ∃ m', m = m' + 1 := ⟨m - 1, by omega⟩
          simp only [loop, h0, if_true, h1, Option.bind_some]
          exact h6 m (by omega)
        · intro h _
          by_cases hd : s1.cur = .deactivated
          · exact (h4 hd).2
          · exact h9 h hd
      · refine ⟨1, s1, ?_, h2, by have := h2.clock.1; omega, fun h _ => (h4 h).2⟩
        intro m hm
        obtain ⟨m, rfl⟩ : ∃ m', m = m' + 1 := ⟨m - 1, by omega⟩
        simp only [loop, h0, if_true, h1, Option.bind_some]
        cases m <;> simp [loop, h5]
    · have h0' : s.rem = 0 := by have := hI.clock.1; omega
      refine ⟨0, s, ?_, hI, h0', fun h1 h2 => absurd h1 h2⟩
      intro m _
      cases m <;> simp [loop, h0']
end

/-! ## A step -/

/-- a boat as it is at the time `t`, between two steps -/
structure At (c : Cfg) (ts : List Period) (t : Int) (s : St) : Prop where
  sound : Sound c (lastEnd ts) t s
  disp0 : 0 ≤ s.disp
  disp1 : s.disp ≤ c.payload

theorem timeToNext_of {ts : List Period} {i : Nat} {p : Period} {u : Int} (h1 : ts[i]? = some p) (h2 : indexOf ts u = some i) :
    timeToNext ts u = .ok (some (p.2 - u)) := by
  unfold timeToNext; rw [h2]; simp [h1]

theorem isActive_of {ts : List Period} {i : Nat} {p : Period} {t dt : Int} (h1 : ts[i]? = some p) (h2 : p.1 ≤ t) (h3 : t + dt ≤ p.2)
    (h4 : 0 < dt) : isActive ts t dt = true := by
  unfold isActive
  rw [List.any_eq_true]
  refine ⟨p, List.mem_of_getElem? h1, ?_⟩
  simp only [Bool.and_eq_true, decide_eq_true_eq]
  omega

/-- what a step does that fits: it ends, after at most so many passes; then everything is in order -/
theorem step_fits {c : Cfg} {ts : List Period} {o : Oil} {t dt : Int} {s : St} (hc : Sane c) (hs : c.onsiteReload = false) (hr : 0 < o.rate)
    (hf : Fits c ts t dt s) (hA : At c ts t s) (hd : s.cur ≠ .deactivated) :
    ∃ n s', (∀ m, n ≤ m → step c ts o t dt m s = some s') ∧ At c ts (t + dt) s' ∧ (∀ x ∈ s'.log, 0 ≤ x.2) ∧ total s'.log ≤ dt ∧
      (s'.cur ≠ .deactivated → total s'.log = dt) ∧ s'.payloads * c.payload = s'.sprayed - s.sprayed ∧ s.sprayed ≤ s'.sprayed ∧
      (s'.cur = .deactivated → lastEnd ts - t ≤ c.mission) := by
  obtain ⟨i, p, h1, h2, h3, h4, h5⟩ := hf.period
  have hpos := hf.pos
  have hlast := hf.last
  obtain ⟨q, hq⟩ : ∃ q, ts.head? = some q := by
    cases ts with
    | nil => simp at h1
    | cons a l => exact ⟨a, rfl⟩
  have hI : Inv c (lastEnd ts) t (t + dt) s.sprayed { s with log := [], payloads := 0, rem := dt, now := t, ts := dt } := by
    have e : t + dt - dt = t := by omega
    refine { clock := ⟨by simp only; omega, rfl, fun _ => rfl⟩, rem := ?_, sound := ?_, disp0 := hA.disp0, disp1 := hA.disp1, pay := ?_,
             more := le_refl _, pos := ?_, tot := ?_, all := ?_, late := ?_, off := fun h => absurd h hd }
    · simp only; omega
    · simp only [e]; exact hA.sound
    · simp
    · simp
    · simp [total]
    · intro _; simp [total]
    · rcases hf.late with h | h
      · exact Or.inl h
      · right
        refine ⟨?_, fun _ => by simp only; omega⟩
        simp only [e]; exact h
  obtain ⟨n, s', k1, k2, k3, k4⟩ := loop_inv (o := o) (ts := ts) (ttni := p.2 - t) hc hs hr ⟨q, hq, hf.first q hq⟩ (by omega)
    (fun u hu1 hu2 => ⟨by unfold isOperating; rw [h5 u hu1 hu2]; rfl, p.2 - u, timeToNext_of h1 (h5 u hu1 hu2), by omega⟩) _ _ (le_refl _) hI
  refine ⟨n, s', ?_, ⟨?_, k2.disp0, k2.disp1⟩, k2.pos, ?_, ?_, k2.pay, k2.more, ?_⟩
  · intro m hm
    unfold step
    rw [isActive_of h1 h3 h4 hpos]
    simp only [if_true, hd, if_false, timeToNext_of h1 h2, Option.getD_some]
    rw [if_neg (by omega)]
    exact k1 m hm
  · have := k2.sound; rw [k3] at this; simpa using this
  · have := k2.tot; omega
  · intro h; have := k2.all h; omega
  · intro h; exact k4 h hd

/-! ## C259 -/

/-- The claim: every step of a boat ends. -/
def C259_claim : Prop := ∀ (c : Cfg) (ts : List Period) (o : Oil) (t dt : Int) (casc : Bool), Sane c → 0 < o.rate → 0 < dt →
  ∃ n, step c ts o t dt n (new c casc) ≠ none

/-- **C259** in part: a step within a period ends, when no sortie that begins in it would end late. -/
theorem C259_partial (c : Cfg) (ts : List Period) (o : Oil) (t dt : Int) (s : St) (hc : Sane c) (hs : c.onsiteReload = false) (hr : 0 < o.rate)
    (hf : Fits c ts t dt s) (hA : At c ts t s) : ∃ n s', ∀ m, n ≤ m → step c ts o t dt m s = some s' := by
  by_cases hd : s.cur = .deactivated
  · obtain ⟨i, p, h1, h2, h3, h4, h5⟩ := hf.period
    refine ⟨0, { s with log := [], payloads := 0 }, fun m _ => ?_⟩
    unfold step
    rw [isActive_of h1 h3 h4 hf.pos]
    simp only [if_true, hd]
  · obtain ⟨n, s', h, _⟩ := step_fits hc hs hr hf hA hd
    exact ⟨n, s', h⟩

theorem stuck (c : Cfg) (ts : List Period) (a b l : Int) (o : Oil) (s : St) (h : s.cur = .deactivated ∨ s.cur = .cascade) (hr : 0 < s.rem) :
    ∀ n, loop c ts a b l o n s = none := by
  intro n
  induction n with
  | zero => simp [loop, hr]
  | succ n ih =>
    have : pass c ts a b l o s = some s := by rcases h with h | h <;> simp [pass, h]
    simp only [loop, hr, if_true, this, Option.bind_some, ih]

/-- a boat an hour from the slick, and oil -/
def ship : Cfg := ⟨100, 10, 201, false, 1, 20⟩
def oil : Oil := ⟨true, 1000, 900, 1⟩

theorem ship_sane : Sane ship := ⟨by decide, by decide, by decide, by decide +kernel⟩

/-- **C259** fails: in a step that reaches beyond the end of the period, a boat for which there is no time for a sortie is taken out of service
and the loop goes on for ever. -/
theorem C259_counterexample : ¬ C259_claim := by
  intro h
  obtain ⟨n, hn⟩ := h ship [(0, 40)] oil 0 60 false ship_sane (by decide +kernel) (by decide)
  apply hn
  have e : ∀ n, step ship [(0, 40)] oil 0 60 n (new ship false) =
    loop ship [(0, 40)] 40 40 40 oil n { new ship false with rem := 60, now := 0, ts := 60 } := fun n => rfl
  rw [e]
  cases n with
  | zero => rfl
  | succ n =>
    cases n with
    | zero => rfl
    | succ n =>
      exact stuck ship [(0, 40)] 40 40 40 oil { new ship false with cur := .deactivated, rem := 20, now := 40, ts := 20 } (Or.inl rfl) (by decide) n

/-- **C259** fails: a boat that is first brought to its base (`cascade_on`) is in a state in which the loop does nothing, for ever. -/
theorem C259_counterexample_cascade : ¬ C259_claim := by
  intro h
  obtain ⟨n, hn⟩ := h ship [(0, 4000)] oil 0 60 true ship_sane (by decide +kernel) (by decide)
  exact hn (stuck ship [(0, 4000)] 4000 4000 4000 oil { new ship true with rem := 60, now := 0, ts := 60 } (Or.inr rfl) (by decide) n)

/-- a boat ten microseconds from the slick that can reload on site, on its way back at the end of its time -/
def tug : Cfg := { ship with transit := 10, mission := 21, onsiteReload := true }
def homeward (d sp p : ℚ) (tr : Option ℚ) (l : List (Act × Int)) : St :=
  { cur := .rtb, nst := some 100, disp := d, opEnd := some 90, treated := tr, sprayed := sp, payloads := p, log := l, rem := 60, now := 90, ts := 60 }

theorem homeward_pass (d sp p : ℚ) (tr : Option ℚ) (l : List (Act × Int)) (n : Nat) :
    loop tug [(0, 100)] 100 100 100 oil (n + 3) (homeward d sp p tr l) =
      loop tug [(0, 100)] 100 100 100 oil n (homeward 1 sp p tr (l ++ [(.transit, 10)] ++ [(.reload, 10)])) := rfl

theorem homeward_none : ∀ (n : Nat) (d sp p : ℚ) (tr : Option ℚ) (l : List (Act × Int)),
    loop tug [(0, 100)] 100 100 100 oil n (homeward d sp p tr l) = none
  | 0, _, _, _, _, _ => rfl
  | 1, _, _, _, _, _ => rfl
  | 2, _, _, _, _, _ => rfl
  | n + 3, d, sp, p, tr, l => by rw [homeward_pass]; exact homeward_none n 1 sp p tr _

/-- **C259** fails: a boat that can reload on site (`onsite_reload_refuel`) goes back at the end of its time and reloads; then it is on site
again without having gone there, its time is up, the clock is set back, and so on for ever. -/
theorem C259_counterexample_onsite : ¬ C259_claim := by
  intro h
  obtain ⟨n, hn⟩ := h tug [(0, 100)] oil 0 150 false ⟨by decide, by decide, by decide, by decide +kernel⟩ (by decide +kernel) (by decide)
  apply hn
  have e : ∀ n, step tug [(0, 100)] oil 0 150 n (new tug false) =
    loop tug [(0, 100)] 100 100 100 oil n { new tug false with rem := 150, now := 0, ts := 150 } := fun n => rfl
  rw [e]
  have key : ∀ m, loop tug [(0, 100)] 100 100 100 oil (m + 4) { new tug false with rem := 150, now := 0, ts := 150 } =
      loop tug [(0, 100)] 100 100 100 oil m (homeward (1 - 80 / 1000000) (80 / 1000000) (80 / 1000000) (some (900 * (80 / 1000000 * 20)))
        [(.transit, 10), (.onsite, 80)]) := by
    intro m
    have f : ∀ (s0 s1 s2 s3 s4 : St), 0 < s0.rem → pass tug [(0, 100)] 100 100 100 oil s0 = some s1 → 0 < s1.rem →
        pass tug [(0, 100)] 100 100 100 oil s1 = some s2 → 0 < s2.rem → pass tug [(0, 100)] 100 100 100 oil s2 = some s3 → 0 < s3.rem →
        pass tug [(0, 100)] 100 100 100 oil s3 = some s4 →
        loop tug [(0, 100)] 100 100 100 oil (m + 4) s0 = loop tug [(0, 100)] 100 100 100 oil m s4 := by
      intro s0 s1 s2 s3 s4 a0 b0 a1 b1 a2 b2 a3 b3
      simp only [loop, a0, b0, a1, b1, a2, b2, a3, b3, if_true, Option.bind_some]
    refine f _ { new tug false with cur := .ready, rem := 150, now := 0, ts := 150 }
      { new tug false with cur := .enRoute, nst := some 10, rem := 150, now := 0, ts := 150 }
      { new tug false with cur := .onsite, nst := some 10, opEnd := some 90, log := [(.transit, 10)], rem := 140, now := 10, ts := 140 } _
      (by decide) rfl (by decide) rfl (by decide) rfl (by decide) ?_
    decide +kernel
  match n with
  | 0 => rfl
  | 1 => rfl
  | 2 => rfl
  | 3 => rfl
  | n + 4 => rw [key]; exact homeward_none n _ _ _ _ _

/-! ## C260 -/

/-- steps one after the other, at given times -/
def run (c : Cfg) (ts : List Period) (o : Oil) (n : Nat) : List (Int × Int) → St → Option St
  | [], s => some s
  | (t, dt) :: l, s => (step c ts o t dt n s).bind (run c ts o n l)

/-- The claim: the times reported for a step are at least 0 and add up to the step. -/
def C260_claim : Prop := ∀ (c : Cfg) (ts : List Period) (o : Oil) (n : Nat) (l : List (Int × Int)) (t dt : Int) (s : St), Sane c → 0 < o.rate →
  isActive ts t dt = true → run c ts o n (l ++ [(t, dt)]) (new c false) = some s → (∀ x ∈ s.log, 0 ≤ x.2) ∧ total s.log = dt

/-- **C260** in part: the times reported for a step that fits are at least 0, and add up to the step as long as the boat is in service. -/
theorem C260_partial (c : Cfg) (ts : List Period) (o : Oil) (t dt : Int) (s s' : St) (n : Nat) (hc : Sane c) (hs : c.onsiteReload = false)
    (hr : 0 < o.rate) (hf : Fits c ts t dt s) (hA : At c ts t s) (hd : s.cur ≠ .deactivated)
    (hn : ∀ m, n ≤ m → step c ts o t dt m s = some s') :
    (∀ x ∈ s'.log, 0 ≤ x.2) ∧ total s'.log ≤ dt ∧ (s'.cur ≠ .deactivated → total s'.log = dt) ∧
      (s'.cur = .deactivated → lastEnd ts - t ≤ c.mission) := by
  obtain ⟨k, s1, h1, h2, h3, h4, h5, h6, h7, h8⟩ := step_fits hc hs hr hf hA hd
  have : s1 = s' := by
    have a := h1 (max k n) (le_max_left _ _)
    have b := hn (max k n) (le_max_right _ _)
    rw [a] at b; exact Option.some.inj b
  subst this
  exact ⟨h3, h4, h5, h8⟩

/-- **C260** fails: between two periods a boat waits on site, and the time is not reported. -/
theorem C260_counterexample : ¬ C260_claim := by
  intro h
  have hv : (run { ship with transit := 10, mission := 21 } [(0, 100), (200, 300)] oil 9 ([] ++ [(0, 150)])
    (new { ship with transit := 10, mission := 21 } false)).map (fun s => total s.log) = some 100 := by decide +kernel
  obtain ⟨s, h1, h2⟩ := Option.map_eq_some_iff.1 hv
  have := (h { ship with transit := 10, mission := 21 } [(0, 100), (200, 300)] oil 9 [] 0 150 s
    ⟨by decide, by decide, by decide, by decide +kernel⟩ (by decide +kernel) (by decide) h1).2
  omega

/-- **C260** fails: a boat that was on its way when a period ended reports a negative time when the next begins. -/
theorem C260_counterexample_pause : ¬ C260_claim := by
  intro h
  have hv : (run ship [(0, 60), (1000, 2000)] oil 9 ([(0, 60)] ++ [(1000, 60)])
    (new ship false)).map (fun s => s.log.any (fun x => decide (x.2 < 0))) = some true := by
    decide +kernel
  obtain ⟨s, h1, h2⟩ := Option.map_eq_some_iff.1 hv
  have := (h ship [(0, 60), (1000, 2000)] oil 9 [(0, 60)] 1000 60 s
    ship_sane (by decide +kernel) (by decide) h1).1
  rw [List.any_eq_true] at h2
  obtain ⟨x, hx, h3⟩ := h2
  have := this x hx
  simp only [decide_eq_true_eq] at h3
  omega

/-! ## C261 -/

/-- The claim: a boat never carries more than its payload. -/
def C261_claim : Prop := ∀ (c : Cfg) (ts : List Period) (o : Oil) (n : Nat) (l : List (Int × Int)) (s : St), Sane c → 0 < o.rate →
  run c ts o n l (new c false) = some s → s.disp ≤ c.payload

/-- states reached at a time by steps that follow each other and fit -/
inductive Reach (c : Cfg) (ts : List Period) (t0 : Int) : Int → St → Prop
  | start : Reach c ts t0 t0 (new c false)
  | step {t dt : Int} {o : Oil} {n : Nat} {s s' : St} (h : Reach c ts t0 t s) (hr : 0 < o.rate) (hf : Fits c ts t dt s)
      (hn : ∀ m, n ≤ m → step c ts o t dt m s = some s') : Reach c ts t0 (t + dt) s'

/-- **C261** in part: after any number of steps that follow each other and fit, a boat carries between nothing and its payload; when it is on
its way to the slick it will be there in time to go back, on site it is still time to go back, and on its way back it will be there
by the end of the last period. -/
theorem C261_partial (c : Cfg) (ts : List Period) (t0 t : Int) (s : St) (hc : Sane c) (hs : c.onsiteReload = false)
    (h : Reach c ts t0 t s) : 0 ≤ s.disp ∧ s.disp ≤ c.payload ∧ Sound c (lastEnd ts) t s := by
  have key : At c ts t s := by
    induction h with
    | start => exact ⟨trivial, hc.payload.le, le_refl _⟩
    | @step t dt o n s s' h hr hf hn ih =>
      by_cases hd : s.cur = .deactivated
      · obtain ⟨i, p, h1, h2, h3, h4, h5⟩ := hf.period
        have := hn n (le_refl _)
        unfold Boat.step at this
        rw [isActive_of h1 h3 h4 hf.pos] at this
        simp only [if_true, hd, Option.some.injEq] at this
        subst this
        exact ⟨trivial, ih.disp0, ih.disp1⟩
      · obtain ⟨k, s1, h1, h2, _⟩ := step_fits hc hs hr hf ih hd
        have : s1 = s' := by
          have a := h1 (max k n) (le_max_left _ _)
          have b := hn (max k n) (le_max_right _ _)
          rw [a] at b; exact Option.some.inj b
        subst this
        exact h2
  exact ⟨key.disp0, key.disp1, key.sound⟩

/-- **C261**: in a step that fits, the payloads that are reported are what was sprayed. -/
theorem C261_sprayed (c : Cfg) (ts : List Period) (o : Oil) (t dt : Int) (s s' : St) (n : Nat) (hc : Sane c) (hs : c.onsiteReload = false)
    (hr : 0 < o.rate) (hf : Fits c ts t dt s) (hA : At c ts t s) (hd : s.cur ≠ .deactivated)
    (hn : ∀ m, n ≤ m → step c ts o t dt m s = some s') :
    s'.payloads * c.payload = s'.sprayed - s.sprayed ∧ s.sprayed ≤ s'.sprayed := by
  obtain ⟨k, s1, h1, h2, h3, h4, h5, h6, h7, h8⟩ := step_fits hc hs hr hf hA hd
  have : s1 = s' := by
    have a := h1 (max k n) (le_max_left _ _)
    have b := hn (max k n) (le_max_right _ _)
    rw [a] at b; exact Option.some.inj b
  subst this
  exact ⟨h6, h7⟩

/-- **C261** fails: whether a sortie is possible is decided with the time that was left at the beginning of the step; a boat that begins its
second sortie of a step too late takes up dispersant on site. -/
theorem C261_counterexample : ¬ C261_claim := by
  intro h
  have hv : (run { ship with transit := 10, refuel := 3, mission := 21, payload := 1 / 500000 } [(0, 40)] oil 12 [(0, 36)]
    (new { ship with transit := 10, refuel := 3, mission := 21, payload := 1 / 500000 } false)).map (fun s => decide ((1 : ℚ) / 500000 < s.disp)) = some true := by
    decide +kernel
  obtain ⟨s, h1, h2⟩ := Option.map_eq_some_iff.1 hv
  have := h { ship with transit := 10, refuel := 3, mission := 21, payload := 1 / 500000 } [(0, 40)] oil 12 [(0, 36)] s
    ⟨by decide, by decide, by decide, by decide +kernel⟩ (by decide +kernel) h1
  simp only [decide_eq_true_eq] at h2
  exact absurd this (not_le.2 h2)

/-! ## C262 -/

/-- The claim: the oil that a boat has treated is a number. -/
def C262_claim : Prop := ∀ (c : Cfg) (ts : List Period) (o : Oil) (n : Nat) (t dt : Int) (s : St), Sane c → 0 < o.rate →
  step c ts o t dt n (new c false) = some s → s.treated ≠ none

theorem pass_treated {c : Cfg} {ts : List Period} {a b l : Int} {o : Oil} {s s' : St} (ho : o.any = true ∨ s.cur ≠ .onsite)
    (h : s.treated ≠ none) (hp : pass c ts a b l o s = some s') : s'.treated ≠ none := by
  unfold pass at hp
  cases hcur : s.cur with
  | retired =>
    simp only [hcur] at hp
    unfold retired at hp
    cases ht : ts.head? with
    | none => rw [ht] at hp; cases hp
    | some p =>
      rw [ht] at hp
      simp only at hp
      split at hp
      · cases hp
      · cases hp; exact h
  | ready =>
    simp only [hcur, Option.some.injEq] at hp
    subst hp
    unfold ready
    split <;> exact h
  | enRoute =>
    simp only [hcur, Option.map_eq_some_iff] at hp
    obtain ⟨n, _, rfl⟩ := hp
    simp only [enRoute]
    split <;> exact h
  | rtb =>
    simp only [hcur, Option.map_eq_some_iff] at hp
    obtain ⟨n, _, rfl⟩ := hp
    simp only [rtb]
    split <;> exact h
  | reload =>
    simp only [hcur, Option.map_eq_some_iff] at hp
    obtain ⟨n, _, rfl⟩ := hp
    simp only [reload]
    split <;> exact h
  | onsite =>
    have ho' : o.any = true := by
      rcases ho with ho | ho
      · exact ho
      · exact absurd hcur ho
    simp only [hcur, Option.bind_eq_some_iff] at hp
    obtain ⟨e, _, hp⟩ := hp
    unfold onsite at hp
    split at hp
    · split at hp
      · rename_i i _
        have key : (sprayed c o s (min (min s.rem (e - s.now)) i)).treated ≠ none := by
          simp only [sprayed, ho', if_true]
          cases ht : s.treated with
          | none => exact absurd ht h
          | some x => simp
        simp only [Option.some.injEq] at hp
        subst hp
        split
        · split
          · split
            · exact key
            · exact key
          · split
            · exact key
            · exact key
        · exact key
      · cases hp
    · simp only [Option.some.injEq] at hp
      subst hp
      split <;> exact h
  | cascade => simp only [hcur, Option.some.injEq] at hp; subst hp; exact h
  | deactivated => simp only [hcur, Option.some.injEq] at hp; subst hp; exact h

/-- **C262** in part: with oil that can be dispersed, it is. -/
theorem C262_partial (c : Cfg) (ts : List Period) (o : Oil) (n : Nat) (t dt : Int) (s s' : St) (ho : o.any = true) (h : s.treated ≠ none)
    (hstep : step c ts o t dt n s = some s') : s'.treated ≠ none := by
  have hl : ∀ (n : Nat) (a b l : Int) (s s' : St), s.treated ≠ none → loop c ts a b l o n s = some s' → s'.treated ≠ none := by
    intro n a b l
    induction n with
    | zero =>
      intro s s' h hs
      simp only [loop] at hs
      split at hs
      · cases hs
      · cases hs; exact h
    | succ n ih =>
      intro s s' h hs
      simp only [loop] at hs
      split at hs
      · rw [Option.bind_eq_some_iff] at hs
        obtain ⟨s1, h1, h2⟩ := hs
        exact ih s1 s' (pass_treated (Or.inl ho) h h1) h2
      · cases hs; exact h
  unfold step at hstep
  split at hstep
  · simp only at hstep
    split at hstep
    · cases hstep; exact h
    · split at hstep
      · cases hstep
      · split at hstep
        · cases hstep; exact h
        · exact hl _ _ _ _ _ _ (by exact h) hstep
  · cases hstep; exact h

/-- **C262** fails: without oil that can be dispersed, the mean of no densities makes it not a number (a plane takes care of that). -/
theorem C262_counterexample : ¬ C262_claim := by
  intro h
  have hv : (step { ship with transit := 10, mission := 21 } [(0, 100)] { oil with any := false } 0 60 9
    (new { ship with transit := 10, mission := 21 } false)).map (·.treated) = some none := by decide +kernel
  obtain ⟨s, h1, h2⟩ := Option.map_eq_some_iff.1 hv
  exact h { ship with transit := 10, mission := 21 } [(0, 100)] { oil with any := false } 9 0 60 s
    ⟨by decide, by decide, by decide, by decide +kernel⟩ (by decide +kernel) h1 h2

/-- What one spraying adds to the oil treated: not less than nothing, not more than the oil that there is, and not more than its dispersant is
good for. -/
theorem C262_amount (c : Cfg) (o : Oil) (s : St) (t : Int) (x : ℚ) (ho : o.any = true) (hx : s.treated = some x) (hx0 : 0 ≤ x)
    (hd : 0 < o.dens) (hm : 0 ≤ o.mass) (hr : 0 ≤ o.rate) (hra : 0 ≤ c.ratio) (hdisp : 0 ≤ s.disp) (ht : 0 ≤ t) :
    ∃ y, (sprayed c o s t).treated = some (x + y) ∧ 0 ≤ y ∧ y ≤ o.mass ∧
      y ≤ o.dens * ((s.disp - (sprayed c o s t).disp) * c.ratio) ∧
      (y < o.dens * ((s.disp - (sprayed c o s t).disp) * c.ratio) → x = 0 → y = o.mass) := by
  have hsp : 0 ≤ (spray o s.disp t).1 := by
    unfold spray
    simp only
    refine le_min hdisp ?_
    have : (0 : ℚ) ≤ t := by exact_mod_cast ht
    positivity
  have hdd : s.disp - (sprayed c o s t).disp = (spray o s.disp t).1 := by simp only [sprayed]; ring
  have hav : avail o (some x) = max 0 (o.mass - x / o.dens) := by simp [avail, ho]
  have hxd : 0 ≤ x / o.dens := by positivity
  have hin : 0 ≤ o.dens * ((spray o s.disp t).1 * c.ratio) := by positivity
  refine ⟨min (o.dens * ((spray o s.disp t).1 * c.ratio)) (avail o (some x)), ?_, ?_, ?_, ?_, ?_⟩
  · simp only [sprayed, ho, if_true, hx, Option.map_some]
  · rw [hav]; exact le_min hin (le_max_left _ _)
  · rw [hav]; exact (min_le_right _ _).trans (max_le hm (by linarith))
  · rw [hdd]; exact min_le_left _ _
  · rw [hdd]
    intro h h0
    subst h0
    rw [hav, zero_div, sub_zero, max_eq_right hm] at h ⊢
    rcases min_lt_iff.1 h with h | h
    · exact absurd h (lt_irrefl _)
    · exact min_eq_right h.le

/-- Not more than there is: two sprayings of a step together. -/
def C262_claim_amount : Prop := ∀ (c : Cfg) (o : Oil) (s : St) (t u : Int) (z : ℚ), o.any = true → s.treated = some 0 → 0 < o.dens → 0 ≤ o.mass →
  0 < o.rate → 0 ≤ c.ratio → 0 ≤ s.disp → 0 ≤ t → 0 ≤ u → (sprayed c o (sprayed c o s t) u).treated = some z → z ≤ o.mass

/-- That fails, as for planes: the oil treated, in kilograms, is divided by the density before it is taken off what there is. -/
theorem C262_counterexample_amount : ¬ C262_claim_amount := by
  intro h
  have := h { ship with ratio := 20 } ⟨true, 1000, 900, 1⟩ { new ship false with disp := 2, rem := 5000000, ts := 5000000 } 1000000 1000000
    (1000 + (1000 - 1000 / 900)) rfl rfl (by norm_num) (by norm_num) (by norm_num) (by norm_num) (by norm_num) (by norm_num) (by norm_num)
    (by decide +kernel)
  norm_num at this

/-- The hypotheses can be met: an hour of a boat, ten minutes away, that sprays all it has and goes back. -/
example : (step { ship with transit := 600000000, refuel := 300000000, mission := 1300000000, payload := 900 } [(0, 36000000000)] oil 0
    3600000000 9 (new { ship with payload := 900 } false)).map (fun s => (s.log, s.cur, s.sprayed)) =
    some ([(.transit, 600000000), (.onsite, 900000000), (.transit, 600000000), (.reload, 300000000), (.transit, 600000000), (.onsite, 600000000)],
      .onsite, 1500) := by
  decide +kernel

example : Fits ship [(0, 5000)] 0 100 (new ship false) :=
  ⟨by decide, ⟨0, (0, 5000), rfl, by decide, by decide, by decide, fun u h1 h2 => by
    have a : decide ((0 : Int) ≤ u) = true := by simpa using h1
    have b : decide (u < 5000) = true := by simp; omega
    simp [indexOf, a]; omega⟩,
    by rintro p h; cases h; decide, by decide, Or.inl (by decide)⟩

end Verif.Roc.Boat
