import Verif.Roc.PlaneStep
/-!
# What goes wrong on a plane (C143-C147)
-/
namespace Verif.Roc.Plane

/-! ## C143: an activity interrupted by the end of a period -/

/-- `none` stands for an exception -/
def states (c : Cfg) (ts : List Period) (o : Oil) : List (Int × Int) → St → Option St
  | [], s => some s
  | (t, dt) :: l, s => (step c ts o t dt 400 s).bind (states c ts o l)

theorem run_states {c : Cfg} {ts : List Period} {o : Oil} (ho : 0 ≤ o.rate) : ∀ (l : List (Int × Int)) (t : Int) (s s' : St), Run c ts t s →
    (∀ (i : Nat) e, l[i]? = some e → 0 < e.2) → (l.head?.map Prod.fst = some t ∨ l = []) → l.IsChain (fun a b => a.1 + a.2 = b.1) →
    states c ts o l s = some s' → Run c ts ((l.getLast?.map (fun e => e.1 + e.2)).getD t) s' := by
  intro l
  induction l with
  | nil => intro t s s' h _ _ _ hs; cases hs; exact h
  | cons x l ih =>
    intro t s s' h hp hh hch hs
    obtain ⟨t0, dt⟩ := x
    have ht : t0 = t := by simpa using hh
    subst ht
    have hd : 0 < dt := hp 0 (t0, dt) rfl
    unfold states at hs
    cases hst : step c ts o t0 dt 400 s with
    | none => rw [hst] at hs; cases hs
    | some u =>
      rw [hst, Option.bind_some] at hs
      have hu := Run.step o 400 h hd ho hst
      have := ih (t0 + dt) u s' hu (fun i e he => hp (i + 1) e (by simpa using he)) ?_ ?_ hs
      · cases l with
        | nil => simpa using this
        | cons y l =>
          obtain ⟨z, hz⟩ : ∃ z, (y :: l).getLast? = some z := ⟨_, List.getLast?_eq_getLast_of_ne_nil (by simp)⟩
          rw [List.getLast?_cons_cons, hz]
          rw [hz] at this
          exact this
      · cases l with
        | nil => right; rfl
        | cons y l => left; rw [List.isChain_cons_cons] at hch; simp [← hch.1]
      · cases l with
        | nil => exact List.IsChain.nil
        | cons y l => exact (List.isChain_cons_cons.1 hch).2

theorem early_wf : WF early := ⟨by simp [early], by simp [early], by simp [early, List.isChain_cons_cons]⟩

/-- The first period ends while the plane sprays, three quarters of an hour after it began. When the second begins, five hours after
the beginning, the plane "finishes" the spraying that was to end at 2800 s: its time is -15200 s, and 152 m³ of dispersant come back into a plane
for 20 m³. -/
theorem C143_counterexample : ¬ C143_claim := by
  intro h
  let l : List (Int × Int) := [(0, 900000000), (900000000, 900000000), (1800000000, 900000000), (2700000000, 15300000000)]
  have hsome : (states cfg early oil l (new cfg false)).isSome = true := by decide +kernel
  obtain ⟨s, hs⟩ := Option.isSome_iff_exists.1 hsome
  have hrun : Run cfg early 18000000000 s := by
    have := run_states (c := cfg) (ts := early) (o := oil) (by norm_num [oil]) l 0 (new cfg false) s (Run.new false 0) ?_ (Or.inl rfl)
      (by simp [l, List.isChain_cons_cons]) hs
    · simpa [l] using this
    · intro i e he
      have := List.mem_of_getElem? he
      simp [l] at this
      rcases this with h | h | h | h <;> subst h <;> norm_num
  have hsome2 : ((states cfg early oil l (new cfg false)).bind (step cfg early oil 18000000000 900000000 400)).map (fun u => decide (total u.log ≤ 900000000 ∧ ∀ e ∈ u.log, 0 ≤ e.2)) = some false := by
    decide +kernel
  rw [hs, Option.bind_some] at hsome2
  cases hst : step cfg early oil 18000000000 900000000 400 s with
  | none => rw [hst] at hsome2; cases hsome2
  | some u =>
    rw [hst] at hsome2
    obtain ⟨h1, h2, _, _⟩ := h cfg early oil 18000000000 900000000 400 s u cfg_good early_wf (by norm_num [oil]) (by norm_num) hrun hst
    have : decide (total u.log ≤ 900000000 ∧ ∀ e ∈ u.log, 0 ≤ e.2) = true := decide_eq_true ⟨h2, h1⟩
    rw [Option.map_some, this] at hsome2
    cases hsome2

/-- the dispersant on board at that moment, in m³ -/
theorem C143_overfull :
    (states cfg early oil [(0, 900000000), (900000000, 900000000), (1800000000, 900000000), (2700000000, 15300000000)] (new cfg false)).map
      (fun s => (sprayed cfg oil { s with rem := 900000000, now := 18000000000, ts := 900000000 } 2800000000).disp) = some 161 ∧ cfg.payload = 20 := by
  constructor
  · decide +kernel
  · rfl

example : ∃ s', step cfg early oil 0 900000000 (4 * 900000000 + 4) (new cfg false) = some s' ∧ (∀ e ∈ s'.log, 0 ≤ e.2) ∧ total s'.log ≤ 900000000 := by
  obtain ⟨s', h1, h2, h3, _⟩ := C143_partial (c := cfg) (ts := early) (o := oil) (t := 0) (dt := 900000000) cfg_good early_wf (by norm_num [oil]) (by norm_num) (Reach.new false 0) (by decide)
  exact ⟨s', h1, h2, h3⟩

/-! ## C144: the dispersant reported -/

/-- the report after a step: what the mass balance says was applied so far, and the state -/
def stepReport (c : Cfg) (ts : List Period) (o : Oil) (t dt : Int) (x : ℚ × ℚ × St) : Option (ℚ × ℚ × St) :=
  (step c ts o t dt 400 x.2.2).map (report x.1 x.2.1)

def reports (c : Cfg) (ts : List Period) (o : Oil) : List (Int × Int) → ℚ × ℚ × St → Option (ℚ × ℚ × St)
  | [], x => some x
  | (t, dt) :: l, x => (stepReport c ts o t dt x).bind (reports c ts o l)

/-- C144 in full: the dispersant reported as applied, over a run of steps, is the dispersant that was sprayed -/
def C144_claim : Prop := ∀ (c : Cfg) (ts : List Period) (o : Oil) (l : List (Int × Int)) (a b : ℚ) (s : St), Good c → WF ts →
  reports c ts o l (0, 0, new c false) = some (a, b, s) → a = s.sprayed

/-- In two steps that each spray 5 and 6 m³, 16 m³ are reported: the counter of a step is never set back (another name is), so all earlier steps
are added again in each. -/
theorem C144_counterexample : ¬ C144_claim := by
  intro h
  have hs : (reports cfg early oil [(0, 900000000), (900000000, 900000000), (1800000000, 900000000)] (0, 0, new cfg false)).map (fun x => (x.1, x.2.2.sprayed)) =
      some (16, 11) := by decide +kernel
  cases hr : reports cfg early oil [(0, 900000000), (900000000, 900000000), (1800000000, 900000000)] (0, 0, new cfg false) with
  | none => rw [hr] at hs; cases hs
  | some x =>
    obtain ⟨a, b, s⟩ := x
    rw [hr, Option.map_some] at hs
    have h1 := h cfg early oil _ a b s cfg_good early_wf hr
    have h2 := Option.some.inj hs
    simp only [Prod.mk.injEq] at h2
    rw [h2.1, h2.2] at h1
    norm_num at h1

/-- What holds: a step adds all that was sprayed since the beginning of the run if it treated oil, and nothing otherwise; so what is reported is
right as long as only one step treated oil. -/
theorem C144_partial (a b : ℚ) (s : St) :
    (s.treated ≠ 0 → (report a b s).1 = a + s.sprayed ∧ (report a b s).2.1 = b + s.treated ∧ (report a b s).2.2.treated = 0) ∧
    (s.treated = 0 → report a b s = (a, b, s)) ∧ (report a b s).2.2.sprayed = s.sprayed ∧ (a = 0 → s.treated ≠ 0 → (report a b s).1 = s.sprayed) := by
  unfold report
  refine ⟨fun h => ?_, fun h => ?_, ?_, fun h h' => ?_⟩
  · rw [if_pos h]; exact ⟨rfl, rfl, rfl⟩
  · rw [if_neg (by simpa using h)]
  · split <;> rfl
  · rw [if_pos h', h]; simp

example : (report 0 0 { cur := Cur.approach, disp := 1, sprayed := 5, treated := 90000 }).1 = 5 := (C144_partial 0 0 _).2.2.2 rfl (by norm_num)

/-! ## C145: oil treated -/

/-- C145 in full: in a step not more oil is treated than there is -/
def C145_claim : Prop := ∀ (c : Cfg) (ts : List Period) (o : Oil) (t dt : Int) (n : Nat) (s s' : St), Good c → WF ts → 0 ≤ o.rate → 0 < o.dens → 0 ≤ o.mass → 0 < dt →
  0 ≤ c.ratio → Between c t s → s.treated = 0 → step c ts o t dt n s = some s' → s'.treated ≤ o.mass

/-- a ton of oil -/
def little : Oil := { any := true, mass := 1000, dens := 900, rate := 1 / 100 }

def atSlick : St := { cur := .approach, nst := some 900000000, disp := 20, opEnd := some 3900000000 }

/-- One ton of oil is treated three times: the oil treated, in kilograms, is divided by the density before it is taken off what there is. -/
theorem C145_counterexample : ¬ C145_claim := by
  intro h
  have hb : Between cfg 900000000 atSlick :=
    ⟨fun _ => ⟨900000000, rfl, le_refl _⟩, by simp [atSlick], fun _ => rfl, by simp [atSlick], by norm_num [atSlick], by norm_num [atSlick, cfg], by simp [atSlick]⟩
  have hs : (step cfg early little 900000000 900000000 400 atSlick).map (fun s => decide (s.treated ≤ 1000)) = some false := by decide +kernel
  cases hr : step cfg early little 900000000 900000000 400 atSlick with
  | none => rw [hr] at hs; cases hs
  | some s =>
    have := h cfg early little 900000000 900000000 400 atSlick s cfg_good early_wf (by norm_num [little]) (by norm_num [little]) (by norm_num [little]) (by norm_num)
      (by norm_num [cfg]) hb rfl hr
    rw [hr, Option.map_some, decide_eq_true (show s.treated ≤ 1000 from this)] at hs
    cases hs

/-- What holds: each spraying treats at most the oil there is, none if none can be dispersed, and at most what its dispersant is good for; the
first of a step never treats more than there is. -/
theorem C145_partial (c : Cfg) (o : Oil) (s : St) (n : Int) (hm : 0 ≤ o.mass) (hd : 0 < o.dens) (ht : 0 ≤ s.treated) (hdisp : 0 ≤ s.disp)
    (hr : 0 ≤ o.rate) (hratio : 0 ≤ c.ratio) (hn : s.now ≤ n) (hrem : 0 ≤ s.rem) :
    s.treated ≤ (sprayed c o s n).treated ∧ (sprayed c o s n).treated - s.treated ≤ o.mass ∧
    (sprayed c o s n).treated - s.treated ≤ o.dens * c.ratio * (s.disp - (sprayed c o s n).disp) ∧
    (o.any = false → (sprayed c o s n).treated = s.treated) ∧
    (s.treated = 0 → (sprayed c o s n).treated ≤ o.mass) := by
  have hav0 : 0 ≤ avail o s.treated := by unfold avail; split <;> simp
  have hq : 0 ≤ s.treated / o.dens := by positivity
  have hav1 : avail o s.treated ≤ o.mass := by
    unfold avail
    split
    · exact max_le hm (by linarith)
    · exact hm
  have ht0 : 0 ≤ min s.rem (n - s.now) := by omega
  have hp0 : (0 : ℚ) ≤ ((min s.rem (n - s.now) : Int) : ℚ) / 1000000 * o.rate := by
    have : (0 : ℚ) ≤ ((min s.rem (n - s.now) : Int) : ℚ) := by exact_mod_cast ht0
    positivity
  simp only [sprayed]
  generalize ((min s.rem (n - s.now) : Int) : ℚ) / 1000000 * o.rate = x at *
  have hd0 : 0 ≤ min s.disp x := le_min hdisp hp0
  generalize min s.disp x = d at *
  have htr : 0 ≤ (if o.any = true then o.dens * (d * c.ratio) else 0) := by
    split
    · positivity
    · exact le_refl _
  have htr2 : (if o.any = true then o.dens * (d * c.ratio) else 0) ≤ o.dens * c.ratio * d := by
    split
    · linarith
    · positivity
  have h1 := min_le_left (if o.any = true then o.dens * (d * c.ratio) else 0) (avail o s.treated)
  have h2 := min_le_right (if o.any = true then o.dens * (d * c.ratio) else 0) (avail o s.treated)
  have h3 := le_min htr hav0
  refine ⟨by linarith, by linarith, by linarith [htr2], ?_, fun h => by linarith⟩
  intro h
  simp only [h, Bool.false_eq_true, if_false]
  rw [min_eq_left hav0, add_zero]

example : (sprayed cfg little { atSlick with cur := .disperse false, rem := 900000000, now := 900000000, ts := 900000000 } 1100000000).treated = 1000 := by decide +kernel

/-! ## C146: a period that begins within a step -/

/-- C146 in full: in a period long enough for a sortie, with enough whole steps in it, the plane flies -/
def C146_claim : Prop := ∀ (c : Cfg) (ts : List Period) (o : Oil) (t dt : Int) (n : Nat) (s' : St) (p : Period), Good c → WF ts → 0 ≤ o.rate → 0 < dt →
  p ∈ ts → p.1 ≤ t → t < p.1 + dt → t + dt ≤ p.2 → t + c.mission < p.2 → step c ts o t dt n (new c false) = some s' → s'.cur ≠ .retired

/-- A period of eight hours that begins one second after a step: the plane stays at its base the whole of it. -/
theorem C146_counterexample : ¬ C146_claim := by
  intro h
  have hs : (step cfg [(1000000, 28801000000)] oil 900000000 900000000 400 (new cfg false)).map (fun s => decide (s.cur = .retired)) = some true := by decide +kernel
  cases hr : step cfg [(1000000, 28801000000)] oil 900000000 900000000 400 (new cfg false) with
  | none => rw [hr] at hs; cases hs
  | some s =>
    have := h cfg [(1000000, 28801000000)] oil 900000000 900000000 400 s (1000000, 28801000000) cfg_good ⟨by simp, by simp, List.IsChain.singleton _⟩
      (by norm_num [oil]) (by norm_num) (by simp) (by norm_num) (by norm_num) (by norm_num) (by norm_num [cfg]) hr
    rw [hr, Option.map_some, decide_eq_false this] at hs
    cases hs

theorem indexOf_start {ts : List Period} (h : WF ts) {p : Period} (hp : p ∈ ts) : (indexOf ts p.1).bind (fun i => ts[i]?) = some p := by
  obtain ⟨i, hi⟩ := List.getElem?_of_mem hp
  have hlen := h.2.1 p hp
  have : indexOf ts p.1 = some i := (C135_index h p.1 i).2 ⟨p, hi, le_refl _, hlen⟩
  rw [this, Option.bind_some, hi]

/-- within a period the next boundary is its end -/
theorem time_in {ts : List Period} (hw : WF ts) {p : Period} (hp : p ∈ ts) {t : Int} (h1 : p.1 ≤ t) (h2 : t < p.2) : timeToNext ts t = .ok (some (p.2 - t)) := by
  obtain ⟨i, hi⟩ := List.getElem?_of_mem hp
  obtain ⟨r, hr, hr1, hr2⟩ := C135_time hw t
  rw [hr]
  cases r with
  | none => exact absurd (hr2 rfl p.2 ⟨p, hp, Or.inr rfl⟩) (by omega)
  | some d =>
    obtain ⟨_, hbd, hmin⟩ := hr1 d rfl
    have hup : t + d ≤ p.2 := by
      rcases hmin p.2 ⟨p, hp, Or.inr rfl⟩ with h | h
      · omega
      · exact h
    have hle : p.2 ≤ t + d := by
      obtain ⟨q, hq, hqe⟩ := hbd
      by_contra hlt
      obtain ⟨j, hj⟩ := List.getElem?_of_mem hq
      have hql := hw.2.1 q hq
      have key : ∀ x, p.1 ≤ x → x < p.2 → q.1 ≤ x → x < q.2 → p = q := by
        intro x a1 a2 a3 a4
        have e1 : indexOf ts x = some j := (C135_index hw _ j).2 ⟨q, hj, a3, a4⟩
        have e2 : indexOf ts x = some i := (C135_index hw _ i).2 ⟨p, hi, a1, a2⟩
        rw [e2] at e1
        have := Option.some.inj e1
        subst this
        rw [hi] at hj
        exact Option.some.inj hj
      rcases hqe with hqe | hqe
      · have := key (t + d) (by omega) (by omega) (by omega) (by omega)
        subst this; omega
      · have := key (t + d - 1) (by omega) (by omega) (by omega) (by omega)
        subst this; omega
    have : d = p.2 - t := by omega
    rw [this]

/-- a retired plane stays retired through a step in a period that began earlier -/
theorem C146_missed {c : Cfg} {ts : List Period} {o : Oil} {t dt : Int} {s : St} {p : Period} (hw : WF ts) (hdt : 0 < dt) (hp : p ∈ ts)
    (h1 : p.1 < t) (h2 : t + dt ≤ p.2) (hc : s.cur = .retired) (n : Nat) :
    step c ts o t dt (n + 2) s = some { s with log := [], calls := 0, payloads := 0, rem := 0, now := t, ts := dt } := by
  have ha : isActive ts t dt = true := (C135_partial (ts := ts) t dt hdt).2.1 p hp h1.le h2
  obtain ⟨i, hi⟩ := List.getElem?_of_mem hp
  have hix : indexOf ts t = some i := (C135_index hw t i).2 ⟨p, hi, h1.le, by omega⟩
  unfold step
  rw [if_pos ha]
  dsimp only
  rw [if_neg (by rw [hc]; simp), time_in hw hp h1.le (by omega)]
  dsimp only
  unfold loop
  dsimp only
  rw [if_pos hdt]
  unfold pass
  dsimp only
  rw [hc]
  dsimp only
  unfold retired
  dsimp only
  have hx : ¬ ((indexOf ts t).bind (fun i => ts[i]?)).map Prod.fst = some t := by
    rw [hix, Option.bind_some, hi]
    simp; omega
  rw [if_neg hx]
  have hmin2 : dt - min dt (p.2 - t) = 0 := by omega
  simp only [advance, hmin2, lt_irrefl, if_false, false_and, Option.bind_some]
  unfold loop
  simp

example : step cfg [(1000000, 28801000000)] oil 900000000 900000000 2 (new cfg false) =
    some { (new cfg false) with log := [], calls := 0, payloads := 0, rem := 0, now := 900000000, ts := 900000000 } :=
  C146_missed (p := (1000000, 28801000000)) ⟨by simp, by simp, List.IsChain.singleton _⟩ (by norm_num) (by simp) (by norm_num) (by norm_num) rfl 0

/-- What holds: at a period that begins with a step the plane sets out at once if the period is long enough for a sortie; if it is not, the plane
stays. -/
theorem C146_partial {c : Cfg} {ts : List Period} {o : Oil} {dt : Int} {s : St} {p : Period} (hw : WF ts) (hdt : 0 < dt) (hp : p ∈ ts)
    (h2 : p.1 + dt ≤ p.2) (hc : s.cur = .retired) (hlen : dt ≤ c.transit) (n : Nat) :
    (c.mission < p.2 - p.1 → ∃ s', step c ts o p.1 dt (n + 4) s = some s' ∧ s'.cur = .enRoute ∧ s'.nst = some (p.1 + c.transit) ∧ s'.log = [(.transit, dt)]) ∧
    (p.2 - p.1 ≤ c.mission → ∃ s', step c ts o p.1 dt (n + 4) s = some s' ∧ s'.cur = .retired ∧ s'.log = []) := by
  have ha : isActive ts p.1 dt = true := (C135_partial (ts := ts) p.1 dt hdt).2.1 p hp (le_refl _) h2
  unfold step
  rw [if_pos ha]
  dsimp only
  rw [if_neg (by rw [hc]; simp), time_in hw hp (le_refl _) (by omega)]
  dsimp only
  have h0 : loop c ts (p.2 - p.1) o (n + 4) { s with log := [], calls := 0, payloads := 0, rem := dt, now := p.1, ts := dt } =
      loop c ts (p.2 - p.1) o (n + 3) { s with cur := .ready, log := [], calls := 0, payloads := 0, rem := dt, now := p.1, ts := dt } := by
    conv_lhs => unfold loop
    dsimp only
    rw [if_pos hdt]
    have : pass c ts (p.2 - p.1) o { s with log := [], calls := 0, payloads := 0, rem := dt, now := p.1, ts := dt } =
        some { s with cur := .ready, log := [], calls := 0, payloads := 0, rem := dt, now := p.1, ts := dt } := by
      unfold pass
      dsimp only
      rw [hc]
      dsimp only
      unfold retired
      dsimp only
      rw [indexOf_start hw hp, Option.map_some, if_pos rfl]
    rw [this, Option.bind_some]
  rw [h0]
  constructor
  · intro hm
    have h1 : loop c ts (p.2 - p.1) o (n + 3) { s with cur := .ready, log := [], calls := 0, payloads := 0, rem := dt, now := p.1, ts := dt } =
        loop c ts (p.2 - p.1) o (n + 2) { s with cur := .enRoute, nst := some (p.1 + c.transit), log := [], calls := 1, payloads := 0, rem := dt, now := p.1, ts := dt } := by
      conv_lhs => unfold loop
      dsimp only
      rw [if_pos hdt]
      unfold pass ready
      dsimp only
      rw [if_pos hm, Option.bind_some]
    rw [h1]
    unfold loop
    dsimp only
    rw [if_pos hdt]
    unfold pass enRoute
    dsimp only
    have hx : min dt (p.1 + c.transit - p.1) = dt := by omega
    simp only [spend, advance, hx, sub_self, lt_irrefl, if_false, Option.bind_some, List.nil_append]
    refine ⟨_, by unfold loop; simp only [lt_irrefl, if_false]; rfl, rfl, rfl, rfl⟩
  · intro hm
    unfold loop
    dsimp only
    rw [if_pos hdt]
    unfold pass ready
    dsimp only
    rw [if_neg (by omega), Option.bind_some]
    have hx : dt - min dt (p.2 - p.1) = 0 := by omega
    simp only [advance, hx, lt_irrefl, if_false]
    refine ⟨_, by unfold loop; simp only [lt_irrefl, if_false]; rfl, rfl, rfl⟩

example : ∃ s', step cfg early oil 0 900000000 4 (new cfg false) = some s' ∧ s'.cur = .enRoute ∧ s'.nst = some 900000000 ∧ s'.log = [(.transit, 900000000)] :=
  (C146_partial (p := (0, 2800000000)) early_wf (by norm_num) (by simp [early]) (by norm_num) rfl (by norm_num [cfg]) 0).1 (by norm_num [cfg])

/-! ## C147: setting out, or going on, without the time for it -/

/-- C147 in full: a plane leaves its base only if the sortie can be finished within the period -/
def C147_claim : Prop := ∀ (c : Cfg) (ts : List Period) (o : Oil) (t dt : Int) (n : Nat) (s s' : St) (p : Period) (m : Int), Good c → WF ts → 0 ≤ o.rate → 0 < dt →
  Reach c ts t s → p ∈ ts → p.1 ≤ t → t + dt ≤ p.2 → step c ts o t dt n s = some s' → s.cur ≠ .enRoute → s'.cur = .enRoute → s'.nst = some m →
  (m - c.transit) + c.mission < p.2

/-- an hour and a half -/
def late : List Period := [(0, 5400000000)]

/-- only one cubic metre is carried -/
def short : Cfg := { cfg with payload := 1 }

theorem short_good : Good short := ⟨by decide, by decide, by decide, by decide, by decide, by decide, by decide, by norm_num [short]⟩

theorem late_wf : WF late := ⟨by simp [late], by simp [late], List.IsChain.singleton _⟩

theorem reach_states {c : Cfg} {ts : List Period} {o : Oil} (ho : 0 ≤ o.rate) : ∀ (l : List (Int × Int)) (t : Int) (s s' : St), Reach c ts t s →
    (∀ e ∈ l, 0 < e.2 ∧ isActive ts e.1 e.2 = true) → (l.head?.map Prod.fst = some t ∨ l = []) → l.IsChain (fun a b => a.1 + a.2 = b.1) →
    states c ts o l s = some s' → Reach c ts ((l.getLast?.map (fun e => e.1 + e.2)).getD t) s' := by
  intro l
  induction l with
  | nil => intro t s s' h _ _ _ hs; cases hs; exact h
  | cons x l ih =>
    intro t s s' h hp hh hch hs
    obtain ⟨t0, dt⟩ := x
    have ht : t0 = t := by simpa using hh
    subst ht
    obtain ⟨hd, ha⟩ := hp (t0, dt) (by simp)
    unfold states at hs
    cases hst : step c ts o t0 dt 400 s with
    | none => rw [hst] at hs; cases hs
    | some u =>
      rw [hst, Option.bind_some] at hs
      have hu := Reach.step o 400 h hd ho ha hst
      have := ih (t0 + dt) u s' hu (fun e he => hp e (by simp [he])) ?_ ?_ hs
      · cases l with
        | nil => simpa using this
        | cons y l =>
          obtain ⟨z, hz⟩ : ∃ z, (y :: l).getLast? = some z := ⟨_, List.getLast?_eq_getLast_of_ne_nil (by simp)⟩
          rw [List.getLast?_cons_cons, hz]
          rw [hz] at this
          exact this
      · cases l with
        | nil => right; rfl
        | cons y l => left; rw [List.isChain_cons_cons] at hch; simp [← hch.1]
      · cases l with
        | nil => exact List.IsChain.nil
        | cons y l => exact (List.isChain_cons_cons.1 hch).2

/-- The plane is loaded again ten minutes into a step, 2100 s before the end of the period, and sets out on a sortie of at least 2300 s: the time
to the end of the period is that from the beginning of the step. -/
theorem C147_counterexample : ¬ C147_claim := by
  intro h
  let l : List (Int × Int) := [(0, 900000000), (900000000, 900000000), (1800000000, 900000000)]
  have h1 : (states short late oil l (new short false)).map (fun s => s.cur) = some .reload := by decide +kernel
  have h2 : ((states short late oil l (new short false)).bind (step short late oil 2700000000 900000000 400)).map (fun s => (s.cur, s.nst)) =
      some (.enRoute, some 4200000000) := by decide +kernel
  cases hs : states short late oil l (new short false) with
  | none => rw [hs] at h1; cases h1
  | some s =>
    have hr : Reach short late 2700000000 s := by
      have := reach_states (c := short) (ts := late) (o := oil) (by norm_num [oil]) l 0 (new short false) s (Reach.new false 0) ?_ (Or.inl rfl)
        (by simp [l, List.isChain_cons_cons]) hs
      · simpa [l] using this
      · intro e he
        simp [l] at he
        rcases he with he | he | he <;> subst he <;> exact ⟨by norm_num, by decide⟩
    rw [hs] at h1 h2
    rw [Option.bind_some] at h2
    cases hst : step short late oil 2700000000 900000000 400 s with
    | none => rw [hst] at h2; cases h2
    | some u =>
      rw [hst] at h2
      have h3 := Option.some.inj h2
      simp only [Prod.mk.injEq] at h3
      have h4 : s.cur = .reload := Option.some.inj h1
      have := h short late oil 2700000000 900000000 400 s u (0, 5400000000) 4200000000 short_good late_wf (by norm_num [oil]) (by norm_num) hr (by simp [late])
        (by norm_num) (by norm_num) hst (by rw [h4]; simp) h3.1 h3.2
      norm_num [short, cfg] at this

/-- What holds: a plane ready at the beginning of a step sets out in it exactly if the period is long enough. -/
theorem C147_partial {c : Cfg} {ts : List Period} {o : Oil} {t dt : Int} {s : St} {p : Period} (hw : WF ts) (hdt : 0 < dt) (hp : p ∈ ts)
    (h1 : p.1 ≤ t) (h2 : t + dt ≤ p.2) (hc : s.cur = .ready) (hlen : dt ≤ c.transit) (n : Nat) :
    (t + c.mission < p.2 → ∃ s', step c ts o t dt (n + 3) s = some s' ∧ s'.cur = .enRoute ∧ s'.nst = some (t + c.transit) ∧ s'.log = [(.transit, dt)]) ∧
    (p.2 ≤ t + c.mission → ∃ s', step c ts o t dt (n + 3) s = some s' ∧ s'.cur = .retired ∧ s'.log = []) := by
  have ha : isActive ts t dt = true := (C135_partial (ts := ts) t dt hdt).2.1 p hp h1 h2
  unfold step
  rw [if_pos ha]
  dsimp only
  rw [if_neg (by rw [hc]; simp), time_in hw hp h1 (by omega)]
  dsimp only
  have e0 : { s with log := [], calls := 0, payloads := 0, rem := dt, now := t, ts := dt } =
      { s with cur := .ready, log := [], calls := 0, payloads := 0, rem := dt, now := t, ts := dt } := by rw [← hc]
  rw [e0]
  constructor
  · intro hm
    have h1 : loop c ts (p.2 - t) o (n + 3) { s with cur := .ready, log := [], calls := 0, payloads := 0, rem := dt, now := t, ts := dt } =
        loop c ts (p.2 - t) o (n + 2) { s with cur := .enRoute, nst := some (t + c.transit), log := [], calls := 1, payloads := 0, rem := dt, now := t, ts := dt } := by
      conv_lhs => unfold loop
      dsimp only
      rw [if_pos hdt]
      unfold pass ready
      dsimp only
      rw [if_pos (by omega), Option.bind_some]
    rw [h1]
    unfold loop
    dsimp only
    rw [if_pos hdt]
    unfold pass enRoute
    dsimp only
    have hx : min dt (t + c.transit - t) = dt := by omega
    simp only [spend, advance, hx, sub_self, lt_irrefl, if_false, Option.bind_some, List.nil_append]
    refine ⟨_, by unfold loop; simp only [lt_irrefl, if_false]; rfl, rfl, rfl, rfl⟩
  · intro hm
    unfold loop
    dsimp only
    rw [if_pos hdt]
    unfold pass ready
    dsimp only
    rw [if_neg (by omega), Option.bind_some]
    have hx : dt - min dt (p.2 - t) = 0 := by omega
    simp only [advance, hx, lt_irrefl, if_false]
    refine ⟨_, by unfold loop; simp only [lt_irrefl, if_false]; rfl, rfl, rfl⟩

example : ∃ s', step cfg late oil 900000000 900000000 3 { cur := .ready, disp := 20 } = some s' ∧ s'.cur = .enRoute ∧ s'.nst = some 1800000000 ∧ s'.log = [(.transit, 900000000)] :=
  (C147_partial (p := (0, 5400000000)) late_wf (by norm_num) (by simp [late]) (by norm_num) (by norm_num) rfl (by norm_num [cfg]) 0).1 (by norm_num [cfg])

/-! ## C148: staying on site after the time is up -/

/-- C148 in full: a plane begins another pass only if there is time for a pass until it has to go back -/
def C148_claim : Prop := ∀ (c : Cfg) (ts : List Period) (o : Oil) (t dt : Int) (n : Nat) (s s' : St) (e m : Int), Good c → WF ts → 0 ≤ o.rate → 0 < dt → 0 < c.passDur →
  Reach c ts t s → isActive ts t dt = true → step c ts o t dt n s = some s' → s.cur = .departure → s'.cur = .disperse false → s'.opEnd = some e → s'.nst = some m →
  c.passDur ≤ e - (m - c.spray)

/-- the slick is so far away that no time on site is left within the time a plane may be away -/
def far : Cfg := { cfg with maxOnsite := -2000000000 }

theorem far_good : Good far := ⟨by decide, by decide, by decide, by decide, by decide, by decide, by decide, by norm_num [far, cfg]⟩

/-- 2500 s after it had to go back the plane begins its second pass: the passes possible are -5, and only 0 sends it home. -/
theorem C148_counterexample : ¬ C148_claim := by
  intro h
  let l : List (Int × Int) := [(0, 1350000000)]
  have h1 : (states far late oil l (new far false)).map (fun s => s.cur) = some .departure := by decide +kernel
  have h2 : ((states far late oil l (new far false)).bind (step far late oil 1350000000 150000000 400)).map (fun s => (s.cur, s.opEnd, s.nst)) =
      some (.disperse false, some (-1100000000), some 1600000000) := by decide +kernel
  cases hs : states far late oil l (new far false) with
  | none => rw [hs] at h1; cases h1
  | some s =>
    have hr : Reach far late 1350000000 s := by
      have := reach_states (c := far) (ts := late) (o := oil) (by norm_num [oil]) l 0 (new far false) s (Reach.new false 0) ?_ (Or.inl rfl)
        (by simp [l]) hs
      · simpa [l] using this
      · intro e he
        simp [l] at he
        subst he
        exact ⟨by norm_num, by decide⟩
    rw [hs] at h1 h2
    rw [Option.bind_some] at h2
    cases hst : step far late oil 1350000000 150000000 400 s with
    | none => rw [hst] at h2; cases h2
    | some u =>
      rw [hst] at h2
      have h3 := Option.some.inj h2
      simp only [Prod.mk.injEq] at h3
      have := h far late oil 1350000000 150000000 400 s u (-1100000000) 1600000000 far_good late_wf (by norm_num [oil]) (by norm_num) (by norm_num [far, cfg]) hr (by decide)
        hst (Option.some.inj h1) h3.1 h3.2.1 h3.2.2
      norm_num [far, cfg] at this

/-- What holds: at the end of a pass that ends before the plane has to go back, it begins another exactly if there is dispersant, oil and time for
a whole pass; without dispersant or oil or time it goes to its base, or waits if there is dispersant but no oil. -/
theorem C148_partial {c : Cfg} {o : Oil} {s : St} {n e : Int} (hpd : 0 < c.passDur) (hop : s.opEnd = some e) (hts : s.ts = s.rem) (hr : n - s.now < s.rem)
    (he : n ≤ e) :
    ∃ s', departure c o s n = some s' ∧
      (s'.cur = .disperse false ↔ s.disp ≠ 0 ∧ close (avail o s.treated) = false ∧ c.passDur ≤ e - n) ∧
      (s'.cur = .disperse false → s'.nst = some (n + c.spray) ∧ s'.opEnd = some e) ∧
      (s'.cur = .rtb ∨ s'.cur = .holding ∨ s'.cur = .disperse false) ∧ (s'.cur = .rtb → s'.nst = some (n + c.transit)) ∧
      (s'.cur = .holding → s.disp ≠ 0 ∧ close (avail o s.treated) = true) := by
  have hpos : 0 < (spend s .onsite (n - s.now)).rem := by
    show 0 < s.rem - min s.rem (n - s.now); omega
  have hnow : (spend s .onsite (n - s.now)).now = n := by
    show (if 0 < s.rem - min s.rem (n - s.now) then s.now + s.ts - (s.rem - min s.rem (n - s.now)) else s.now) = n
    rw [if_pos (by omega)]; omega
  have hop' : (spend s .onsite (n - s.now)).opEnd = some e := hop
  have hd : (spend s .onsite (n - s.now)).disp = s.disp := rfl
  have ht : (spend s .onsite (n - s.now)).treated = s.treated := rfl
  unfold departure
  dsimp only
  rw [if_pos hpos, hop']
  dsimp only
  refine ⟨_, rfl, ?_⟩
  generalize spend s .onsite (n - s.now) = u at *
  rw [hd, ht]
  have hp : passes c (e - u.now) = 0 ↔ ¬ c.passDur ≤ e - n := by
    unfold passes
    rw [hnow, Int.tdiv_eq_ediv_of_nonneg (by omega)]
    constructor
    · intro h hle
      have := Int.le_ediv_of_mul_le hpd (a := 1) (b := e - n) (by omega)
      omega
    · intro h
      exact Int.ediv_eq_zero_of_lt (by omega) (by omega)
  by_cases h1 : s.disp = 0
  · rw [if_pos h1]
    simp [toBase, h1, hnow]
  · rw [if_neg h1]
    by_cases h2 : close (avail o s.treated) = true
    · rw [if_pos h2]
      split
      · simp [h1, h2]
      · simp [toBase, h2, hnow]
    · rw [if_neg h2]
      by_cases h3 : passes c (e - u.now) = 0
      · rw [if_pos h3]
        have := hp.1 h3
        simp [toBase, hnow, this]
      · rw [if_neg h3]
        have : c.passDur ≤ e - n := by by_contra h; exact h3 (hp.2 h)
        simp [h1, h2, hnow, this]

example : ∃ s', departure cfg oil { cur := .departure, disp := 9, opEnd := some 3900000000, rem := 900000000, now := 1800000000, ts := 900000000 } 1850000000 = some s' ∧
    s'.cur = .disperse false := by
  obtain ⟨s', h1, h2, _⟩ := C148_partial (c := cfg) (o := oil) (s := { cur := .departure, disp := 9, opEnd := some 3900000000, rem := 900000000, now := 1800000000, ts := 900000000 })
    (n := 1850000000) (e := 3900000000) (by norm_num [cfg]) rfl rfl (by norm_num) (by norm_num)
  exact ⟨s', h1, h2.2 ⟨by norm_num, by norm_num [oil, avail, close], by norm_num [cfg]⟩⟩

/-- Where no oil can be dispersed, no pass is begun. -/
theorem C148_no_oil {c : Cfg} {o : Oil} {s s' : St} {n : Int} (ho : o.any = false) (hr : n - s.now < s.rem) (h : departure c o s n = some s') :
    s'.cur = .rtb ∨ s'.cur = .holding := by
  unfold departure at h
  have hpos : 0 < (spend s .onsite (n - s.now)).rem := by
    show 0 < s.rem - min s.rem (n - s.now); omega
  have hc : ∀ x, close (avail o x) = true := by
    intro x
    unfold avail
    rw [ho]
    norm_num [close]
  dsimp only at h
  rw [if_pos hpos] at h
  split at h
  · cases h
  · rw [hc, if_pos rfl] at h
    cases h
    split
    · left; rfl
    · split
      · right; rfl
      · left; rfl

example : ((departure cfg { oil with any := false } { cur := .departure, disp := 9, opEnd := some 3900000000, rem := 900000000, now := 1800000000, ts := 900000000 }
    1850000000).map (fun s => decide (s.cur = .holding))) = some true := by decide +kernel

/-- A plane without work gets ready only at a time that is within a period. -/
theorem C146_ready {c : Cfg} {ts : List Period} {o : Oil} {ttni : Int} {s s' : St} (h : pass c ts ttni o s = some s') (hc : s.cur = .retired)
    (hr : s'.cur = .ready) : ∃ p ∈ ts, p.1 ≤ s'.now ∧ s'.now < p.2 := by
  have key : ∀ t : Int, indexOf ts t ≠ none → ∃ p ∈ ts, p.1 ≤ t ∧ t < p.2 := by
    intro t hn
    by_contra hcon
    apply hn
    rw [C135_index_none]
    intro p hp hp'
    exact hcon ⟨p, hp, hp'⟩
  unfold pass at h
  rw [hc] at h
  dsimp only at h
  cases h
  unfold retired at hr ⊢
  split at hr
  · rename_i h1
    rw [if_pos h1]
    apply key
    intro hn
    rw [hn] at h1
    simp at h1
  · rename_i h1
    rw [if_neg h1]
    dsimp only at hr ⊢
    split at hr
    · rename_i h2
      rw [if_pos h2]
      apply key
      intro hn
      rw [hn] at h2
      simp at h2
    · rw [show (advance s ttni).cur = s.cur from rfl, hc] at hr
      cases hr

/-- The period begins within the step: the plane is ready after half of it. -/
example : ((pass cfg [(1000, 5000)] 1000 oil { cur := .retired, disp := 20, rem := 2000, now := 0, ts := 2000 }).map (fun s => (s.cur, s.now)))
    = some (.ready, 1000) := by decide +kernel

end Verif.Roc.Plane
