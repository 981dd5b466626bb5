import Verif.PointWind.Spec
import Verif.TSeries.Props

/-!
# C73–C77: winds keep what they were given

* C73: the wind applied is the wind given, in metres per second.
* C74: the `timeseries` and `units` a wind reports (and saves) describe the wind it applies.
* C75: making a wind does not change the caller's data.
* C76: data that are refused leave the wind as it was.
* C77: asking for a value does not change the wind.
-/

namespace Verif.PointWind

open Verif.TSeries (TV R isAscending getTimeValue)

theorem compass_homog : Homog compass := by
  intro k r th x hk hx
  simp only [compass] at hx ⊢
  by_cases h0 : r < 0
  · rw [if_pos h0] at hx; cases hx
  · have h0' : ¬ r * k < 0 := not_lt.2 (mul_nonneg (not_lt.1 h0) (le_of_lt hk))
    rw [if_neg h0] at hx
    rw [if_neg h0']
    split at hx
    · injection hx with hx; subst hx; simp [*]
    · split at hx
      · injection hx with hx; subst hx; simp [*]
      · split at hx
        · injection hx with hx; subst hx; simp [*]
        · split at hx
          · injection hx with hx; subst hx; simp [*]
          · cases hx

theorem mapM_forall₂ {α β : Type} (f : α → Option β) (l : List α) :
    ∀ ps, l.mapM f = some ps ↔ List.Forall₂ (fun a b => f a = some b) l ps := by
  induction l with
  | nil =>
    intro ps
    rw [List.mapM_nil]
    constructor
    · intro h; injection h with h; subst h; exact List.Forall₂.nil
    · intro h; cases h; rfl
  | cons a l ih =>
    intro ps
    rw [List.mapM_cons]
    constructor
    · intro h
      cases ha : f a with
      | none => rw [ha] at h; cases h
      | some b =>
        rw [ha] at h
        cases hl : l.mapM f with
        | none =>
          rw [hl] at h; cases h
        | some bs =>
          rw [hl] at h
          have : b :: bs = ps := by injection h
          subst this
          exact List.Forall₂.cons ha ((ih bs).1 hl)
    · intro h
      cases h with
      | cons h1 h2 =>
        rw [h1, (ih _).2 h2]
        rfl

/-- The conversion is right for every way of naming the coordinates but the string `'uv'`, or
when there is nothing to convert. -/
theorem describes_of_pairs (P : Polar) (hP : Homog P) (c : CoordArg) (f : ℚ) (hf : 0 < f)
    (hc : c ≠ .strUV ∨ f = 1) (rows : List Row) (ps : List TV)
    (h : toPairs P c (convertUnits c f 1 rows) = some ps) :
    Describes P c.isUV f rows ps := by
  have hval : ∀ r : Row, ∀ y, P.toUV (r.a * f, r.b) = some y →
      ∃ x, P.toUV (r.a, r.b) = some x := by
    intro r y hy
    have := hP (1 / f) (r.a * f) r.b y (by positivity) hy
    rw [mul_assoc, mul_one_div_cancel (ne_of_gt hf), mul_one] at this
    exact ⟨_, this⟩
  unfold toPairs at h
  rw [mapM_forall₂] at h
  unfold convertUnits at h
  rw [List.forall₂_map_left_iff] at h
  refine h.imp ?_
  intro r p hrp
  unfold rowToPair at hrp
  cases c with
  | strUV =>
    have hf1 : f = 1 := by
      rcases hc with h | h
      · exact absurd rfl h
      · exact h
    subst hf1
    simp [CoordArg.isUV, CoordArg.eqEnumUV] at hrp
    subst hrp
    exact ⟨rfl, (r.a, r.b), by simp [CoordArg.isUV], by simp, by simp⟩
  | enumUV =>
    simp [CoordArg.isUV, CoordArg.eqEnumUV] at hrp
    subst hrp
    exact ⟨rfl, (r.a, r.b), by simp [CoordArg.isUV], by simp, by simp⟩
  | strRT =>
    simp only [CoordArg.isUV, CoordArg.eqEnumUV, Bool.false_eq_true, if_false, div_one] at hrp
    cases hy : P.toUV (r.a * f, r.b) with
    | none => rw [hy] at hrp; cases hrp
    | some y =>
      rw [hy] at hrp
      obtain ⟨x, hx⟩ := hval r y hy
      have hx' := hP f r.a r.b x hf hx
      rw [hy] at hx'
      injection hx' with hx'
      injection hrp with hrp
      subst hrp
      subst hx'
      exact ⟨rfl, x, by simpa [CoordArg.isUV] using hx, rfl, rfl⟩
  | enumRT =>
    simp only [CoordArg.isUV, CoordArg.eqEnumUV, Bool.false_eq_true, if_false, div_one] at hrp
    cases hy : P.toUV (r.a * f, r.b) with
    | none => rw [hy] at hrp; cases hrp
    | some y =>
      rw [hy] at hrp
      obtain ⟨x, hx⟩ := hval r y hy
      have hx' := hP f r.a r.b x hf hx
      rw [hy] at hx'
      injection hx' with hx'
      injection hrp with hrp
      subst hrp
      subst hx'
      exact ⟨rfl, x, by simpa [CoordArg.isUV] using hx, rfl, rfl⟩

/-- Conversely, rows that mean something are taken. -/
theorem pairs_of_describes (P : Polar) (hP : Homog P) (c : CoordArg) (f : ℚ) (hf : 0 < f)
    (rows : List Row) (hrows : c.isUV = false → ∀ r ∈ rows, ∃ x, P.toUV (r.a, r.b) = some x) :
    ∃ ps, toPairs P c (convertUnits c f 1 rows) = some ps := by
  induction rows with
  | nil => exact ⟨[], rfl⟩
  | cons r rows ih =>
    obtain ⟨ps, hps⟩ := ih (fun h r' hr' => hrows h r' (List.mem_cons_of_mem _ hr'))
    have h1 : ∃ p, rowToPair P c
        { r with a := r.a * f / 1, b := if c.eqEnumUV then r.b * f / 1 else r.b } = some p := by
      unfold rowToPair
      cases huv : c.isUV with
      | true => exact ⟨_, rfl⟩
      | false =>
        obtain ⟨x, hx⟩ := hrows huv r List.mem_cons_self
        have hne : c.eqEnumUV = false := by
          cases c <;> simp_all [CoordArg.isUV, CoordArg.eqEnumUV]
        have := hP f r.a r.b x hf hx
        simp [hne, this]
    obtain ⟨p, hp⟩ := h1
    refine ⟨p :: ps, ?_⟩
    unfold toPairs convertUnits at hps ⊢
    rw [List.map_cons, List.mapM_cons, hp, hps]
    rfl

/-! ## C73 -/

/-- The claim: the velocities a new wind applies are those given, whatever the units and however
the coordinates are named. -/
def C73_claim : Prop :=
  ∀ (P : Polar) (g : Given) (f : ℚ) (c : CoordArg) (e : Bool) (tz : Option ℚ), Homog P → 0 < f →
    (newWind P g f c e tz).raised = false →
    Describes P c.isUV f g.rows (newWind P g f c e tz).wind.ossm

/-- It fails for the string `'uv'`: the second component is not converted. -/
theorem C73_counterexample : ¬ C73_claim := by
  intro h
  have := h compass (.array [⟨0, 2, 4⟩]) (1 / 2) .strUV false none compass_homog (by norm_num)
    (by decide +kernel)
  have hw : (newWind compass (.array [⟨0, 2, 4⟩]) (1 / 2) .strUV false none).wind.ossm =
      [⟨0, 1, 4⟩] := by decide +kernel
  rw [hw] at this
  cases this with
  | cons h1 _ =>
    obtain ⟨_, x, hx, _, hv⟩ := h1
    simp [CoordArg.isUV] at hx
    subst hx
    norm_num at hv

/-- It holds for every other way of naming the coordinates, and for data in metres per second. -/
theorem C73_partial (P : Polar) (g : Given) (f : ℚ) (c : CoordArg) (e : Bool) (tz : Option ℚ)
    (hP : Homog P) (hf : 0 < f) (hc : c ≠ .strUV ∨ f = 1)
    (h : (newWind P g f c e tz).raised = false) :
    Describes P c.isUV f g.rows (newWind P g f c e tz).wind.ossm := by
  unfold newWind newSet at h ⊢
  simp only at h ⊢
  cases hch : checked g with
  | false => simp [hch] at h
  | true =>
    simp only [hch, if_true] at h ⊢
    cases hps : toPairs P c (convertUnits c f 1 g.rows) with
    | none => simp [hps] at h
    | some ps =>
      simp only [Bool.false_eq_true, if_false]
      exact describes_of_pairs P hP c f hf hc g.rows ps hps

example : (newWind compass (.array [⟨0, 2, 90⟩, ⟨10, 4, 0⟩]) (1 / 2) .strRT false none).raised = false ∧
    (newWind compass (.array [⟨0, 2, 90⟩, ⟨10, 4, 0⟩]) (1 / 2) .strRT false none).wind.ossm =
      [⟨0, -1, 0⟩, ⟨10, 0, -2⟩] := by decide +kernel

/-- The same of `set_wind_data`. -/
theorem C73_data_partial (P : Polar) (w : Wind) (g : Given) (f : ℚ) (c : CoordArg)
    (hP : Homog P) (hf : 0 < f) (hc : c ≠ .strUV ∨ f = 1)
    (h : (setWindData P w g f c).raised = false) :
    Describes P c.isUV f g.rows (setWindData P w g f c).wind.ossm := by
  unfold setWindData at h ⊢
  cases hch : checked g with
  | false => simp [hch] at h
  | true =>
    simp only [hch, if_true] at h ⊢
    cases hps : toPairs P c (convertUnits c f 1 g.rows) with
    | none => simp [hps] at h
    | some ps => exact describes_of_pairs P hP c f hf hc g.rows ps hps

example : (setWindData compass ⟨1, [], [], false, none⟩ (.pairs [⟨0, 2, 4⟩]) (1 / 2) .enumUV).wind.ossm =
    [⟨0, 1, 2⟩] := by decide +kernel

/-- Data are refused exactly when an array's times do not ascend or a row has no meaning. -/
theorem C73_refused (P : Polar) (g : Given) (f : ℚ) (c : CoordArg) (e : Bool) (tz : Option ℚ)
    (hP : Homog P) (hf : 0 < f) :
    (newWind P g f c e tz).raised = false ↔
      ((∀ rows, g = .array rows → rows.Pairwise (fun r s => r.time < s.time)) ∧
       (c.isUV = false → ∀ r ∈ g.rows, ∃ x, P.toUV (r.a, r.b) = some x)) := by
  have hchk : checked g = true ↔ ∀ rows, g = .array rows →
      rows.Pairwise (fun r s => r.time < s.time) := by
    cases g with
    | pairs rows => simp [checked]
    | array rows =>
      simp only [checked, TSeries.isAscending_iff]
      constructor
      · intro h rows' hr
        injection hr with hr
        subst hr
        rw [List.pairwise_iff_getElem]
        intro i j hi hj hij
        exact h i j _ _ (by rw [List.getElem?_map, List.getElem?_eq_getElem hi]; rfl)
          (by rw [List.getElem?_map, List.getElem?_eq_getElem hj]; rfl) hij
      · intro h i j p q hp hq hij
        have h' := h rows rfl
        rw [List.pairwise_iff_getElem] at h'
        rw [List.getElem?_map] at hp hq
        have hi : i < rows.length := by
          by_contra hi
          rw [List.getElem?_eq_none (by omega)] at hp; cases hp
        have hj : j < rows.length := by
          by_contra hj
          rw [List.getElem?_eq_none (by omega)] at hq; cases hq
        rw [List.getElem?_eq_getElem hi] at hp
        rw [List.getElem?_eq_getElem hj] at hq
        injection hp with hp
        injection hq with hq
        rw [← hp, ← hq]
        exact h' i j hi hj hij
  have hpairs : (∃ ps, toPairs P c (convertUnits c f 1 g.rows) = some ps) ↔
      (c.isUV = false → ∀ r ∈ g.rows, ∃ x, P.toUV (r.a, r.b) = some x) := by
    constructor
    · rintro ⟨ps, hps⟩ huv r hr
      have hne : c ≠ .strUV := by rintro rfl; cases huv
      have hd := describes_of_pairs P hP c f hf (Or.inl hne) g.rows ps hps
      obtain ⟨i, hi, rfl⟩ := List.mem_iff_getElem.1 hr
      have hl := hd.length_eq
      have := (List.forall₂_iff_get.1 hd).2 i hi (by omega)
      obtain ⟨_, x, hx, _⟩ := this
      rw [huv] at hx
      exact ⟨x, by simpa using hx⟩
    · exact pairs_of_describes P hP c f hf g.rows
  rw [← hchk, ← hpairs]
  unfold newWind newSet
  simp only
  cases hch : checked g with
  | false => simp
  | true =>
    simp only [if_true]
    cases hps : toPairs P c (convertUnits c f 1 g.rows) with
    | none => simp
    | some ps => simp

/-- All together: a wind made from an array of speeds and directions is, at each of its times,
the velocity that was given. -/
theorem C73_velocity_partial (P : Polar) (rows : List Row) (f : ℚ) (c : CoordArg) (e : Bool)
    (tz : Option ℚ) (hP : Homog P) (hf : 0 < f) (hc : c ≠ .strUV ∨ f = 1)
    (h : (newWind P (.array rows) f c e tz).raised = false) (r : Row) (hr : r ∈ rows)
    (q : Option Bool) :
    ∃ p, Means P c.isUV f r p ∧
      (velocityAt (newWind P (.array rows) f c e tz).wind r.time q).1 = .ok (p.u, p.v) := by
  have hd := C73_partial P (.array rows) f c e tz hP hf hc h
  have hpw := ((C73_refused P (.array rows) f c e tz hP hf).1 h).1 rows rfl
  generalize newWind P (.array rows) f c e tz = o at *
  obtain ⟨i, hi, rfl⟩ := List.mem_iff_getElem.1 hr
  have hl : rows.length = o.wind.ossm.length := hd.length_eq
  have hm : ∀ (k : Nat) (hk : k < rows.length), Means P c.isUV f rows[k]
      (o.wind.ossm[k]'(by omega)) := fun k hk =>
    (List.forall₂_iff_get.1 hd).2 k hk (by omega)
  have hasc : TSeries.Ascending o.wind.ossm := by
    intro a b p q hp hq hab
    have hb : b < o.wind.ossm.length := by
      by_contra hb
      rw [List.getElem?_eq_none (by omega)] at hq; cases hq
    rw [List.getElem?_eq_getElem (by omega)] at hp
    rw [List.getElem?_eq_getElem hb] at hq
    injection hp with hp
    injection hq with hq
    have ha := (hm a (by omega)).1
    have hb' := (hm b (by omega)).1
    rw [hp] at ha
    rw [hq] at hb'
    rw [ha, hb']
    rw [List.pairwise_iff_getElem] at hpw
    exact hpw a b (by omega) (by omega) hab
  have hmi := hm i hi
  refine ⟨_, hmi, ?_⟩
  rw [← hmi.1]
  unfold velocityAt
  cases q <;>
    exact TSeries.C70_given_times _ _ hasc i _ (List.getElem?_eq_getElem (by omega))

/-! ## C74 -/

/-- The claim: whatever a user does (that does not raise), the reported data describe the wind. -/
def C74_claim : Prop :=
  ∀ (P : Polar) (g : Given) (f : ℚ) (e : Bool) (tz : Option ℚ) (ops : List Op) (w : Wind),
    Homog P → 0 < f → (newWind P g f .strRT e tz).raised = false →
    run P (newWind P g f .strRT e tz).wind ops = some w → Honest P w

theorem not_honest_of (w : Wind) (t : Int) (a u v : ℚ) (rs : List Row) (ps : List TV)
    (hr : w.rows = ⟨t, a, 0⟩ :: rs) (ho : w.ossm = ⟨t, u, v⟩ :: ps) (hne : v ≠ -a * w.units)
    (hn : 0 ≤ a) : ¬ Honest compass w := by
  intro h
  unfold Honest Describes at h
  rw [hr, ho] at h
  cases h with
  | cons h1 _ =>
    obtain ⟨_, x, hx, _, hv⟩ := h1
    simp [compass, not_lt.2 hn] at hx
    subst hx
    exact hne hv

/-- `set_wind_data` in half metres per second: the rows reported are already in metres per second. -/
theorem C74_counterexample_data : ¬ C74_claim := by
  intro h
  refine not_honest_of ⟨1 / 2, [⟨0, 1, 0⟩], [⟨0, 0, -1⟩], false, none⟩ 0 1 0 (-1) [] [] rfl rfl
    (by norm_num) (by norm_num)
    (h compass (.array [⟨0, 2, 0⟩]) (1 / 2) false none [.data (.array [⟨0, 2, 0⟩]) (1 / 2) .strRT] _
      compass_homog (by norm_num) (by decide +kernel) (by decide +kernel))

/-- Setting `units` afterwards: neither the rows nor the wind change. -/
theorem C74_counterexample_units : ¬ C74_claim := by
  intro h
  refine not_honest_of ⟨1 / 2, [⟨0, 2, 0⟩], [⟨0, 0, -2⟩], false, none⟩ 0 2 0 (-2) [] [] rfl rfl
    (by norm_num) (by norm_num)
    (h compass (.array [⟨0, 2, 0⟩]) 1 false none [.units (1 / 2)] _
      compass_homog (by norm_num) (by decide +kernel) (by decide +kernel))

/-- What follows from that: a change of time zone changes the speed. -/
theorem C74_counterexample_tz :
    run compass (newWind compass (.array [⟨0, 2, 0⟩]) (1 / 2) .strRT false (some 0)).wind
      [.data (.array [⟨0, 2, 0⟩]) (1 / 2) .strRT, .tz (some 1)] =
    some ⟨1 / 2, [⟨3600, 1, 0⟩], [⟨3600, 0, -1 / 2⟩], false, some 1⟩ ∧
    run compass (newWind compass (.array [⟨0, 2, 0⟩]) (1 / 2) .strRT false (some 0)).wind
      [.tz (some 1)] =
    some ⟨1 / 2, [⟨3600, 2, 0⟩], [⟨3600, 0, -1⟩], false, some 1⟩ := by
  constructor <;> decide +kernel

/-- What is kept in hand: setting the series as speed and direction, changing the time zone, and
`set_wind_data` in metres per second. -/
def Op.safe : Op → Prop
  | .set _ c => c.isUV = false
  | .data _ f c => c.isUV = false ∧ f = 1
  | .units _ => False
  | .tz _ => True

theorem newSet_honest (P : Polar) (hP : Homog P) (w : Wind) (g : Given) (c : CoordArg)
    (hu : 0 < w.units) (hc : c.isUV = false) (h : (newSet P w g c).raised = false) :
    Honest P (newSet P w g c).wind ∧ (newSet P w g c).wind.units = w.units ∧
      (newSet P w g c).wind.rows = g.rows := by
  unfold newSet at h ⊢
  cases hch : checked g with
  | false => simp [hch] at h
  | true =>
    simp only [hch, if_true] at h ⊢
    cases hps : toPairs P c (convertUnits c w.units 1 g.rows) with
    | none => simp [hps] at h
    | some ps =>
      refine ⟨?_, rfl, rfl⟩
      have hne : c ≠ .strUV := by rintro rfl; cases hc
      have := describes_of_pairs P hP c w.units hu (Or.inl hne) g.rows ps hps
      rw [hc] at this
      exact this

theorem step_honest (P : Polar) (hP : Homog P) (w w' : Wind) (op : Op) (hs : op.safe)
    (hw : Honest P w) (hu : 0 < w.units) (h : step P w op = some w') :
    Honest P w' ∧ 0 < w'.units := by
  cases op with
  | set g c =>
    simp only [step] at h
    split at h
    · cases h
    · rename_i hr
      injection h with h
      subst h
      have := newSet_honest P hP w g c hu hs (by simpa using hr)
      exact ⟨this.1, by rw [this.2.1]; exact hu⟩
  | data g f c =>
    obtain ⟨hc, hf⟩ := hs
    subst hf
    simp only [step] at h
    split at h
    · cases h
    · rename_i hr
      injection h with h
      subst h
      have hr' : (setWindData P w g 1 c).raised = false := by simpa using hr
      have hd := C73_data_partial P w g 1 c hP (by norm_num) (Or.inr rfl) hr'
      have hrows : (setWindData P w g 1 c).wind.rows = g.rows ∧
          (setWindData P w g 1 c).wind.units = 1 := by
        unfold setWindData at hr' ⊢
        cases hch : checked g with
        | false => simp [hch] at hr'
        | true =>
          simp only [hch, if_true] at hr' ⊢
          cases hps : toPairs P c (convertUnits c 1 1 g.rows) with
          | none => simp [hps] at hr'
          | some ps =>
            refine ⟨?_, rfl⟩
            show convertUnits c 1 1 g.rows = g.rows
            unfold convertUnits
            conv => rhs; rw [← List.map_id g.rows]
            apply List.map_congr_left
            intro r _
            cases r
            simp
      refine ⟨?_, by rw [hrows.2]; norm_num⟩
      unfold Honest
      rw [hrows.1, hrows.2]
      rw [hc] at hd
      exact hd
  | units f => exact absurd hs id
  | tz o =>
    simp only [step] at h
    split at h
    · cases h
    · rename_i hr
      injection h with h
      subst h
      unfold setTimezone at hr ⊢
      split
      · rename_i old new hold
        simp only [hold] at hr ⊢
        split
        · rename_i hraised
          simp [hraised] at hr
        · rename_i hraised
          have := newSet_honest P hP w
            (.array (w.rows.map fun r => { r with time := r.time + shiftSecs old new })) .strRT hu rfl
            (by simpa using hraised)
          refine ⟨this.1, ?_⟩
          show 0 < (newSet P w _ _).wind.units
          rw [this.2.1]; exact hu
      · exact ⟨hw, hu⟩

/-- C74 for the safe operations, any number of them. -/
theorem C74_partial (P : Polar) (g : Given) (f : ℚ) (e : Bool) (tz : Option ℚ) (ops : List Op)
    (w : Wind) (hP : Homog P) (hf : 0 < f) (h0 : (newWind P g f .strRT e tz).raised = false)
    (hs : ∀ op ∈ ops, op.safe)
    (h : run P (newWind P g f .strRT e tz).wind ops = some w) : Honest P w ∧ 0 < w.units := by
  have hstart : Honest P (newWind P g f .strRT e tz).wind ∧
      0 < (newWind P g f .strRT e tz).wind.units := by
    have hd := C73_partial P g f .strRT e tz hP hf (Or.inl (by decide)) h0
    have hrows : (newWind P g f .strRT e tz).wind.rows = g.rows ∧
        (newWind P g f .strRT e tz).wind.units = f := by
      unfold newWind newSet at h0 ⊢
      simp only at h0 ⊢
      cases hch : checked g with
      | false => simp [hch] at h0
      | true =>
        simp only [hch, if_true] at h0 ⊢
        cases hps : toPairs P .strRT (convertUnits .strRT f 1 g.rows) with
        | none => simp [hps] at h0
        | some ps => exact ⟨rfl, rfl⟩
    refine ⟨?_, by rw [hrows.2]; exact hf⟩
    unfold Honest
    rw [hrows.1, hrows.2]
    exact hd
  generalize (newWind P g f .strRT e tz).wind = w0 at h hstart
  clear h0
  induction ops generalizing w0 with
  | nil => injection h with h; subst h; exact hstart
  | cons op ops ih =>
    simp only [run] at h
    cases hst : step P w0 op with
    | none => rw [hst] at h; cases h
    | some w1 =>
      rw [hst] at h
      exact ih (fun o ho => hs o (List.mem_cons_of_mem _ ho)) w1 h
        (step_honest P hP w0 w1 op (hs op List.mem_cons_self) hstart.1 hstart.2 hst)

example : run compass (newWind compass (.array [⟨0, 2, 0⟩]) (1 / 2) .strRT false (some 0)).wind
    [.set (.array [⟨0, 4, 90⟩, ⟨10, 2, 0⟩]) .enumRT, .tz (some (-1 / 2))] =
    some ⟨1 / 2, [⟨-1800, 4, 90⟩, ⟨-1790, 2, 0⟩], [⟨-1800, -2, 0⟩, ⟨-1790, 0, -1⟩], false,
      some (-1 / 2)⟩ := by decide +kernel

/-- Velocities are determined by what describes them. -/
theorem describes_unique (P : Polar) (uv : Bool) (f : ℚ) (rows : List Row) (ps qs : List TV)
    (h1 : Describes P uv f rows ps) (h2 : Describes P uv f rows qs) : ps = qs := by
  unfold Describes at h1 h2
  induction h1 generalizing qs with
  | nil => cases h2; rfl
  | cons ha _ ih =>
    cases h2 with
    | cons hb hrest =>
      rw [ih _ hrest]
      congr 1
      obtain ⟨t1, x1, e1, u1, v1⟩ := ha
      obtain ⟨t2, x2, e2, u2, v2⟩ := hb
      have hx : x1 = x2 := by
        cases uv with
        | true => simp at e1 e2; rw [e1, e2]
        | false =>
          simp at e1 e2
          rw [e1] at e2
          injection e2
      subst hx
      have ext : ∀ p q : TV, p.time = q.time → p.u = q.u → p.v = q.v → p = q := by
        rintro ⟨_, _, _⟩ ⟨_, _, _⟩ h1 h2 h3
        simp only at h1 h2 h3
        rw [h1, h2, h3]
      exact ext _ _ (by rw [t1, t2]) (by rw [u1, u2]) (by rw [v1, v2])

/-- A new wind records what it was given besides the series. -/
theorem C74_recorded (P : Polar) (g : Given) (f : ℚ) (c : CoordArg) (e : Bool) (tz : Option ℚ)
    (h : (newWind P g f c e tz).raised = false) :
    (newWind P g f c e tz).wind.units = f ∧ (newWind P g f c e tz).wind.rows = g.rows ∧
    (newWind P g f c e tz).wind.extrap = e ∧ (newWind P g f c e tz).wind.tz = tz := by
  unfold newWind newSet at h ⊢
  simp only at h ⊢
  cases hch : checked g with
  | false => simp [hch] at h
  | true =>
    simp only [hch, if_true] at h ⊢
    cases hps : toPairs P c (convertUnits c f 1 g.rows) with
    | none => simp [hps] at h
    | some ps => exact ⟨rfl, rfl, rfl, rfl⟩

example : (newWind compass (.array [⟨0, 2, 90⟩]) (1 / 2) .strRT true (some 3)).wind =
    ⟨1 / 2, [⟨0, 2, 90⟩], [⟨0, -1, 0⟩], true, some 3⟩ := by decide +kernel

/-- Of an honest wind with ascending times, a change of time zone moves the times by that many
seconds, reported and applied alike, and changes nothing else. -/
theorem C74_timezone_partial (P : Polar) (hP : Homog P) (w : Wind) (hw : Honest P w)
    (hu : 0 < w.units) (hasc : w.rows.Pairwise (fun r s => r.time < s.time)) (old new : ℚ)
    (htz : w.tz = some old) (d : Int) (hd : (d : ℚ) = (new - old) * 3600) :
    setTimezone P w (some new) =
      ⟨{ w with rows := w.rows.map (fun r => { r with time := r.time + d }),
                ossm := w.ossm.map (fun p => { p with time := p.time + d }),
                tz := some new }, [], false⟩ := by
  have hshift : shiftSecs old new = d := by
    unfold shiftSecs
    rw [← hd]
    simp
  have hch : checked (.array (w.rows.map fun r => { r with time := r.time + d })) = true := by
    simp only [checked, TSeries.isAscending_iff, List.map_map]
    intro i j p q hp hq hij
    rw [List.getElem?_map] at hp hq
    rw [List.pairwise_iff_getElem] at hasc
    have hi : i < w.rows.length := by
      by_contra hi
      rw [List.getElem?_eq_none (by omega)] at hp; cases hp
    have hj : j < w.rows.length := by
      by_contra hj
      rw [List.getElem?_eq_none (by omega)] at hq; cases hq
    rw [List.getElem?_eq_getElem hi] at hp
    rw [List.getElem?_eq_getElem hj] at hq
    injection hp with hp
    injection hq with hq
    rw [← hp, ← hq]
    have := hasc i j hi hj hij
    show w.rows[i].time + d < w.rows[j].time + d
    omega
  have hdesc : Describes P false w.units (w.rows.map fun r => { r with time := r.time + d })
      (w.ossm.map fun p => { p with time := p.time + d }) := by
    unfold Describes
    rw [List.forall₂_map_left_iff, List.forall₂_map_right_iff]
    refine List.Forall₂.imp ?_ hw
    rintro r p ⟨h1, x, h2, h3, h4⟩
    exact ⟨by rw [h1], x, h2, h3, h4⟩
  obtain ⟨ps, hps⟩ := pairs_of_describes P hP .strRT w.units hu
    (w.rows.map fun r => { r with time := r.time + d }) (by
      intro _ r hr
      obtain ⟨i, hi, rfl⟩ := List.mem_iff_getElem.1 hr
      have hl := hdesc.length_eq
      obtain ⟨_, x, hx, _⟩ := (List.forall₂_iff_get.1 hdesc).2 i hi (by omega)
      exact ⟨x, by simpa using hx⟩)
  have heq : ps = w.ossm.map fun p => { p with time := p.time + d } :=
    describes_unique P false w.units _ _ _
      (describes_of_pairs P hP .strRT w.units hu (Or.inl (by decide)) _ ps hps) hdesc
  have hset : newSet P w (.array (w.rows.map fun r => { r with time := r.time + d })) .strRT =
      ⟨{ w with rows := w.rows.map (fun r => { r with time := r.time + d }), ossm := ps },
        convertUnits .strRT w.units 1 (w.rows.map fun r => { r with time := r.time + d }), false⟩ := by
    unfold newSet
    rw [if_pos hch]
    simp only [Given.rows, hps, callerAfter]
  unfold setTimezone
  rw [htz]
  simp only [hshift, hset, heq, Bool.false_eq_true, if_false]

/-- Without an old or a new offset only the offset is recorded. -/
theorem C74_timezone_none (P : Polar) (w : Wind) (o : Option ℚ) (h : w.tz = none ∨ o = none) :
    setTimezone P w o = ⟨{ w with tz := o }, [], false⟩ := by
  unfold setTimezone
  rcases h with h | h
  · rw [h]
  · subst h
    cases w.tz <;> rfl

/-- An honest wind that is saved and loaded again applies the same velocities. -/
theorem C74_saved_partial (P : Polar) (hP : Homog P) (w : Wind) (hw : Honest P w) (hu : 0 < w.units)
    (h : (saveLoad P w).raised = false) :
    (saveLoad P w).wind.ossm = w.ossm ∧ Honest P (saveLoad P w).wind := by
  unfold saveLoad at h ⊢
  have hd := C73_partial P (.array w.rows) w.units .strRT w.extrap w.tz hP hu (Or.inl (by decide)) h
  have e := describes_unique P false w.units w.rows _ _ hd hw
  refine ⟨e, ?_⟩
  have := (C74_partial P (.array w.rows) w.units w.extrap w.tz [] _ hP hu h (by simp) rfl).1
  exact this

example : (saveLoad compass ⟨1 / 2, [⟨0, 2, 0⟩], [⟨0, 0, -1⟩], false, none⟩).raised = false ∧
    (saveLoad compass ⟨1 / 2, [⟨0, 2, 0⟩], [⟨0, 0, -1⟩], false, none⟩).wind.ossm = [⟨0, 0, -1⟩] := by
  decide +kernel

/-- Saving and loading after `set_wind_data` changes the wind. -/
theorem C74_counterexample_saved :
    (run compass (newWind compass (.array [⟨0, 2, 0⟩]) (1 / 2) .strRT false none).wind
      [.data (.array [⟨0, 2, 0⟩]) (1 / 2) .strRT]).map
        (fun w => (w.ossm, (saveLoad compass w).wind.ossm)) =
      some ([⟨0, 0, -1⟩], [⟨0, 0, -1 / 2⟩]) := by decide +kernel

/-! ## C75 -/

/-- The claim: the caller's data are as they were. -/
def C75_claim : Prop :=
  ∀ (P : Polar) (g : Given) (f : ℚ) (c : CoordArg) (e : Bool) (tz : Option ℚ),
    (newWind P g f c e tz).caller = g.rows

/-- It fails: an array in half metres per second comes back in metres per second … -/
theorem C75_counterexample : ¬ C75_claim := by
  intro h
  have := h compass (.array [⟨0, 2, 0⟩]) (1 / 2) .strRT false none
  revert this
  decide +kernel

/-- … so that a second wind from the same array is half as strong as the first. -/
theorem C75_counterexample_twice :
    (newWind compass (.array [⟨0, 2, 0⟩]) (1 / 2) .strRT false none).wind.ossm = [⟨0, 0, -1⟩] ∧
    (newWind compass (.array (newWind compass (.array [⟨0, 2, 0⟩]) (1 / 2) .strRT false none).caller)
      (1 / 2) .strRT false none).wind.ossm = [⟨0, 0, -1 / 2⟩] := by
  constructor <;> decide +kernel

/-- What holds: a list is left alone, and so is an array already in metres per second. -/
theorem C75_partial (P : Polar) (g : Given) (f : ℚ) (c : CoordArg) (e : Bool) (tz : Option ℚ)
    (h : (∃ rows, g = .pairs rows) ∨ f = 1) : (newWind P g f c e tz).caller = g.rows := by
  have hcall : callerAfter g (convertUnits c f 1 g.rows) = g.rows := by
    rcases h with ⟨rows, rfl⟩ | rfl
    · rfl
    · cases g with
      | pairs rows => rfl
      | array rows =>
        show convertUnits c 1 1 rows = rows
        unfold convertUnits
        conv => rhs; rw [← List.map_id rows]
        apply List.map_congr_left
        intro r _
        cases r
        simp
  unfold newWind newSet
  simp only
  cases hch : checked g with
  | false => simp
  | true =>
    simp only [if_true]
    cases hps : toPairs P c (convertUnits c f 1 g.rows) with
    | none => simpa using hcall
    | some ps => simpa using hcall

example : (newWind compass (.array [⟨0, 2, 0⟩]) 1 .strRT false none).caller = [⟨0, 2, 0⟩] := by
  decide +kernel

/-! ## C76 -/

/-- The claim: a call that raises leaves the wind as it was. -/
def C76_claim : Prop :=
  ∀ (P : Polar) (w : Wind) (g : Given) (f : ℚ) (c : CoordArg),
    ((newSet P w g c).raised = true → (newSet P w g c).wind = w) ∧
    ((setWindData P w g f c).raised = true → (setWindData P w g f c).wind = w)

/-- It fails: a series with an impossible direction raises but is reported from then on, while
the old wind is still applied. -/
theorem C76_counterexample : ¬ C76_claim := by
  intro h
  have := (h compass ⟨1, [⟨0, 2, 0⟩], [⟨0, 0, -2⟩], false, none⟩ (.array [⟨0, 7, 400⟩]) 1 .strRT).1
    (by decide +kernel)
  revert this
  decide +kernel

/-- And `set_wind_data` with such a series has already changed the units. -/
theorem C76_counterexample_units : ¬ C76_claim := by
  intro h
  have := (h compass ⟨1, [⟨0, 2, 0⟩], [⟨0, 0, -2⟩], false, none⟩ (.array [⟨0, 7, 400⟩]) (1 / 2) .strRT).2
    (by decide +kernel)
  revert this
  decide +kernel

/-- What holds: the velocities applied are as they were whenever a call raises, and nothing at all
has changed when it is the order of the times that was refused. -/
theorem C76_partial (P : Polar) (w : Wind) (g : Given) (f : ℚ) (c : CoordArg) :
    ((newSet P w g c).raised = true → (newSet P w g c).wind.ossm = w.ossm ∧
      (newSet P w g c).wind.units = w.units) ∧
    ((setWindData P w g f c).raised = true → (setWindData P w g f c).wind.ossm = w.ossm ∧
      (setWindData P w g f c).wind.rows = w.rows) ∧
    (∀ rows, g = .array rows → ¬ rows.Pairwise (fun r s => r.time < s.time) →
      newSet P w g c = ⟨w, rows, true⟩ ∧ setWindData P w g f c = ⟨w, rows, true⟩) := by
  refine ⟨?_, ?_, ?_⟩
  · intro h
    unfold newSet at h ⊢
    cases hch : checked g with
    | false => simp
    | true =>
      simp only [hch, if_true] at h ⊢
      cases hps : toPairs P c (convertUnits c w.units 1 g.rows) with
      | none => simp
      | some ps => simp [hps] at h
  · intro h
    unfold setWindData at h ⊢
    cases hch : checked g with
    | false => simp
    | true =>
      simp only [hch, if_true] at h ⊢
      cases hps : toPairs P c (convertUnits c f 1 g.rows) with
      | none => simp
      | some ps => simp [hps] at h
  · rintro rows rfl hnp
    have hch : checked (.array rows) = false := by
      by_contra hc
      have hc' : checked (.array rows) = true := by simpa using hc
      apply hnp
      simp only [checked, TSeries.isAscending_iff] at hc'
      rw [List.pairwise_iff_getElem]
      intro i j hi hj hij
      exact hc' i j _ _ (by rw [List.getElem?_map, List.getElem?_eq_getElem hi]; rfl)
        (by rw [List.getElem?_map, List.getElem?_eq_getElem hj]; rfl) hij
    constructor
    · unfold newSet; simp [hch, Given.rows]
    · unfold setWindData; simp [hch, Given.rows]

example : newSet compass ⟨1, [⟨0, 2, 0⟩], [⟨0, 0, -2⟩], false, none⟩
    (.array [⟨10, 7, 0⟩, ⟨0, 7, 0⟩]) .strRT =
    ⟨⟨1, [⟨0, 2, 0⟩], [⟨0, 0, -2⟩], false, none⟩, [⟨10, 7, 0⟩, ⟨0, 7, 0⟩], true⟩ := by decide +kernel

/-! ## C77 -/

/-- Several questions in a row, each with or without a word on extrapolation. -/
def ask (w : Wind) : List (Int × Option Bool) → List (R (ℚ × ℚ)) × Wind
  | [] => ([], w)
  | q :: qs => ((velocityAt w q.1 q.2).1 :: (ask (velocityAt w q.1 q.2).2 qs).1,
      (ask (velocityAt w q.1 q.2).2 qs).2)

/-- The answers are those each question would get on its own, by what it says on extrapolation or
else by what the wind says; failing questions included; and the wind is as it was. -/
theorem C77 (w : Wind) (qs : List (Int × Option Bool)) :
    ask w qs = (qs.map (fun q => getTimeValue w.ossm (q.2.getD w.extrap) q.1), w) := by
  have h1 : ∀ t q, velocityAt w t q = (getTimeValue w.ossm (q.getD w.extrap) t, w) := by
    intro t q
    unfold velocityAt
    cases q <;> cases w <;> rfl
  induction qs with
  | nil => rfl
  | cons q qs ih =>
    simp only [ask, h1, ih, List.map_cons]

example : ask ⟨1, [], [⟨0, 1, 5⟩, ⟨10, 2, 6⟩], false, none⟩ [(11, some true), (11, none), (5, none)] =
    ([.ok (2, 6), .err, .ok (3 / 2, 11 / 2)],
      ⟨1, [], [⟨0, 1, 5⟩, ⟨10, 2, 6⟩], false, none⟩) := by decide +kernel

end Verif.PointWind
