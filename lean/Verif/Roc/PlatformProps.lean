import Verif.Roc.PlatformModel
import Mathlib.Tactic.Linarith
import Mathlib.Tactic.Ring
import Mathlib.Tactic.FieldSimp
/-!
# Properties of the figures of a platform
-/
namespace Verif.Roc.Platform

/-- the boat and the plane of the examples -/
def boat : Plat := fun s =>
  if s = "transit_speed" then some 7 else if s = "application_speed" then some 2 else if s = "fuel_load" then some 1800
  else if s = "dispersant_load" then some 3600 else if s = "swath_width" then some 20 else if s = "swath_width_min" then some 10
  else if s = "swath_width_max" then some 40 else if s = "pump_rate_max" then some (1 / 100) else if s = "pump_rate_min" then some (1 / 1000)
  else none

def plane : Plat := fun s =>
  if s = "approach" then some 1000 else if s = "departure" then some 1000 else if s = "reposition_speed" then some 50
  else if s = "u_turn_time" then some 60 else if s = "taxi_land_depart" then some 600 else boat s

theorem get_some {p : Plat} {n : String} {u v : ℚ} (h : n ∈ names) (hv : p n = some v) : get p n u = some (v / u) := by
  unfold get; rw [if_pos h, hv]; rfl

/-! ## C267 -/

/-- The claim: loading at once takes the longer of the two times, one after the other their sum. -/
def C267_claim : Prop := ∀ (p : Plat) (fuel disp : ℚ), p "fuel_load" = some fuel → p "dispersant_load" = some disp →
  reloadTime p .simultaneous = some (max fuel disp) ∧ reloadTime p .separate = some (fuel + disp)

theorem reloadTime_eq (p : Plat) (l : Loading) (fuel disp : ℚ) (h1 : p "fuel_load" = some fuel) (h2 : p "dispersant_load" = some disp) :
    reloadTime p l = some (max disp fuel) := by
  have e : decide (l.str ≠ "") = true := by cases l <;> decide
  unfold reloadTime refuelReload
  rw [get_some (by decide) h1, get_some (by decide) h2, e]
  simp

/-- **C267** in part: loading at once takes the longer of the two times. -/
theorem C267_partial (p : Plat) (fuel disp : ℚ) (h1 : p "fuel_load" = some fuel) (h2 : p "dispersant_load" = some disp) :
    reloadTime p .simultaneous = some (max fuel disp) := by
  rw [reloadTime_eq p _ fuel disp h1 h2, max_comm]

/-- **C267** fails: one after the other takes no longer than at once. -/
theorem C267_counterexample : ¬ C267_claim := by
  intro h
  have := (h boat 1800 3600 rfl rfl).2
  rw [reloadTime_eq boat .separate 1800 3600 rfl rfl] at this
  norm_num at this

/-- for every platform whose times are both above 0 the time for loading one after the other is too short -/
theorem C267_short (p : Plat) (fuel disp : ℚ) (h1 : p "fuel_load" = some fuel) (h2 : p "dispersant_load" = some disp) (f0 : 0 < fuel) (d0 : 0 < disp) :
    ∃ t, reloadTime p .separate = some t ∧ t < fuel + disp :=
  ⟨max disp fuel, reloadTime_eq p _ fuel disp h1 h2, by rcases max_cases disp fuel with h | h <;> linarith [h.1]⟩

/-! ## C268 -/

/-- what has to be set for spraying -/
structure Sprays (p : Plat) (a w lo hi : ℚ) : Prop where
  speed : p "application_speed" = some a
  swath : p "swath_width" = some w
  rmin : p "pump_rate_min" = some lo
  rmax : p "pump_rate_max" = some hi
  le : lo ≤ hi

theorem pumpRate_eq {p : Plat} {a w lo hi : ℚ} (h : Sprays p a w lo hi) (d : ℚ) :
    pumpRate p d = some (if hi < d * a * w then hi else if d * a * w < lo then lo else d * a * w) := by
  unfold pumpRate
  rw [get_some (by decide) h.speed, get_some (by decide) h.swath, get_some (by decide) h.rmin, get_some (by decide) h.rmax]
  simp

/-- **C268**: the pump runs between its smallest and its largest rate, with the rate that the dosage asks for if that is possible and else with the
closest. -/
theorem C268_rate (p : Plat) (a w lo hi d : ℚ) (h : Sprays p a w lo hi) :
    ∃ r, pumpRate p d = some r ∧ lo ≤ r ∧ r ≤ hi ∧ (lo ≤ d * a * w → d * a * w ≤ hi → r = d * a * w) ∧
      ∀ x, lo ≤ x → x ≤ hi → |r - d * a * w| ≤ |x - d * a * w| := by
  refine ⟨_, pumpRate_eq h d, ?_⟩
  generalize d * a * w = y
  have hle := h.le
  by_cases h1 : hi < y
  · rw [if_pos h1]
    refine ⟨hle, le_refl _, fun _ h => absurd h (not_le.2 h1), fun x _ hx => ?_⟩
    rw [abs_of_nonpos (by linarith), abs_of_nonpos (by linarith)]; linarith
  · rw [if_neg h1]
    by_cases h2 : y < lo
    · rw [if_pos h2]
      refine ⟨le_refl _, hle, fun h _ => absurd h (not_le.2 h2), fun x hx _ => ?_⟩
      rw [abs_of_nonneg (by linarith), abs_of_nonneg (by linarith)]; linarith
    · rw [if_neg h2]
      refine ⟨not_lt.1 h2, not_lt.1 h1, fun _ _ => rfl, fun x _ _ => ?_⟩
      rw [sub_self, abs_zero]; exact abs_nonneg _

/-- the platform with another width of the swath -/
def withSwath (p : Plat) (w : ℚ) : Plat := fun s => if s = "swath_width" then some w else p s

/-- **C268**: the smallest and the largest dosage are what they say: a dosage can be sprayed exactly, with a swath that the platform is capable of, if
and only if it lies between them. -/
theorem C268_dosage (p : Plat) (a w lo hi wmin wmax d : ℚ) (h : Sprays p a w lo hi) (h1 : p "swath_width_min" = some wmin) (h2 : p "swath_width_max" = some wmax)
    (ha : 0 < a) (hw : 0 < wmin) (hww : wmin ≤ wmax) (hl : 0 < lo) (hd : 0 < d) :
    ∃ dmin dmax, minDosage p = some dmin ∧ maxDosage p = some dmax ∧
      (dmin ≤ d ∧ d ≤ dmax ↔ ∃ w', wmin ≤ w' ∧ w' ≤ wmax ∧ pumpRate (withSwath p w') d = some (d * a * w')) := by
  have hwM : 0 < wmax := lt_of_lt_of_le hw hww
  refine ⟨lo / (a * wmax), hi / (a * wmin), ?_, ?_, ?_⟩
  · unfold minDosage
    rw [get_some (by decide) h.speed, get_some (by decide) h.rmin, get_some (by decide) h2]; simp
  · unfold maxDosage
    rw [get_some (by decide) h.speed, get_some (by decide) h.rmax, get_some (by decide) h1]; simp
  · have hs : ∀ w', Sprays (withSwath p w') a w' lo hi := fun w' =>
      ⟨by simp [withSwath, h.speed], by simp [withSwath], by simp [withSwath, h.rmin], by simp [withSwath, h.rmax], h.le⟩
    rw [div_le_iff₀ (mul_pos ha hwM), le_div_iff₀ (mul_pos ha hw)]
    constructor
    · rintro ⟨k1, k2⟩
      have hda : 0 < d * a := mul_pos hd ha
      refine ⟨max wmin (lo / (d * a)), le_max_left _ _, max_le hww ?_, ?_⟩
      · rw [div_le_iff₀ hda]; linarith
      · rw [pumpRate_eq (hs _)]
        have e1 : lo ≤ d * a * max wmin (lo / (d * a)) := by
          have : lo = d * a * (lo / (d * a)) := by field_simp
          calc lo = d * a * (lo / (d * a)) := this
            _ ≤ _ := mul_le_mul_of_nonneg_left (le_max_right _ _) hda.le
        have e2 : d * a * max wmin (lo / (d * a)) ≤ hi := by
          rcases max_cases wmin (lo / (d * a)) with h' | h'
          · rw [h'.1]; linarith
          · rw [h'.1]
            have : d * a * (lo / (d * a)) = lo := by field_simp
            rw [this]; exact h.le
        rw [if_neg (not_lt.2 e2), if_neg (not_lt.2 e1)]
    · rintro ⟨w', k1, k2, k3⟩
      have hda : 0 < d * a := mul_pos hd ha
      obtain ⟨r, hr, b1, b2, _⟩ := C268_rate (withSwath p w') a w' lo hi d (hs w')
      rw [hr] at k3
      have k4 : r = d * a * w' := Option.some.inj k3
      subst k4
      have c1 := mul_le_mul_of_nonneg_left k1 hda.le
      have c2 := mul_le_mul_of_nonneg_left k2 hda.le
      exact ⟨by linarith, by linarith⟩

example : Sprays boat 2 20 (1 / 1000) (1 / 100) ∧ pumpRate boat (1 / 10000) = some (4 / 1000) ∧ pumpRate boat 1 = some (1 / 100) :=
  ⟨⟨rfl, rfl, rfl, rfl, by norm_num⟩, by decide +kernel, by decide +kernel⟩

/-! ## C269 -/

/-- The claim: a distance is the same in whichever unit it is given. -/
def C269_claim : Prop := ∀ (p : Plat) (a b : Q), a.value * len a.unit = b.value * len b.unit → 0 < len a.unit → 0 < len b.unit → flight p a = flight p b

/-- The claim: a length of passes is the same in whichever unit it is given. -/
def C269_claim_pass : Prop := ∀ (p : Plat) (a b : Q) (t : PassType), a.value * len a.unit = b.value * len b.unit → 0 < len a.unit → 0 < len b.unit →
  passDuration p a.value t (len a.unit) = passDuration p b.value t (len b.unit)

/-- **C269** in part: a distance in nautical miles takes its length over the speed and the time for taxiing, a length of passes too. -/
theorem C269_partial (p : Plat) (v a : ℚ) (d : Q) (hu : d.unit = "nm") (h : p "transit_speed" = some v) (hv : 0 < v)
    (ha : p "application_speed" = some a) :
    flight p d = some (d.value * len d.unit / v + (p "taxi_land_depart").getD 0) ∧
    passDuration p d.value .unidirectional (len d.unit) =
      some (((p "approach").getD 0 + (p "departure").getD 0) / (p "reposition_speed").getD 1 + d.value * len d.unit / a + (p "u_turn_time").getD 0) := by
  have e : len d.unit = 1852 := by rw [hu]; rfl
  rw [e]
  constructor
  · unfold flight oneWay
    rw [get_some (by decide) h]
    have k : d.value / (v / knot) * 3600 = d.value * 1852 / v := by
      unfold knot; field_simp
    cases ht : p "taxi_land_depart" with
    | none => simp [k]
    | some x =>
      rw [get_some (by decide) ht]
      simp [k]
  · unfold passDuration passTuple
    rw [get_some (by decide) ha]
    simp only [Option.map_some, List.sum_cons, List.sum_nil, getOr, nm, div_one, Option.some.injEq]
    ring

/-- **C269** fails: 1852 m are taken for 1852 nautical miles. -/
theorem C269_counterexample : ¬ C269_claim := by
  intro h
  have := h boat ⟨1, "nm"⟩ ⟨1852, "m"⟩ (by decide +kernel) (by decide +kernel) (by decide +kernel)
  revert this
  decide +kernel

/-- **C269** fails for passes, too. -/
theorem C269_counterexample_pass : ¬ C269_claim_pass := by
  intro h
  have := h boat ⟨1, "nm"⟩ ⟨1852, "m"⟩ .bidirectional (by decide +kernel) (by decide +kernel) (by decide +kernel)
  revert this
  decide +kernel

/-! ## C270 -/

/-- the time of spraying in a pass -/
def sprays (len u a : ℚ) : PassType → ℚ
  | .bidirectional => len * u / a * 2
  | .unidirectional => len * u / a

/-- The claim: the fraction of a pass that is spent on spraying is the time of spraying over the duration of the pass. -/
def C270_claim : Prop := ∀ (p : Plat) (l a d : ℚ) (t : PassType), p "application_speed" = some a → 0 < a → 0 < l → passDuration p l t nm = some d →
  sprayFraction p l t nm = some (sprays l nm a t / d)

/-- what a platform does besides spraying takes time -/
structure Takes (p : Plat) : Prop where
  appr : 0 ≤ getOr p "approach" 0
  dep : 0 ≤ getOr p "departure" 0
  rep : 0 < getOr p "reposition_speed" 1
  turn : 0 ≤ getOr p "u_turn_time" 0

/-- **C270** in part: what is returned lies between 0 and the fraction. -/
theorem C270_partial (p : Plat) (l a d : ℚ) (t : PassType) (hp : Takes p) (h : p "application_speed" = some a) (ha : 0 < a) (hl : 0 < l)
    (hd : passDuration p l t nm = some d) : ∃ f, sprayFraction p l t nm = some f ∧ 0 ≤ f ∧ f ≤ sprays l nm a t / d := by
  have key : ∃ o, 0 ≤ o ∧ ∀ l', passDuration p l' t nm = some (o + sprays l' nm a t) := by
    refine ⟨getOr p "approach" 0 / getOr p "reposition_speed" 1 + getOr p "departure" 0 / getOr p "reposition_speed" 1 + getOr p "u_turn_time" 0,
      add_nonneg (add_nonneg (div_nonneg hp.appr hp.rep.le) (div_nonneg hp.dep hp.rep.le)) hp.turn, ?_⟩
    intro l'
    unfold passDuration passTuple
    rw [get_some (by decide) h]
    cases t <;> simp only [Option.map_some, List.sum_cons, List.sum_nil, div_one, Option.some.injEq, sprays] <;> ring
  obtain ⟨o, ho, key⟩ := key
  have hs : ∀ l', 0 < l' → 0 < sprays l' nm a t := by
    intro l' hl'
    have : 0 < l' * nm / a := div_pos (mul_pos hl' (by unfold nm; norm_num)) ha
    cases t <;> simp only [sprays] <;> linarith
  rw [key] at hd
  have hd' : o + sprays l nm a t = d := Option.some.inj hd
  have hbig : sprays (l * nm) nm a t = nm * sprays l nm a t := by cases t <;> simp only [sprays] <;> ring
  refine ⟨sprays l nm a t / (o + sprays (l * nm) nm a t), ?_, ?_, ?_⟩
  · unfold sprayFraction
    rw [get_some (by decide) h, Option.bind_some, key]
    cases t <;> simp [sprays]
  · exact div_nonneg (hs l hl).le (add_nonneg ho (hs _ (mul_pos hl (by unfold nm; norm_num))).le)
  · rw [hbig, ← hd']
    have h1 := hs l hl
    apply div_le_div_of_nonneg_left h1.le (by linarith)
    have : (1 : ℚ) ≤ nm := by unfold nm; norm_num
    nlinarith

/-- **C270** fails: a boat that does nothing but spray is said to spray for the 1852nd part of its time. -/
theorem C270_counterexample : ¬ C270_claim := by
  intro h
  have := h boat 1 2 1852 .bidirectional rfl (by norm_num) (by norm_num) (by decide +kernel)
  have e : sprayFraction boat 1 .bidirectional nm = some (1 / 1852) := by decide +kernel
  rw [e] at this
  simp only [sprays, nm, Option.some.injEq] at this
  norm_num at this

example : Takes plane ∧ plane "application_speed" = some 2 ∧ passDuration plane 1 .bidirectional nm = some 1952 :=
  ⟨⟨by decide +kernel, by decide +kernel, by decide +kernel, by decide +kernel⟩, rfl, by decide +kernel⟩

/-! ## C271 -/

/-- **C271**: a sortie is possible if and only if the time suffices for the way there and back and one pass in both directions; with more time it
stays possible, and for a slick that is not farther away too. -/
theorem C271_sortie (p : Plat) (v a avail transit l d : ℚ) (h : p "transit_speed" = some v) (hv : 0 < v) (ha : p "application_speed" = some a)
    (hd : passDuration p l .bidirectional nm = some d) :
    (sortiePossible p avail transit l = some true ↔ 2 * (transit * 1852 / v + (p "taxi_land_depart").getD 0) + d < avail) ∧
    (sortiePossible p avail transit l = some true → ∀ avail' transit', avail ≤ avail' → transit' ≤ transit →
      sortiePossible p avail' transit' l = some true) := by
  have key : ∀ av tr, sortiePossible p av tr l = some true ↔ 2 * (tr * 1852 / v + (p "taxi_land_depart").getD 0) + d < av := by
    intro av tr
    have ho := (C269_partial p v a ⟨tr, "nm"⟩ rfl h hv ha).1
    unfold flight at ho
    simp only at ho
    unfold sortiePossible
    rw [hd, Option.bind_some, ho]
    simp only [Option.map_some, Option.some.injEq, decide_eq_true_eq]
    have : len "nm" = 1852 := rfl
    rw [this, mul_comm _ (2 : ℚ)]
  refine ⟨key _ _, fun h1 av tr h2 h3 => ?_⟩
  rw [key] at h1 ⊢
  have : tr * 1852 / v ≤ transit * 1852 / v := by
    rw [div_le_div_iff_of_pos_right hv]; linarith
  linarith

/-- The claim: so many passes as are possible in a time fit into the time. -/
def C271_claim : Prop := ∀ (p : Plat) (time l d : ℚ) (t : PassType) (n : Int), passDuration p l t nm = some d → 0 ≤ time → 1 ≤ d →
  numPasses p time l t = some n → n * d ≤ time

/-- **C271** in part: when a pass takes a whole number of seconds, the passes possible are the most that fit. -/
theorem C271_partial (p : Plat) (time l : ℚ) (d : Int) (t : PassType) (hd : passDuration p l t nm = some (d : ℚ)) (h1 : 1 ≤ d) :
    ∃ n, numPasses p time l t = some n ∧ n * d ≤ time ∧ ∀ m : Int, (m : ℚ) * d ≤ time → m ≤ n := by
  have hdp : (0 : ℚ) < d := by exact_mod_cast (by omega : (0 : Int) < d)
  refine ⟨⌊time / d⌋, ?_, ?_, ?_⟩
  · unfold numPasses trunc
    rw [hd, Option.bind_some, Int.floor_intCast, if_neg (by omega)]
  · rw [← le_div_iff₀ hdp]; exact Int.floor_le _
  · intro m hm
    rw [Int.le_floor, le_div_iff₀ hdp]; exact hm

/-- **C271** fails: the duration of a pass is cut off to whole seconds, so that a pass too many is counted. -/
theorem C271_counterexample : ¬ C271_claim := by
  intro h
  have := h (fun s => if s = "application_speed" then some 1000 else none) 3 1 (1852 / 1000) .unidirectional 3 (by decide +kernel) (by norm_num)
    (by norm_num) (by decide +kernel)
  norm_num at this

/-! ## C272 -/

/-- units of length, speed, volume, time and discharge, of those that a platform accepts -/
def unitsOf : String → List String
  | "length" => ["m", "ft", "nm", "km"]
  | "velocity" => ["m/s", "kts"]
  | "volume" => ["m^3", "gal", "l"]
  | "time" => ["s", "sec", "min", "hr"]
  | "discharge" => ["m^3/s", "gal/min"]
  | _ => []

/-- The claim: an attribute of a platform can be set with a unit of its kind. -/
def C272_claim : Prop := ∀ (s : Store) (attr k : String) (v : ℚ) (u : String), kind attr = some k → u ∈ unitsOf k →
  ∃ s', set s attr v u = some s' ∧ s' attr = some ⟨v, u⟩ ∧ ∀ a ≠ attr, s' a = s a

/-- **C272** in part: with a unit that happens to be a part of the name of the kind. -/
theorem C272_partial (s : Store) (attr k : String) (v : ℚ) (u : String) (hk : kind attr = some k) (hu : within u k = true) :
    ∃ s', set s attr v u = some s' ∧ s' attr = some ⟨v, u⟩ ∧ ∀ a ≠ attr, s' a = s a := by
  refine ⟨fun a => if a = attr then some ⟨v, u⟩ else s a, ?_, by simp, fun a ha => by simp [ha]⟩
  unfold set
  rw [hk, Option.bind_some, if_pos hu]

example : kind "payload" = some "volume" ∧ within "l" "volume" = true := by decide

/-- **C272** fails: a width in feet is refused. -/
theorem C272_counterexample : ¬ C272_claim := by
  intro h
  obtain ⟨s', h1, _⟩ := h (fun _ => none) "swath_width" "length" 20 "ft" rfl (by decide)
  have e : within "ft" "length" = false := by decide
  unfold set kind at h1
  simp [e] at h1

/-! ## C273 -/

/-- The claim: every figure of a platform that has all of its attributes can be asked for. -/
def C273_claim : Prop := ∀ p : Plat, (∀ n ∈ names, ∃ v, p n = some v ∧ 0 < v) → ∀ (x : ℚ) (b : Bool), 0 < x →
  oneWay p x ≠ none ∧ passDuration p x .bidirectional nm ≠ none ∧ refuelReload p b ≠ none ∧ pumpRate p x ≠ none ∧ minDosage p ≠ none ∧
    maxDosage p ≠ none ∧ releaseRate p x ≠ none ∧ cascadeTime p x b ≠ none

/-- **C273** in part: all but the release rate and the time to come from elsewhere. -/
theorem C273_partial (p : Plat) (hp : ∀ n ∈ names, ∃ v, p n = some v) (x : ℚ) (b : Bool) :
    oneWay p x ≠ none ∧ passDuration p x .bidirectional nm ≠ none ∧ refuelReload p b ≠ none ∧ pumpRate p x ≠ none ∧ minDosage p ≠ none ∧
      maxDosage p ≠ none := by
  have g : ∀ n ∈ names, ∀ u, ∃ v, get p n u = some v := by
    intro n hn u
    obtain ⟨v, hv⟩ := hp n hn
    exact ⟨_, get_some hn hv⟩
  obtain ⟨a, ha⟩ := g "application_speed" (by decide) 1
  obtain ⟨ts, hts⟩ := g "transit_speed" (by decide) knot
  obtain ⟨tx, htx⟩ := g "taxi_land_depart" (by decide) 1
  obtain ⟨f, hf⟩ := g "fuel_load" (by decide) 1
  obtain ⟨dl, hdl⟩ := g "dispersant_load" (by decide) 1
  obtain ⟨w, hw⟩ := g "swath_width" (by decide) 1
  obtain ⟨w1, hw1⟩ := g "swath_width_min" (by decide) 1
  obtain ⟨w2, hw2⟩ := g "swath_width_max" (by decide) 1
  obtain ⟨r1, hr1⟩ := g "pump_rate_min" (by decide) 1
  obtain ⟨r2, hr2⟩ := g "pump_rate_max" (by decide) 1
  refine ⟨?_, ?_, ?_, ?_, ?_, ?_⟩
  · unfold oneWay
    rw [hts, Option.bind_some]
    cases p "taxi_land_depart" with
    | none => simp
    | some y => simp [htx]
  · unfold passDuration passTuple; rw [ha]; simp
  · unfold refuelReload; rw [hf, hdl]; simp
  · unfold pumpRate; rw [ha, hw, hr1, hr2]; simp
  · unfold minDosage; rw [ha, hr1, hw2]; simp
  · unfold maxDosage; rw [ha, hr2, hw1]; simp

/-- **C273** fails for every platform: the release rate and the time to come from elsewhere ask for attributes that do not exist. -/
theorem C273_never (p : Plat) (x : ℚ) (b : Bool) : releaseRate p x = none ∧ cascadeTime p x b = none := by
  have e : ∀ n, n ∉ names → ∀ u, get p n u = none := fun n hn u => by unfold get; rw [if_neg hn]
  constructor
  · unfold releaseRate
    rw [e "swadth_width" (by decide)]
    cases get p "application_speed" 1 <;> rfl
  · unfold cascadeTime
    simp only [e "refuel" (by decide), Option.map_none, Option.bind_fun_none]

theorem C273_counterexample : ¬ C273_claim := by
  intro h
  exact (h (fun _ => some 1) (fun _ _ => ⟨1, rfl, by norm_num⟩) 1 false (by norm_num)).2.2.2.2.2.2.1 (C273_never _ _ false).1

end Verif.Roc.Platform
