import Verif.TSeries.Avg
import Verif.Release.Model
import Verif.Output.Model
import Verif.Time.InfDate
import Verif.Clock.Model
import Verif.Fields.SeriesModel
import Mathlib.Tactic.Ring
import Mathlib.Tactic.NormNum
import Mathlib.Data.List.TakeWhile

/-!
# Moving everything in time (C350)

A run whose start, winds, releases, active ranges and output times are all moved by the same time is the same run at
moved times. No new part of the code is modelled: the statements are about the models of the clock
(`gnome/model.py`), of active ranges (`gnome/movers/movers.py`), of time series
(`lib_gnome/OSSMTimeValue_c.cpp`, `gnome/environment/timeseries_objects_base.py`), of releases
(`gnome/spills/release.py`) and of the cadence of output (`gnome/outputters/outputter.py`).
-/

namespace Verif.Run.Shift
open Verif

/-! ## Active ranges -/

/-- A date moved by `d`; the infinite dates stay. -/
def date (d : Int) : InfDate.DT → InfDate.DT
  | .minf => .minf
  | .fin t => .fin (t + d)
  | .inf => .inf

theorem eval_date (c : InfDate.Cmp) (d : Int) (a b : InfDate.DT) : InfDate.eval c (date d a) (date d b) = InfDate.eval c a b := by
  cases a <;> cases b <;> cases c <;> simp [date, InfDate.eval, InfDate.infMethod, InfDate.minfMethod, InfDate.finMethod, InfDate.Cmp.reflect]
  all_goals (rw [Bool.eq_iff_iff]; simp)

/-- A moved range is accepted exactly if the range is, and is active in a moved step exactly if the range is in the step. -/
theorem C350_active (d : Int) (p : InfDate.Process) (t dt : Int) :
    InfDate.checkStartStop (date d p.range.1) (date d p.range.2) = InfDate.checkStartStop p.range.1 p.range.2 ∧
    (InfDate.Process.prepareStep { p with range := (date d p.range.1, date d p.range.2) } (t + d) dt).active =
      (p.prepareStep t dt).active := by
  constructor
  · obtain ⟨on, ⟨a, b⟩, act⟩ := p
    have h1 := eval_date .le d b a
    have h2 := eval_date .ge d a b
    cases a <;> cases b <;> simp_all [InfDate.checkStartStop, date]
  · have e : InfDate.DT.fin (t + d + 500000 * dt) = date d (.fin (t + 500000 * dt)) := by simp [date]; omega
    simp only [InfDate.Process.prepareStep, e, eval_date]

/-! ## Time series of the compiled library -/

/-- A value moved in time. -/
def tv (d : Int) (x : TSeries.TV) : TSeries.TV := { x with time := x.time + d }

theorem at_tv {ts : List TSeries.TV} {d : Int} {i : Nat} (h : i < ts.length) : TSeries.at' (ts.map (tv d)) i = tv d (TSeries.at' ts i) := by
  simp [TSeries.at', List.getD_eq_getElem?_getD, h]

theorem scan_tv (ts : List TSeries.TV) (d t : Int) (n : Nat) : ∀ i, ts.length - i = n →
    TSeries.scan (ts.map (tv d)) (t + d) i = TSeries.scan ts t i := by
  induction n with
  | zero =>
      intro i h
      rw [TSeries.scan, dif_neg (by simp; omega), TSeries.scan, dif_neg (by omega)]
  | succ n ih =>
      intro i h
      have hi : i < ts.length := by omega
      rw [TSeries.scan, dif_pos (by simpa using hi), at_tv hi, ih (i + 1) (by omega)]
      conv_rhs => rw [TSeries.scan, dif_pos hi]
      simp [tv]

theorem bsearch_tv (ts : List TSeries.TV) (d t : Int) (n : Nat) : ∀ s e, e - s ≤ n → e < ts.length →
    TSeries.bsearch (ts.map (tv d)) (t + d) s e = TSeries.bsearch ts t s e := by
  induction n with
  | zero =>
      intro s e h _
      rw [TSeries.bsearch, dif_neg (by omega), TSeries.bsearch, dif_neg (by omega)]
  | succ n ih =>
      intro s e h he
      by_cases hb : e - s > 3
      · rw [TSeries.bsearch, dif_pos hb, at_tv (by omega), ih s _ (by omega) (by omega), ih _ e (by omega) he]
        conv_rhs => rw [TSeries.bsearch, dif_pos hb]
        simp [tv]
      · rw [TSeries.bsearch, dif_neg hb, TSeries.bsearch, dif_neg hb]

theorem line_tv (p q : TSeries.TV) (c : TSeries.TV → ℚ) (hc : ∀ x d, c (tv d x) = c x) (dt d t : Int) :
    TSeries.line (tv d p) (tv d q) c dt (t + d) = TSeries.line p q c dt t := by
  unfold TSeries.line
  split
  · rfl
  · have hp : (tv d p).time = p.time + d := rfl
    simp only [hc, hp, TSeries.R.ok.injEq]
    push_cast
    ring

theorem component_tv (ts : List TSeries.TV) (c : TSeries.TV → ℚ) (hc : ∀ x d, c (tv d x) = c x) (d t : Int) (h0 : ts.length ≠ 0) :
    TSeries.component (ts.map (tv d)) c (t + d) = TSeries.component ts c t := by
  have p0 : 0 < ts.length := by omega
  unfold TSeries.component
  rw [List.length_map, at_tv p0, at_tv (d := d) (i := ts.length - 1) (by omega), scan_tv _ _ _ _ _ rfl, bsearch_tv _ _ _ _ _ _ (le_refl _) (by omega)]
  by_cases h1 : ts.length = 1
  · rw [if_pos h1, if_pos h1, hc]
  · rw [if_neg h1, if_neg h1]
    have a : (t + d < (tv d (TSeries.at' ts 0)).time) = (t < (TSeries.at' ts 0).time) := by simp [tv]
    have b : (t + d > (tv d (TSeries.at' ts (ts.length - 1))).time) = (t > (TSeries.at' ts (ts.length - 1)).time) := by simp [tv]
    simp only [a, b]
    split
    · rfl
    · split
      · rfl
      · split
        · rename_i h2
          rw [at_tv (by omega), line_tv _ _ _ hc]
          congr 1
          simp [tv]
        · cases hs : TSeries.scan ts t (TSeries.bsearch ts t 0 (ts.length - 1)) with
          | none => rfl
          | some i =>
              have hi : i < ts.length := by
                have : ∀ n j, ts.length - j = n → TSeries.scan ts t j = some i → i < ts.length := by
                  intro n
                  induction n with
                  | zero => intro j hj h; rw [TSeries.scan, dif_neg (by omega)] at h; cases h
                  | succ n ih =>
                      intro j hj h
                      rw [TSeries.scan, dif_pos (by omega)] at h
                      split at h
                      · cases h; omega
                      · exact ih _ (by omega) h
                exact this _ _ rfl hs
              simp only
              rw [at_tv hi, hc]
              have e : (tv d (TSeries.at' ts i)).time - (t + d) = (TSeries.at' ts i).time - t := by simp [tv]
              rw [e]
              split
              · rfl
              · split
                · rfl
                · rw [at_tv (by omega), hc]
                  split
                  · rfl
                  · rw [line_tv _ _ _ hc]
                    congr 1
                    simp [tv]

theorem clamp_tv (ts : List TSeries.TV) (d t : Int) (h0 : ts.length ≠ 0) : TSeries.clamp (ts.map (tv d)) (t + d) = TSeries.clamp ts t + d := by
  unfold TSeries.clamp
  rw [List.length_map, at_tv (by omega), at_tv (by omega)]
  simp only [tv]
  split_ifs <;> omega

/-- A moved series has at a moved time the value that the series has at the time, with and without extrapolation. -/
theorem C350_series (ts : List TSeries.TV) (extrap : Bool) (d t : Int) :
    TSeries.getTimeValue (ts.map (tv d)) extrap (t + d) = TSeries.getTimeValue ts extrap t := by
  unfold TSeries.getTimeValue
  rw [List.length_map]
  by_cases h : ts.length = 0
  · rw [if_pos h, if_pos h]
  · rw [if_neg h, if_neg h]
    have hu : ∀ (x : TSeries.TV) (d : Int), (tv d x).u = x.u := fun _ _ => rfl
    have hv : ∀ (x : TSeries.TV) (d : Int), (tv d x).v = x.v := fun _ _ => rfl
    cases extrap
    · simp only [Bool.false_eq_true, if_false]
      rw [component_tv _ _ hu _ _ h, component_tv _ _ hv _ _ h]
    · simp only [if_true]
      rw [clamp_tv _ _ _ h, component_tv _ _ hu _ _ h, component_tv _ _ hv _ _ h]

/-! ## The running average -/

theorem avgStep_tv (ts : List TSeries.TV) (d : Int) : TSeries.avgStep (ts.map (tv d)) = TSeries.avgStep ts := by
  unfold TSeries.avgStep
  rw [← List.map_tail, List.zipWith_map]
  congr 2
  funext p q
  simp [tv]

theorem avgSpan_tv (ts : List TSeries.TV) (d mt : Int) (h0 : ts.length ≠ 0) (h : mt ≠ 0) (h' : mt + d ≠ 0) :
    TSeries.avgSpan (ts.map (tv d)) (mt + d) = ((TSeries.avgSpan ts mt).1 + d, (TSeries.avgSpan ts mt).2 + d) := by
  unfold TSeries.avgSpan
  simp only [List.length_map]
  rw [at_tv (by omega), at_tv (by omega)]
  simp only [tv, if_neg h, if_neg h']
  have e1 : (TSeries.at' ts (ts.length - 1)).time + d - ((TSeries.at' ts 0).time + d) = (TSeries.at' ts (ts.length - 1)).time - (TSeries.at' ts 0).time := by omega
  rw [e1]
  by_cases hw : (TSeries.at' ts (ts.length - 1)).time - (TSeries.at' ts 0).time > 48 * 3600
  · simp only [if_pos hw, Prod.mk.injEq, true_and]
    split_ifs <;> omega
  · simp only [if_neg hw]

theorem sample_tv (ts : List TSeries.TV) (ex : Bool) (d mt t : Int) (prev : ℚ × ℚ) (h0 : ts.length ≠ 0) :
    TSeries.sample (ts.map (tv d)) ex (mt + d) prev (t + d) = TSeries.sample ts ex mt prev t := by
  unfold TSeries.sample
  rw [C350_series, List.length_map, at_tv (by omega), at_tv (by omega)]
  have e0 : (tv d (TSeries.at' ts 0)).time = (TSeries.at' ts 0).time + d := rfl
  have e1 : (tv d (TSeries.at' ts (ts.length - 1))).time = (TSeries.at' ts (ts.length - 1)).time + d := rfl
  simp only [e0, e1, C350_series, gt_iff_lt, Int.add_lt_add_iff_right]

theorem avgLoop_tv (spd : ℚ × ℚ → ℚ) (ts : List TSeries.TV) (ex : Bool) (d mt cur : Int) (h0 : ts.length ≠ 0) (n : Nat) : ∀ j vel s1 acc,
    TSeries.avgLoop spd (ts.map (tv d)) ex (mt + d) (cur + d) n j vel s1 acc = TSeries.avgLoop spd ts ex mt cur n j vel s1 acc := by
  induction n with
  | zero => intro j vel s1 acc; rfl
  | succ n ih =>
      intro j vel s1 acc
      have e : cur + d - (j : Int) * 3600 = cur - (j : Int) * 3600 + d := by omega
      simp only [TSeries.avgLoop, e, sample_tv _ _ _ _ _ _ h0, ih]

theorem avgOuter_tv (spd : ℚ × ℚ → ℚ) (ts : List TSeries.TV) (ex : Bool) (d mt : Int) (hours : Nat) (start step : Int) (h0 : ts.length ≠ 0) (n : Nat) : ∀ i vel,
    TSeries.avgOuter spd (ts.map (tv d)) ex (mt + d) hours (start + d) step n i vel =
      (TSeries.avgOuter spd ts ex mt hours start step n i vel).map (List.map fun p => (p.1 + d, p.2)) := by
  induction n with
  | zero => intro i vel; rfl
  | succ n ih =>
      intro i vel
      have e : start + d + (i : Int) * step = start + (i : Int) * step + d := by omega
      simp only [TSeries.avgOuter, e, avgLoop_tv _ _ _ _ _ _ h0, ih]
      cases TSeries.avgLoop spd ts ex mt (start + (i : Int) * step) (hours + 1) 0 vel 0 0 with
      | none => rfl
      | some r =>
          simp only
          cases TSeries.avgOuter spd ts ex mt hours start step n (i + 1) r.1 <;> simp

/-- The running average moves with its wind and the model time, unless one of the model times is the epoch of 1970. -/
theorem C350_average_partial (spd : ℚ × ℚ → ℚ) (ts : List TSeries.TV) (ex : Bool) (hours : Nat) (d mt : Int) (h : mt ≠ 0) (h' : mt + d ≠ 0) :
    TSeries.runningAverage spd (ts.map (tv d)) ex hours (mt + d) =
      (TSeries.runningAverage spd ts ex hours mt).map (List.map fun p => (p.1 + d, p.2)) := by
  unfold TSeries.runningAverage
  rw [List.length_map]
  by_cases h0 : ts.length = 0
  · rw [if_pos h0, if_pos h0]; rfl
  · rw [if_neg h0, if_neg h0, avgStep_tv, avgSpan_tv _ _ _ h0 h h']
    have e : TSeries.avgCount (ts.map (tv d)) (mt + d) = TSeries.avgCount ts mt := by
      unfold TSeries.avgCount
      rw [avgStep_tv, avgSpan_tv _ _ _ h0 h h']
      simp only [Int.add_sub_add_right, add_left_inj]
    rw [e, avgOuter_tv _ _ _ _ _ _ _ _ h0]

/-- The claim for the running average. -/
def C350_claim_average : Prop :=
  ∀ (spd : ℚ × ℚ → ℚ) (ts : List TSeries.TV) (ex : Bool) (hours : Nat) (d mt : Int),
    TSeries.runningAverage spd (ts.map (tv d)) ex hours (mt + d) =
      (TSeries.runningAverage spd ts ex hours mt).map (List.map fun p => (p.1 + d, p.2))

/-- A wind with more than two days of data from two days before 1970 on: in a run that begins in 1970 the average begins with
the wind, moved by a second it begins at the model time. -/
theorem C350_counterexample_average : ¬ C350_claim_average := by
  intro h
  have := h (fun _ => 0) [⟨-172800, 0, 0⟩, ⟨172800, 0, 0⟩] false 1 1 0
  have := congrArg (fun r => r.map fun l => l.head?.map Prod.fst) this
  revert this
  decide +kernel

/-! ## Time series in Python -/

/-- A series with its times moved. -/
def ser (d : Int) (x : Fields.Ser) : Fields.Ser := { x with times := x.times.map (· + d) }

theorem indexOf_map (ts : List Int) (t d : Int) : Fields.indexOf (ts.map (· + d)) (t + d) = Fields.indexOf ts t := by
  unfold Fields.indexOf
  rw [List.takeWhile_map, List.length_map]
  congr 2
  funext s
  simp

theorem getD_map_add {ts : List Int} {d : Int} {i : Nat} (h : i < ts.length) : (ts.map (· + d)).getD i 0 = ts.getD i 0 + d := by
  simp [List.getD_eq_getElem?_getD, h]

/-- Also the series of the Python classes (winds, temperatures, release rates) move with their times. -/
theorem C350_data (x : Fields.Ser) (d t : Int) (ex : Bool) (h0 : x.times ≠ []) : (ser d x).raw (t + d) ex = x.raw t ex := by
  obtain ⟨ts, data, un, gn, e⟩ := x
  simp only at h0
  obtain ⟨a, l, rfl⟩ := List.exists_cons_of_ne_nil h0
  have hl : ((a :: l).map (· + d)).getLastD 0 = (a :: l).getLastD 0 + d := by
    rw [List.getLastD_eq_getLast?, List.getLastD_eq_getLast?, List.getLast?_map, List.getLast?_eq_some_getLast (by simp)]
    simp
  have hh : ((a :: l).map (· + d)).headD 0 = (a :: l).headD 0 + d := rfl
  unfold Fields.Ser.raw
  refine if_ctx_congr (by simp [ser]) (fun _ => rfl) fun h1 => if_ctx_congr ?_ (fun _ => rfl) fun h2 =>
    if_ctx_congr ?_ (fun _ => rfl) fun h3 => if_ctx_congr ?_ (fun _ => rfl) fun h4 => ?_
  · simp only [ser, hl, hh, Bool.and_eq_true, Bool.or_eq_true, decide_eq_true_eq, Int.add_lt_add_iff_right]
  · simp only [ser, hh, Bool.and_eq_true, decide_eq_true_eq, Int.add_le_add_iff_right]
  · simp only [ser, hl, Bool.and_eq_true, decide_eq_true_eq, Int.add_lt_add_iff_right]
  simp only [ser]
  rw [indexOf_map]
  have ht : t ≤ (a :: l).getLastD 0 := by
    cases h5 : e || ex <;> simp_all
  have : Fields.indexOf (a :: l) t < (a :: l).length := by
    unfold Fields.indexOf
    by_contra hc
    have hlen : ((a :: l).takeWhile fun s => decide (s < t)).length = (a :: l).length :=
      Nat.le_antisymm (List.takeWhile_sublist _).length_le (by omega)
    have he := (List.takeWhile_sublist (fun s => decide (s < t)) (l := a :: l)).eq_of_length hlen
    have hm : (a :: l).getLast (by simp) ∈ (a :: l).takeWhile fun s => decide (s < t) := by
      rw [he]; exact List.getLast_mem _
    have := List.mem_takeWhile_imp hm
    simp only [decide_eq_true_eq] at this
    rw [List.getLastD_eq_getLast?, List.getLast?_eq_some_getLast (by simp)] at ht
    simp only [Option.getD_some] at ht
    omega
  unfold Fields.alpha
  by_cases hz : Fields.indexOf (a :: l) t = 0
  · rw [if_pos hz, if_pos hz]
  · rw [if_neg hz, if_neg hz, getD_map_add this, getD_map_add (by omega)]
    congr 5
    · omega
    · omega

/-! ## Releases -/

/-- A release moved in time. -/
def rel (d : ℚ) (c : Release.Cfg) : Release.Cfg := { c with rt := c.rt + d }

/-- A prepared release moved in time. -/
def prep (d : ℚ) (p : Release.Prepared) : Release.Prepared := { p with rt := p.rt + d, times := p.times.map (· + d) }

/-- A call moved in time. -/
def call (d : ℚ) (c : Release.Call) : Release.Call := { c with start := c.start + d, stop := c.stop + d }

theorem seriesAt_map (ts vs : List ℚ) (t d : ℚ) (h0 : ts ≠ []) : Release.seriesAt (ts.map (· + d)) vs (t + d) = Release.seriesAt ts vs t := by
  obtain ⟨a, l, rfl⟩ := List.exists_cons_of_ne_nil h0
  have g : ∀ i, i < (a :: l).length → ((a :: l).map (· + d)).getD i 0 = (a :: l).getD i 0 + d := by
    intro i hi
    simp only [List.getD_eq_getElem?_getD, List.getElem?_map, List.getElem?_eq_getElem hi, Option.map_some, Option.getD_some]
  have hs : Release.searchsorted ((a :: l).map (· + d)) (t + d) = Release.searchsorted (a :: l) t := by
    unfold Release.searchsorted
    rw [List.takeWhile_map, List.length_map]
    congr 2
    funext s
    simp
  unfold Release.seriesAt
  rw [List.length_map, g 0 (by simp), g _ (by simp), hs]
  simp only [add_le_add_iff_right, add_lt_add_iff_right]
  split
  · rfl
  · split
    · rfl
    · split
      · rfl
      · rename_i h1 h2 h3
        have : Release.searchsorted (a :: l) t < (a :: l).length := by
          unfold Release.searchsorted
          by_contra hc
          have hlen : ((a :: l).takeWhile fun s => decide (s < t)).length = (a :: l).length :=
            Nat.le_antisymm (List.takeWhile_sublist _).length_le (by omega)
          have he := (List.takeWhile_sublist (fun s => decide (s < t)) (l := a :: l)).eq_of_length hlen
          have hm : (a :: l).getLast (by simp) ∈ (a :: l).takeWhile fun s => decide (s < t) := by
            rw [he]; exact List.getLast_mem _
          have := List.mem_takeWhile_imp hm
          simp only [decide_eq_true_eq] at this
          rw [List.getD_eq_getElem?_getD, ← List.getLast?_eq_getElem?, List.getLast?_eq_some_getLast (by simp)] at h3
          simp only [Option.getD_some] at h3
          exact h3 this
        rw [g _ this, g _ (by omega)]
        simp only [add_sub_add_right_eq_sub]

theorem times_rel (c : Release.Cfg) (ts d : ℚ) : Release.times (rel d c) ts = (Release.times c ts).map (· + d) := by
  unfold Release.times
  have : Release.numTs (rel d c) ts = Release.numTs c ts := rfl
  rw [this]
  simp only [rel]
  split
  · by_cases hd : c.dur = 0
    · simp only [if_pos hd, List.map_cons, List.map_nil, add_right_comm _ d]
    · simp only [if_neg hd, List.map_cons, List.map_nil, add_right_comm _ d]
  · simp only [List.map_append, List.map_map, List.map_cons, List.map_nil, add_right_comm c.rt d]
    congr 1

theorem times_ne (c : Release.Cfg) (ts : ℚ) : Release.times c ts ≠ [] := by
  unfold Release.times
  split
  · split <;> simp
  · simp

/-- A moved release is refused exactly if the release is, and gets a moved schedule. -/
theorem C350_prepare (c : Release.Cfg) (ts d : ℚ) : Release.prepare (rel d c) ts = (Release.prepare c ts).map (prep d) := by
  have hv : Release.vals (rel d c) ts = Release.vals c ts := by
    unfold Release.vals
    rw [times_rel, List.map_map]
    rfl
  unfold Release.prepare
  rw [times_rel, hv]
  show (if ts < 1 ∧ c.dur ≠ 0 then none else if Release.ratio c ts < 1 then none else some _) = _
  split
  · rfl
  · split
    · rfl
    · rfl

theorem numAfter_prep (p : Release.Prepared) (d t : ℚ) (h : p.times ≠ []) : Release.numAfter (prep d p) (t + d) = Release.numAfter p t := by
  unfold Release.numAfter
  simp only [prep, add_lt_add_iff_right, seriesAt_map _ _ _ _ h]

theorem posRange_prep (p : Release.Prepared) (d : ℚ) (c : Release.Call) (h : p.times ≠ []) : Release.posRange (prep d p) (call d c) = Release.posRange p c := by
  unfold Release.posRange
  simp only [prep, call, add_le_add_iff_right, ne_eq, add_left_inj]
  split_ifs <;> simp only [seriesAt_map _ _ _ _ h, add_right_comm _ d 1] <;> simp_all

theorem release_prep (p : Release.Prepared) (spec scale d : ℚ) (s : Release.Spill) (c : Release.Call) (h : p.times ≠ []) :
    Release.releaseElements (prep d p) spec scale s (call d c) = Release.releaseElements p spec scale s c := by
  unfold Release.releaseElements
  rw [posRange_prep _ _ _ h]
  have e : Release.numAfter (prep d p) (call d c).stop = Release.numAfter p c.stop := numAfter_prep p d c.stop h
  rw [e]
  have b : ∀ n, Release.bulkVolume (prep d p) spec scale s (call d c) n = Release.bulkVolume p spec scale s c n := by
    intro n
    simp only [Release.bulkVolume, prep, call, add_right_comm p.rt d, add_le_add_iff_right]
  simp only [b]
  rfl

/-- A moved spill releases, in any sequence of moved steps, batches of the same numbers, masses, places and volumes. -/
theorem C350_release (c : Release.Cfg) (ts d spec scale : ℚ) (s : Release.Spill) (calls : List Release.Call) {p q : Release.Prepared}
    (h : Release.prepare c ts = some p) (h' : Release.prepare (rel d c) ts = some q) :
    Release.runCalls q spec scale s (calls.map (call d)) = Release.runCalls p spec scale s calls := by
  rw [C350_prepare, h] at h'
  cases h'
  have hne : p.times ≠ [] := by
    unfold Release.prepare at h
    split at h
    · cases h
    · split at h
      · cases h
      · cases h
        exact times_ne c ts
  induction calls generalizing s with
  | nil => rfl
  | cons x l ih =>
      simp only [List.map_cons, Release.runCalls, release_prep _ _ _ _ _ _ hne, ih]

/-! ## Output -/

/-- An outputter with its start moved. -/
def outp (d : Int) (c : Output.Cfg) : Output.Cfg := { c with ostart := c.ostart.map (· + d) }

/-- Its state with the start of the run moved. -/
def ost (d : Int) (s : Output.St) : Output.St := { s with mstart := s.mstart + d }

theorem cadence_shift (c : Output.Cfg) (s : Output.St) (d ts : Int) : Output.cadence (outp d c) (ost d s) ts = ost d (Output.cadence c s ts) := by
  obtain ⟨on, zero, last, single, ots, os⟩ := c
  cases single <;> cases ots with
  | none => rfl
  | some p =>
      by_cases hq : p.natAbs ≤ (s.dt + ts).natAbs <;> simp [Output.cadence, outp, ost, hq]

theorem prepareStep_shift (c : Output.Cfg) (s : Output.St) (d ts mt : Int) :
    Output.prepareStep (outp d c) (ost d s) ts (mt + d) = ost d (Output.prepareStep c s ts mt) := by
  unfold Output.prepareStep
  rw [cadence_shift]
  obtain ⟨on, zero, last, single, ots, os⟩ := c
  cases os with
  | none => cases on <;> rfl
  | some S =>
      have e1 : (S + d ≠ s.mstart + d) = (S ≠ s.mstart) := by simp
      have e2 : (mt + d + ts < S + d) = (mt + ts < S) := by rw [eq_iff_iff]; omega
      have e3 : (mt + d + ts = S + d) = (mt + ts = S) := by rw [eq_iff_iff]; omega
      have e4 : (mt + d + ts > S + d) = (mt + ts > S) := by rw [eq_iff_iff]; omega
      cases on
      · rfl
      · by_cases h1 : S = s.mstart
        · simp [outp, ost, h1]
        · by_cases h2 : mt + ts < S
          · simp [outp, ost, h1, e2, h2]
          · by_cases h3 : mt + ts = S
            · simp [outp, ost, h1, e2, e3, h3]
            · have h4 : S < mt + ts := by omega
              cases hf : s.isFirst <;> by_cases h5 : 0 < ts <;> simp [outp, ost, h1, e2, e3, e4, h2, h3, h4, h5, hf]

theorem write_shift (c : Output.Cfg) (s : Output.St) (d : Int) (k : Nat) (l : Bool) :
    Output.writeOutput (outp d c) (ost d s) k l = ost d (Output.writeOutput c s k l) := by
  unfold Output.writeOutput
  cases k <;> cases h : (l && c.last) <;> simp [outp, ost, h]

/-- A moved outputter writes in a moved run the same steps. -/
theorem C350_written (c : Output.Cfg) (t0 ts d : Int) (L k : Nat) : Output.written (outp d c) (t0 + d) ts L k = Output.written c t0 ts L k := by
  have : ∀ k, Output.stateAt (outp d c) (t0 + d) ts L k = ost d (Output.stateAt c t0 ts L k) := by
    intro k
    induction k with
    | zero =>
        simp only [Output.stateAt]
        rw [← write_shift]
        congr 1
        obtain ⟨on, zero, last, single, ots, os⟩ := c
        cases os with
        | none => rfl
        | some x =>
            have : (x + d == t0 + d) = (x == t0) := by rw [Bool.eq_iff_iff]; simp
            simp [Output.prepareRun, outp, ost, this]
    | succ k ih =>
        simp only [Output.stateAt]
        rw [← write_shift, ← prepareStep_shift, ih]
        congr 2
        omega
  unfold Output.written
  rw [this]
  rfl

/-! ## The clock -/

/-- The state of the clock of a moved run. -/
def clock (d : Int) (s : Clock.State) : Clock.State := { s with start := s.start + d, mt := s.mt + d }

/-- What the user sees of a step, moved. -/
def seen (d : Int) : Clock.Seen → Clock.Seen
  | .output n t last => .output n (t + d) last
  | .stop => .stop
  | .error => .error

/-- What the user does, moved. -/
def op (d : Int) : Clock.Op → Clock.Op
  | .setStart t => .setStart (t + d)
  | o => o

theorem resetNum_clock (s : Clock.State) (d : Int) : Clock.resetNum (clock d s) = (Clock.resetNum s).map (clock d) := by
  obtain ⟨a, ts, b, c, e, f, g, h, i⟩ := s
  cases ts with
  | none => rfl
  | some t => by_cases ht : t = 0 <;> simp [Clock.resetNum, clock, ht] <;> rfl

theorem setTimeStep_clock (s : Clock.State) (d : Int) (x : Clock.StepArg) :
    Clock.setTimeStep (clock d s) x = (clock d (Clock.setTimeStep s x).1, (Clock.setTimeStep s x).2) := by
  have h := resetNum_clock { s with ts := some x.us } d
  unfold Clock.setTimeStep
  have e : ({ clock d s with ts := some x.us } : Clock.State) = clock d { s with ts := some x.us } := rfl
  simp only [e, h]
  cases Clock.resetNum { s with ts := some x.us } <;> rfl

theorem setDuration_clock (s : Clock.State) (d x : Int) :
    Clock.setDuration (clock d s) x = (clock d (Clock.setDuration s x).1, (Clock.setDuration s x).2) := by
  unfold Clock.setDuration
  have e : (if x < (clock d s).dur then Clock.rewind (clock d s) else clock d s) = clock d (if x < s.dur then Clock.rewind s else s) := by
    by_cases h : x < s.dur
    · rw [if_pos h]; exact if_pos h
    · rw [if_neg h]; exact if_neg h
  rw [e]
  have e2 : ∀ y : Clock.State, ({ clock d y with dur := x } : Clock.State) = clock d { y with dur := x } := fun _ => rfl
  simp only [e2, resetNum_clock]
  cases Clock.resetNum { (if x < s.dur then Clock.rewind s else s) with dur := x } <;> rfl

theorem setBackward_clock (s : Clock.State) (d : Int) (b : Bool) :
    Clock.setBackward (clock d s) b = (clock d (Clock.setBackward s b).1, (Clock.setBackward s b).2) := by
  obtain ⟨a, ts, dur, bw, e, f, g, h, i⟩ := s
  by_cases hb : bw = b
  · simp [Clock.setBackward, clock, hb]
  · have hz : ∀ t : Int, 0 < t → -t ≠ 0 := fun t ht => by omega
    cases b <;> cases ts with
    | none => simp [Clock.setBackward, clock, hb, Clock.rewind]
    | some t =>
        first
        | (by_cases ht : 0 < t
           · have : t ≠ 0 := by omega
             simp [Clock.setBackward, clock, hb, Clock.rewind, ht, Clock.setTimeStep, Clock.resetNum, Clock.StepArg.us, this]
           · simp [Clock.setBackward, clock, hb, Clock.rewind, ht])
        | (by_cases ht : t < 0
           · have : t ≠ 0 := by omega
             simp [Clock.setBackward, clock, hb, Clock.rewind, ht, Clock.setTimeStep, Clock.resetNum, Clock.StepArg.us, this]
           · simp [Clock.setBackward, clock, hb, Clock.rewind, ht])

theorem setupStep_clock (s : Clock.State) (d auto : Int) : Clock.setupStep (clock d s) auto = (Clock.setupStep s auto).map (clock d) := by
  unfold Clock.setupStep
  obtain ⟨a, ts, b, c, e, f, g, h, i⟩ := s
  cases ts with
  | none => exact resetNum_clock ⟨a, some auto, b, c, e, f, g, h, i⟩ d
  | some t => rfl

theorem step_clock (s : Clock.State) (d auto : Int) (o : Clock.Outcome) :
    Clock.step (clock d s) auto o = (clock d (Clock.step s auto o).1, seen d (Clock.step s auto o).2) := by
  by_cases hn : s.n = -1
  · have hn' : (clock d s).n = -1 := hn
    unfold Clock.step
    simp only [if_pos hn, if_pos hn', setupStep_clock]
    cases o with
    | failSetup => rfl
    | ok =>
        cases Clock.setupStep s auto with
        | error e => rfl
        | ok s1 =>
            obtain ⟨a, ts, dur, bw, e, f, g, h, i⟩ := s1
            cases ts with
            | none => rfl
            | some t => simp [Except.map, clock, Clock.setCurrent, seen, Clock.isLast, add_right_comm]; exact decide_eq_decide.2 Iff.rfl
    | failBefore =>
        cases Clock.setupStep s auto with
        | error e => rfl
        | ok s1 =>
            obtain ⟨a, ts, dur, bw, e, f, g, h, i⟩ := s1
            cases ts <;> rfl
    | failAfter =>
        cases Clock.setupStep s auto with
        | error e => rfl
        | ok s1 =>
            obtain ⟨a, ts, dur, bw, e, f, g, h, i⟩ := s1
            cases ts with
            | none => rfl
            | some t => simp [Except.map, clock, Clock.setCurrent, seen]; omega
  · have hn' : ¬ (clock d s).n = -1 := hn
    unfold Clock.step
    simp only [if_neg hn, if_neg hn']
    obtain ⟨a, ts, dur, bw, e, f, g, h, i⟩ := s
    cases g with
    | none => rfl
    | some m =>
        cases ts with
        | none => rfl
        | some t =>
            by_cases hm : e ≥ m - 1
            · simp [clock, seen, hm]
            · cases o <;> simp [clock, Clock.setCurrent, seen, Clock.isLast, hm] <;> omega

/-- Whatever is done to two models, the second a moved copy of the first, the second stays a moved copy. -/
theorem C350_clock (s : Clock.State) (d : Int) (ops : List Clock.Op) :
    (ops.map (op d)).foldl Clock.exec (clock d s) = clock d (ops.foldl Clock.exec s) := by
  induction ops generalizing s with
  | nil => rfl
  | cons o l ih =>
      rw [List.map_cons, List.foldl_cons, List.foldl_cons, ← ih]
      congr 1
      cases o with
      | step auto o => exact congrArg Prod.fst (step_clock s d auto o)
      | rewind => rfl
      | setStart t => rfl
      | setTimeStep a => exact congrArg Prod.fst (setTimeStep_clock s d a)
      | setDuration x => exact congrArg Prod.fst (setDuration_clock s d x)
      | setBackward b => exact congrArg Prod.fst (setBackward_clock s d b)
      | setUncertain u =>
          by_cases h : s.uncertain = u
          · simp [Clock.exec, op, Clock.setUncertain, clock, h]
          · simp [Clock.exec, op, Clock.setUncertain, clock, h, Clock.rewind]
      | setMap => rfl

/-- A full run of the moved model has the same steps, each at the moved time. -/
theorem C350_full_run (s : Clock.State) (d auto : Int) (fuel : Nat) :
    Clock.fullRun auto fuel (clock d s) = (Clock.fullRun auto fuel s).map fun r => (clock d r.1, r.2.map (seen d)) := by
  have : ∀ fuel (s : Clock.State), Clock.loop auto fuel (clock d s) = (Clock.loop auto fuel s).map fun r => (clock d r.1, r.2.map (seen d)) := by
    intro fuel
    induction fuel with
    | zero => intro s; rfl
    | succ n ih =>
        intro s
        simp only [Clock.loop, step_clock]
        rcases Clock.step s auto .ok with ⟨s', x⟩
        cases x with
        | output a b c =>
            simp only [seen, ih]
            cases Clock.loop auto n s' <;> rfl
        | stop => rfl
        | error => rfl
  exact this fuel (Clock.rewind s)

/-- Cases: an active range, a release over two hours and an outputter that starts later, all moved by a day. -/
example : (InfDate.Process.prepareStep ⟨true, (.fin 86400000000, .inf), true⟩ 86400000000 900).active = true ∧
    (InfDate.Process.prepareStep ⟨true, (.fin 0, .inf), true⟩ 0 900).active = true ∧
    (Release.prepare { rt := 0, dur := 7200, amount := .total 10, mass := 5 } 3600).isSome ∧
    Output.written (outp 86400 { ostart := some 1800, ots := some 3600 }) 86400 900 8 2 = true ∧
    Output.written { ostart := some 1800, ots := some 3600 } 0 900 8 1 = false := by
  refine ⟨by decide, by decide, by decide +kernel, by decide, by decide⟩

end Verif.Run.Shift
