import Mathlib.Data.Rat.Floor
/-!
# Model of releases and spills

Sources: `/repo/py_gnome/gnome/spills/release.py`, `spills/spill.py`, `environment/timeseries_objects_base.py`.
Times are rationals (seconds), counts naturals, masses rationals; float rounding is not modelled. The third-party class
`gridded.time.Time` is modelled from its documentation: `index_of` is `numpy.searchsorted` (side left) and
`interp_alpha` the linear fraction between the neighbouring times.
-/
namespace Verif.Release

/-- `numpy.searchsorted(ts, t)` (side left) for ascending `ts` -/
def searchsorted (ts : List ℚ) (t : ℚ) : Nat := (ts.takeWhile (· < t)).length

/-- `TimeseriesData.at(None, time, extrapolate=True)` (timeseries_objects_base.py lines 135-170); unit conversion
left out -/
def seriesAt (ts vs : List ℚ) (t : ℚ) : ℚ :=
  if ts.length = 1 then vs.getD 0 0
  else if t ≤ ts.getD 0 0 then vs.getD 0 0
  else if ts.getD (ts.length - 1) 0 < t then vs.getD (vs.length - 1) 0
  else
    let i := searchsorted ts t
    let d0 := vs.getD (i - 1) 0
    let d1 := vs.getD i 0
    let alpha := (t - ts.getD (i - 1) 0) / (ts.getD i 0 - ts.getD (i - 1) 0)
    d0 + (d1 - d0) * alpha

/-- `num_elements` / `num_per_timestep`: exactly one of them is set (release.py lines 180-190, 294-313) -/
inductive Amount where
  | total (n : Nat)
  | perStep (n : Nat)
  deriving DecidableEq, Repr

/-- user settings of a release (release.py lines 129-214). `dur = release_duration ≥ 0` (the setter of
`end_release_time` rejects earlier times, lines 334-350). `start`/`stop` are one coordinate of the start and end
position of a `PointLineRelease`. -/
structure Cfg where
  rt : ℚ
  dur : ℚ
  amount : Amount
  mass : ℚ
  start : ℚ := 0
  stop : ℚ := 0
  deriving DecidableEq

/-- `get_num_release_time_steps` (lines 366-373) -/
def numTs (c : Cfg) (ts : ℚ) : Nat :=
  let r := ⌈c.dur / ts⌉.toNat
  if r = 0 then 1 else r

/-- `max_release` (lines 431-436) -/
def maxRelease (c : Cfg) (ts : ℚ) : Nat :=
  match c.amount with
  | .total n => n
  | .perStep n => n * numTs c ts

/-- `element_timestep_ratio` (lines 352-358) -/
def ratio (c : Cfg) (ts : ℚ) : ℚ :=
  match c.amount with
  | .total n => n / numTs c ts
  | .perStep n => n

/-- time axis of `generate_release_timeseries` (lines 382-393) -/
def times (c : Cfg) (ts : ℚ) : List ℚ :=
  if numTs c ts = 1 then
    if c.dur = 0 then [c.rt, c.rt + c.dur + 1] else [c.rt, c.rt + c.dur]
  else (List.range (numTs c ts)).map (fun (i : Nat) => c.rt + ts * i) ++ [c.rt + c.dur]

/-- `np.linspace(a, b, n + 1)` for `n ≥ 1` -/
def linspace (a b : ℚ) (n : Nat) : List ℚ := (List.range (n + 1)).map (fun (i : Nat) => a + (b - a) * i / n)

/-- values of `generate_release_timeseries` (lines 395-402): `astype(int)` truncates nonnegative values -/
def vals (c : Cfg) (ts : ℚ) : List ℚ :=
  if c.dur = 0 then (times c ts).map (fun _ => (maxRelease c ts : ℚ))
  else (linspace 0 (maxRelease c ts) (numTs c ts)).map (fun x => ((⌊x⌋ : Int) : ℚ))

/-- a release after `prepare_for_model_run` -/
structure Prepared where
  rt : ℚ
  dur : ℚ
  times : List ℚ
  vals : List ℚ
  massPer : ℚ
  pos : List ℚ

/-- `prepare_for_model_run` (lines 417-443) and the position series of `PointLineRelease` (lines 648-668); `none` =
ValueError -/
def prepare (c : Cfg) (ts : ℚ) : Option Prepared :=
  if ts < 1 ∧ c.dur ≠ 0 then none
  else if ratio c ts < 1 then none
  else some { rt := c.rt, dur := c.dur, times := times c ts, vals := vals c ts,
              massPer := c.mass / maxRelease c ts, pos := linspace c.start c.stop (numTs c ts) }

/-- `num_elements_after_time` of a prepared release (lines 404-415) -/
def numAfter (p : Prepared) (t : ℚ) : Int := if t < p.rt then 0 else ⌈seriesAt p.times p.vals t⌉

/-- what a spill remembers between calls: `_num_released` (spill.py), `_previously_released` (release.py) -/
structure Spill where
  numReleased : Int
  previously : ℚ
  deriving DecidableEq

/-- a call of `Spill.release_elements`: interval, whether the spill is on, and volume per element of the substance
(`init_mass/density` is `massPer·spec`) -/
structure Call where
  start : ℚ
  stop : ℚ
  on : Bool := true
  deriving DecidableEq

/-- initial values given to the elements of one release: number, mass, the end points of the line the positions are
spread on, bulk volume -/
structure Batch where
  n : Int
  mass : ℚ
  posA : ℚ
  posB : ℚ
  bulk : ℚ
  deriving DecidableEq

/-- `PointLineRelease.initialize_elements` (lines 680-707): end points of the `linspace` of positions -/
def posRange (p : Prepared) (c : Call) : ℚ × ℚ :=
  let inst := p.dur = 0 ∧ c.start ≠ c.stop ∧ p.rt ≤ c.stop ∧ c.start ≤ p.rt
  let a := if inst then p.rt else c.start
  let b := if inst then p.rt else c.stop
  let b := if a = b then b + 1 else b
  (seriesAt p.times p.pos a, seriesAt p.times p.pos b)

/-- `np.linspace(a, b, n)`: one point is the first end point -/
def npLinspace (a b : ℚ) (n : Nat) : List ℚ :=
  (List.range n).map (fun (i : Nat) => if n = 1 then a else a + (b - a) * i / ((n : ℚ) - 1))

/-- `sc['positions'][-to_rel:]` (one coordinate) after `PointLineRelease.initialize_elements` (lines 693-704) -/
def Batch.positions (b : Batch) : List ℚ := npLinspace b.posA b.posB b.n.toNat

/-- the part of `initialize_elements_post_substance` about the cumulative volume (lines 474-503): `spec` is the specific
volume 1/density of the substance (weatherable), `scale` is `cumulative_time_scale`. -/
def bulkVolume (p : Prepared) (spec scale : ℚ) (s : Spill) (c : Call) (n : Int) : ℚ × ℚ :=
  let v := n * (p.massPer * spec)
  let prev := if c.stop ≤ p.rt + scale then s.previously + v else s.previously
  (prev, if 0 < p.dur then prev else v)

/-- `Spill.release_elements` (spill.py lines 431-464) -/
def releaseElements (p : Prepared) (spec scale : ℚ) (s : Spill) (c : Call) : Spill × Option Batch :=
  if !c.on then (s, none)
  else
    let toRel := numAfter p c.stop - s.numReleased
    if toRel ≤ 0 then (s, none)
    else
      let b := bulkVolume p spec scale s c toRel
      let q := posRange p c
      ({ numReleased := s.numReleased + toRel, previously := b.1 },
        some { n := toRel, mass := p.massPer, posA := q.1, posB := q.2, bulk := b.2 })

/-- a schedule of calls -/
def runCalls (p : Prepared) (spec scale : ℚ) (s : Spill) : List Call → Spill × List Batch
  | [] => (s, [])
  | c :: cs =>
    let r := releaseElements p spec scale s c
    let r2 := runCalls p spec scale r.1 cs
    (r2.1, r.2.toList ++ r2.2)

/-- which `rewind` the release has: `Release.rewind` (lines 249-254) resets the cumulative volume,
`PointLineRelease.rewind` (lines 670-674) does not. -/
inductive Kind where
  | base | pointLine
  deriving DecidableEq

/-- `Spill.rewind` (spill.py lines 415-422) with the release's `rewind` -/
def rewind (k : Kind) (s : Spill) : Spill :=
  { numReleased := 0, previously := if k = .base then 0 else s.previously }

/-- a new spill -/
def fresh : Spill := { numReleased := 0, previously := 0 }

end Verif.Release
