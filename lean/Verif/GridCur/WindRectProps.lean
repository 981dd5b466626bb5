import Verif.GridCur.WindRectModel
import Mathlib.Tactic.NormNum
/-
C231: an element in a gridded wind is moved by the wind of the nearest point of
the file.
C232: what is reported of a gridded wind is the wind that moves elements.
-/
namespace Verif.GridCur.WindRect

/-- A file has at least two latitudes and longitudes, and they change. -/
structure Good (f : File) : Prop where
  rows : 2 ≤ f.rows
  cols : 2 ≤ f.cols
  lat : f.lat0 ≠ f.lat1
  lon : f.lon0 ≠ f.lon1
  time : f.t0 < f.t1

/-- Specification: latitude number `k` and longitude number `j` of an evenly
spaced file, longitudes moved west of 180. -/
def nodeLat (f : File) (k : ℚ) : ℚ := f.lat0 + k * ((f.lat1 - f.lat0) / (f.rows - 1))

def nodeLon (f : File) (j : ℚ) : ℚ :=
  f.lon0 + j * ((f.lon1 - f.lon0) / (f.cols - 1)) - (if 180 < f.lon0 then 360 else 0)

/-- Specification: the value of a record, with calm where it is missing. -/
def value (f : File) (r : Nat → Nat → ℚ) (k j : Nat) : ℚ := if r k j = f.fill then 0 else r k j

/-- Specification: straight line in time between the two records, in the units
of the file's scale. -/
def windAt (f : File) (t : ℚ) (k j : Nat) : ℚ :=
  (value f f.rec0 k j + (t - f.t0) / (f.t1 - f.t0) * (value f f.rec1 k j - value f f.rec0 k j)) * f.scale

/-! ### lemmas -/

theorem dLat_ne {f : File} (h : Good f) : dLat f ≠ 0 := by
  have h1 : (2 : ℚ) ≤ f.rows := by exact_mod_cast h.rows
  unfold dLat
  exact div_ne_zero (sub_ne_zero.mpr h.lat.symm) (by linarith)

theorem dLon_ne {f : File} (h : Good f) : dLon f ≠ 0 := by
  have h1 : (2 : ℚ) ≤ f.cols := by exact_mod_cast h.cols
  unfold dLon
  exact div_ne_zero (sub_ne_zero.mpr h.lon.symm) (by linarith)

theorem lat_span {f : File} (h : Good f) : hiLat f - loLat f = f.rows * dLat f := by
  have h1 : (2 : ℚ) ≤ f.rows := by exact_mod_cast h.rows
  have h2 : (f.rows : ℚ) - 1 ≠ 0 := by linarith
  unfold hiLat loLat dLat
  field_simp
  ring

theorem lon_span {f : File} (h : Good f) : hiLon f - loLon f = f.cols * dLon f := by
  have h1 : (2 : ℚ) ≤ f.cols := by exact_mod_cast h.cols
  have h2 : (f.cols : ℚ) - 1 ≠ 0 := by linarith
  unfold hiLon loLon dLon
  field_simp
  ring

/-- The number of rows from the last latitude. -/
theorem row_pos {f : File} (h : Good f) (s : ℚ) :
    toGrid (loLat f) (hiLat f) f.rows 0 (nodeLat f s) - 1 / 2 = (f.rows : ℚ) - 1 - s := by
  have h1 : (2 : ℚ) ≤ f.rows := by exact_mod_cast h.rows
  have h3 : (f.rows : ℚ) ≠ 0 := by linarith
  have h4 := dLat_ne h
  have h5 : nodeLat f s = f.lat0 + s * dLat f := rfl
  unfold toGrid
  rw [lat_span h, h5]
  unfold loLat
  field_simp
  ring

theorem col_pos {f : File} (h : Good f) (s : ℚ) :
    toGrid (loLon f) (hiLon f) 0 f.cols (nodeLon f s) - 1 / 2 = s := by
  have h1 : (2 : ℚ) ≤ f.cols := by exact_mod_cast h.cols
  have h3 : (f.cols : ℚ) ≠ 0 := by linarith
  have h4 := dLon_ne h
  have h5 : nodeLon f s = f.lon0 + s * dLon f - turn f := rfl
  unfold toGrid
  rw [lon_span h, h5]
  unfold loLon
  field_simp
  ring

theorem cround_near {x : ℚ} {n : Int} (h : |x - n| < 1 / 2) : cround x = n := by
  rw [abs_lt] at h
  unfold cround
  split
  · rw [Int.floor_eq_iff]
    constructor <;> linarith [h.1, h.2]
  · have h2 : ⌊-x + 1 / 2⌋ = -n := by
      rw [Int.floor_eq_iff]
      push_cast
      constructor <;> linarith [h.1, h.2]
    omega

theorem cround_abs (x : ℚ) : |x - cround x| ≤ 1 / 2 := by
  unfold cround
  rw [abs_le]
  split
  · have h1 := Int.floor_le (x + 1 / 2)
    have h2 := Int.lt_floor_add_one (x + 1 / 2)
    constructor <;> linarith
  · have h1 := Int.floor_le (-x + 1 / 2)
    have h2 := Int.lt_floor_add_one (-x + 1 / 2)
    push_cast
    constructor <;> linarith

theorem nodeLat_onto {f : File} (h : Good f) (lat : ℚ) : nodeLat f ((lat - f.lat0) / dLat f) = lat := by
  have h4 := dLat_ne h
  change f.lat0 + _ * dLat f = lat
  field_simp
  ring

theorem nodeLon_onto {f : File} (h : Good f) (lon : ℚ) :
    nodeLon f ((lon + turn f - f.lon0) / dLon f) = lon := by
  have h4 := dLon_ne h
  change f.lon0 + _ * dLon f - turn f = lon
  field_simp
  ring

theorem load_node {f : File} (r : Nat → Nat → ℚ) (k j : Nat) (hk : k < f.rows) (hj : j < f.cols) :
    load f r ((f.rows - k - 1) * f.cols + j) = value f r k j := by
  have h1 : ((f.rows - k - 1) * f.cols + j) / f.cols = f.rows - k - 1 := by
    rw [Nat.mul_comm, Nat.mul_add_div (by omega), Nat.div_eq_of_lt hj, Nat.add_zero]
  have h2 : ((f.rows - k - 1) * f.cols + j) % f.cols = j := by
    rw [Nat.mul_comm, Nat.mul_add_mod, Nat.mod_eq_of_lt hj]
  have h3 : f.rows - (f.rows - k - 1) - 1 = k := by omega
  simp only [load, h1, h2, h3, value]

theorem mix {f : File} (h : Good f) (t a b : ℚ) :
    alpha f t * a + (1 - alpha f t) * b = a + (t - f.t0) / (f.t1 - f.t0) * (b - a) := by
  have h1 : f.t1 - f.t0 ≠ 0 := by linarith [h.time]
  unfold alpha
  field_simp
  ring

theorem patValue_of {f : File} (h : Good f) (t : ℚ) {lon lat : ℚ} {k j : Nat} (hk : k < f.rows) (hj : j < f.cols)
    (hr : rowNum f lat = (f.rows : Int) - 1 - k) (hc : colNum f lon = j) :
    patValue f t lon lat = windAt f t k j := by
  have h1 : velIndex f lon lat = some ((f.rows - k - 1) * f.cols + j) := by
    unfold velIndex
    rw [hr, hc, if_neg (by omega)]
    congr 2
    congr 1
    omega
  unfold patValue
  rw [h1]
  simp only [load_node _ k j hk hj, mix h]
  rfl

/-! ### C231 -/

/-- A point nearer to node `(k, j)` than half a spacing (in each direction) has
the wind of that node of the file, in time between the two records. -/
theorem C231_nearest (f : File) (h : Good f) (t lon lat : ℚ) (k j : Nat) (hk : k < f.rows) (hj : j < f.cols)
    (h1 : |lat - nodeLat f k| < |(f.lat1 - f.lat0) / (f.rows - 1)| / 2)
    (h2 : |lon - nodeLon f j| < |(f.lon1 - f.lon0) / (f.cols - 1)| / 2) :
    patValue f t lon lat = windAt f t k j := by
  apply patValue_of h t hk hj
  · unfold rowNum
    apply cround_near
    have h3 := nodeLat_onto h lat
    have h4 := row_pos h ((lat - f.lat0) / dLat f)
    rw [h3] at h4
    rw [h4]
    push_cast
    have hd : 0 < |dLat f| := abs_pos.mpr (dLat_ne h)
    have h5 : lat - nodeLat f k = ((lat - f.lat0) / dLat f - k) * dLat f := by
      have := dLat_ne h
      change lat - (f.lat0 + k * dLat f) = _
      field_simp
      ring
    rw [h5, abs_mul] at h1
    change _ < |dLat f| / 2 at h1
    have h6 : |(lat - f.lat0) / dLat f - k| < 1 / 2 := by
      by_contra hc
      rw [not_lt] at hc
      have := mul_le_mul_of_nonneg_right hc hd.le
      linarith
    have h7 : (f.rows : ℚ) - 1 - (lat - f.lat0) / dLat f - ((f.rows : ℚ) - 1 - k) =
        -((lat - f.lat0) / dLat f - k) := by ring
    rw [h7, abs_neg]
    exact h6
  · unfold colNum
    apply cround_near
    have h3 := nodeLon_onto h lon
    have h4 := col_pos h ((lon + turn f - f.lon0) / dLon f)
    rw [h3] at h4
    rw [h4]
    push_cast
    have hd : 0 < |dLon f| := abs_pos.mpr (dLon_ne h)
    have h5 : lon - nodeLon f j = ((lon + turn f - f.lon0) / dLon f - j) * dLon f := by
      have := dLon_ne h
      change lon - (f.lon0 + j * dLon f - turn f) = _
      field_simp
      ring
    rw [h5, abs_mul] at h2
    change _ < |dLon f| / 2 at h2
    by_contra hc
    rw [not_lt] at hc
    have := mul_le_mul_of_nonneg_right hc hd.le
    linarith

/-- Everywhere: either the wind is calm and the point is half a spacing or more
away from every node in one of the directions, or it is the wind of a node at
most half a spacing away. -/
theorem C231_everywhere (f : File) (h : Good f) (t lon lat : ℚ) :
    (∃ k j : Nat, k < f.rows ∧ j < f.cols ∧ |lat - nodeLat f k| ≤ |(f.lat1 - f.lat0) / (f.rows - 1)| / 2 ∧
      |lon - nodeLon f j| ≤ |(f.lon1 - f.lon0) / (f.cols - 1)| / 2 ∧
      patValue f t lon lat = windAt f t k j) ∨
    (patValue f t lon lat = 0 ∧
      ((∀ k : Nat, k < f.rows → |(f.lat1 - f.lat0) / (f.rows - 1)| / 2 ≤ |lat - nodeLat f k|) ∨
       (∀ j : Nat, j < f.cols → |(f.lon1 - f.lon0) / (f.cols - 1)| / 2 ≤ |lon - nodeLon f j|))) := by
  have hr := cround_abs (toGrid (loLat f) (hiLat f) f.rows 0 lat - 1 / 2)
  have hc := cround_abs (toGrid (loLon f) (hiLon f) 0 f.cols lon - 1 / 2)
  change |_ - ((rowNum f lat : Int) : ℚ)| ≤ _ at hr
  change |_ - ((colNum f lon : Int) : ℚ)| ≤ _ at hc
  have hrp := row_pos h ((lat - f.lat0) / dLat f)
  rw [nodeLat_onto h lat] at hrp
  have hcp := col_pos h ((lon + turn f - f.lon0) / dLon f)
  rw [nodeLon_onto h lon] at hcp
  have hy : ∀ k : ℚ, |lat - nodeLat f k| = |(lat - f.lat0) / dLat f - k| * |dLat f| := by
    intro k
    rw [← abs_mul]
    congr 1
    have := dLat_ne h
    change lat - (f.lat0 + k * dLat f) = _
    field_simp
    ring
  have hx : ∀ j : ℚ, |lon - nodeLon f j| = |(lon + turn f - f.lon0) / dLon f - j| * |dLon f| := by
    intro j
    rw [← abs_mul]
    congr 1
    have := dLon_ne h
    change lon - (f.lon0 + j * dLon f - turn f) = _
    field_simp
    ring
  have hdy : 0 < |dLat f| := abs_pos.mpr (dLat_ne h)
  have hdx : 0 < |dLon f| := abs_pos.mpr (dLon_ne h)
  change (∃ k j : Nat, k < f.rows ∧ j < f.cols ∧ |lat - nodeLat f k| ≤ |dLat f| / 2 ∧
      |lon - nodeLon f j| ≤ |dLon f| / 2 ∧ _) ∨ (_ ∧
      ((∀ k : Nat, k < f.rows → |dLat f| / 2 ≤ |lat - nodeLat f k|) ∨
       (∀ j : Nat, j < f.cols → |dLon f| / 2 ≤ |lon - nodeLon f j|)))
  rw [hrp] at hr
  rw [hcp] at hc
  by_cases hin : colNum f lon < 0 ∨ colNum f lon ≥ f.cols ∨ rowNum f lat < 0 ∨ rowNum f lat ≥ f.rows
  · right
    refine ⟨by simp only [patValue, velIndex, if_pos hin], ?_⟩
    by_cases hcol : colNum f lon < 0 ∨ colNum f lon ≥ f.cols
    · right
      intro j hj
      rw [hx]
      have hg : 1 / 2 ≤ |(lon + turn f - f.lon0) / dLon f - j| := by
        by_contra hlt
        rw [not_le] at hlt
        have he : colNum f lon = j := by
          unfold colNum
          rw [hcp]
          exact cround_near (by push_cast; exact hlt)
        omega
      have := mul_le_mul_of_nonneg_right hg hdx.le
      linarith
    · left
      intro k hk
      rw [hy]
      have hg : 1 / 2 ≤ |(lat - f.lat0) / dLat f - k| := by
        by_contra hlt
        rw [not_le] at hlt
        have he : rowNum f lat = (f.rows : Int) - 1 - k := by
          unfold rowNum
          rw [hrp]
          apply cround_near
          push_cast
          have h7 : (f.rows : ℚ) - 1 - (lat - f.lat0) / dLat f - ((f.rows : ℚ) - 1 - k) =
            -((lat - f.lat0) / dLat f - k) := by ring
          rw [h7, abs_neg]
          exact hlt
        omega
      have := mul_le_mul_of_nonneg_right hg hdy.le
      linarith
  · left
    refine ⟨((f.rows : Int) - 1 - rowNum f lat).toNat, (colNum f lon).toNat, by omega, by omega, ?_, ?_, ?_⟩
    · have e1 : (((((f.rows : Int) - 1 - rowNum f lat).toNat : Nat)) : ℚ) = (f.rows : ℚ) - 1 - rowNum f lat := by
        have : ((((f.rows : Int) - 1 - rowNum f lat).toNat : Nat) : Int) = (f.rows : Int) - 1 - rowNum f lat :=
          Int.toNat_of_nonneg (by omega)
        have h2 := congrArg (fun z : Int => (z : ℚ)) this
        push_cast at h2
        exact h2
      rw [hy, e1]
      have e2 : |(lat - f.lat0) / dLat f - ((f.rows : ℚ) - 1 - rowNum f lat)| ≤ 1 / 2 := by
        have h7 : (lat - f.lat0) / dLat f - ((f.rows : ℚ) - 1 - rowNum f lat) =
          -((f.rows : ℚ) - 1 - (lat - f.lat0) / dLat f - rowNum f lat) := by ring
        rw [h7, abs_neg]
        exact hr
      have := mul_le_mul_of_nonneg_right e2 hdy.le
      linarith
    · have e1 : (((colNum f lon).toNat : Nat) : ℚ) = colNum f lon := by
        have : (((colNum f lon).toNat : Nat) : Int) = colNum f lon := Int.toNat_of_nonneg (by omega)
        exact_mod_cast congrArg (fun z : Int => (z : ℚ)) this
      rw [hx, e1]
      have := mul_le_mul_of_nonneg_right hc hdx.le
      linarith
    · apply patValue_of h t (by omega) (by omega) <;> omega

/-- In time: at the time of a record it is the record, and in between it is
between the two. -/
theorem C231_time (f : File) (h : Good f) (k j : Nat) :
    windAt f f.t0 k j = value f f.rec0 k j * f.scale ∧ windAt f f.t1 k j = value f f.rec1 k j * f.scale ∧
    ∀ t, f.t0 ≤ t → t ≤ f.t1 → 0 ≤ f.scale →
      min (value f f.rec0 k j * f.scale) (value f f.rec1 k j * f.scale) ≤ windAt f t k j ∧
      windAt f t k j ≤ max (value f f.rec0 k j * f.scale) (value f f.rec1 k j * f.scale) := by
  have h1 : 0 < f.t1 - f.t0 := by linarith [h.time]
  refine ⟨by simp [windAt], by simp [windAt, h1.ne'], ?_⟩
  intro t ht0 ht1 _
  have hw0 : 0 ≤ (t - f.t0) / (f.t1 - f.t0) := div_nonneg (by linarith) h1.le
  have hw1 : (t - f.t0) / (f.t1 - f.t0) ≤ 1 := (div_le_one h1).mpr (by linarith)
  unfold windAt
  generalize (t - f.t0) / (f.t1 - f.t0) = w at hw0 hw1
  generalize value f f.rec0 k j = a
  generalize value f f.rec1 k j = b
  have e : (a + w * (b - a)) * f.scale = (1 - w) * (a * f.scale) + w * (b * f.scale) := by ring
  rw [e]
  generalize a * f.scale = A
  generalize b * f.scale = B
  constructor
  · have h2 := mul_le_mul_of_nonneg_left (min_le_left A B) (by linarith : 0 ≤ 1 - w)
    have h3 := mul_le_mul_of_nonneg_left (min_le_right A B) hw0
    linarith
  · have h2 := mul_le_mul_of_nonneg_left (le_max_left A B) (by linarith : 0 ≤ 1 - w)
    have h3 := mul_le_mul_of_nonneg_left (le_max_right A B) hw0
    linarith

/-- The displacement: windage times the scaled wind for the step, for floating
elements; none for elements under water or not in the water. -/
theorem C231_move (f : File) (h : Good f) (windScale perDegree t dt : ℚ) (e : Elem) (hp : perDegree ≠ 0) :
    ((e.inWater = false ∨ 0 < e.z) → move f windScale perDegree t dt e = 0) ∧
    (e.inWater = true → e.z ≤ 0 → ∀ k j : Nat, k < f.rows → j < f.cols →
      |e.lat - nodeLat f k| < |(f.lat1 - f.lat0) / (f.rows - 1)| / 2 →
      |e.lon - nodeLon f j| < |(f.lon1 - f.lon0) / (f.cols - 1)| / 2 →
      move f windScale perDegree t dt e * perDegree = e.windage * (windScale * windAt f t k j) * dt) := by
  refine ⟨?_, ?_⟩
  · rintro (hw | hz)
    · simp [move, hw]
    · simp only [move, if_pos hz]
      split <;> rfl
  · intro hw hz k j hk hj h1 h2
    have hz' : ¬ 0 < e.z := not_lt.mpr hz
    simp only [move, hw, if_true, if_neg hz', C231_nearest f h t e.lon e.lat k j hk hj h1 h2]
    field_simp

/-- A file of 3 latitudes (48 to 50) and 3 longitudes (230 to 232) with a missing value. -/
def sample : File where
  lat0 := 48
  lat1 := 50
  lon0 := 230
  lon1 := 232
  rows := 3
  cols := 3
  t0 := 0
  t1 := 3600
  rec0 := fun k j => 10 * k + j
  rec1 := fun k j => 10 * k + j + 2
  fill := 11
  scale := 1

theorem sample_good : Good sample := ⟨by decide, by decide, by decide +kernel, by decide +kernel, by decide +kernel⟩

example : patValue sample 1800 (-1296 / 10) (497 / 10) = 21 := by decide +kernel
example : patValue sample 1800 (-1296 / 10) (496 / 10) = windAt sample 1800 2 0 :=
  C231_nearest sample sample_good _ _ _ 2 0 (by decide) (by decide) (by decide +kernel) (by decide +kernel)
example : patValue sample 0 (-129) 49 = 0 ∧ patValue sample 3600 (-129) 49 = 13 := by decide +kernel
example : move sample 2 111120 0 900 ⟨true, 0, 3 / 100, -130, 50⟩ * 111120 = 3 / 100 * (2 * 20) * 900 := by
  decide +kernel

/-! ### C232 -/

/-- The claim: at each reported point the reported wind is the wind that moves
an element there. -/
def C232_claim : Prop :=
  ∀ (f : File) (windScale perDegree t dt windage : ℚ), Good f → f.t0 ≤ t → t ≤ f.t1 → perDegree ≠ 0 →
    ∀ i j : Nat, i < f.rows → j < f.cols →
      move f windScale perDegree t dt ⟨true, 0, windage, pointLon f j, pointLat f i⟩ * perDegree =
        windage * reported f t i j * dt

/-- Not so at an inner point: the reported wind is a tenth. -/
theorem C232_counterexample_tenth :
    move sample 1 1 3600 1 ⟨true, 0, 1, pointLon sample 1, pointLat sample 1⟩ = 13 ∧
      reported sample 3600 1 1 = 13 / 10 := by decide +kernel

/-- Not so at the outer points: they lie on the edge of the area, where no wind
is applied. -/
theorem C232_counterexample_edge :
    move sample 1 1 0 1 ⟨true, 0, 1, pointLon sample 2, pointLat sample 2⟩ = 0 ∧
      reported sample 0 2 2 = 22 / 10 := by decide +kernel

/-- The scale set by the user moves elements but is not reported. -/
theorem C232_counterexample_scale :
    (move sample 2 1 3600 1 ⟨true, 0, 1, pointLon sample 1, pointLat sample 1⟩ = 26 ∧
      reported sample 3600 1 1 = 13 / 10) := by decide +kernel

theorem C232_counterexample : ¬ C232_claim := by
  intro h
  have h1 := h sample 1 1 3600 1 1 sample_good (by decide +kernel) (by decide +kernel) (by decide +kernel) 1 1
    (by decide) (by decide)
  revert h1
  decide +kernel

/-- What holds: entry `k * cols + j` reports a tenth of the wind of latitude
`k` and longitude `j` of the file. -/
theorem C232_reported_partial (f : File) (h : Good f) (t : ℚ) (k j : Nat) (hk : k < f.rows) (hj : j < f.cols) :
    reported f t k j * 10 = windAt f t k j := by
  simp only [reported, load_node _ k j hk hj, mix h]
  rw [div_mul_cancel₀ _ (by norm_num)]
  rfl

/-- What holds at inner points: the element at the reported point is moved by
ten times the reported wind times the scale. -/
theorem C232_inner_partial (f : File) (h : Good f) (windScale perDegree t dt windage : ℚ) (hp : perDegree ≠ 0)
    (i j : Nat) (hi0 : 0 < i) (hi : i + 1 < f.rows) (hj0 : 0 < j) (hj : j + 1 < f.cols) :
    move f windScale perDegree t dt ⟨true, 0, windage, pointLon f j, pointLat f i⟩ * perDegree =
      windage * (windScale * (10 * reported f t i j)) * dt := by
  have hr : (i : ℚ) + 1 < f.rows := by exact_mod_cast hi
  have hc : (j : ℚ) + 1 < f.cols := by exact_mod_cast hj
  have hi1 : (0 : ℚ) < i := by exact_mod_cast hi0
  have hj1 : (0 : ℚ) < j := by exact_mod_cast hj0
  have key : ∀ (n m : ℚ), 0 < m → m + 1 < n → |m / (n - 1) - 1 / 2| < 1 / 2 := by
    intro n m h1 h2
    have h3 : 0 < n - 1 := by linarith
    have h4 : 0 < m / (n - 1) := div_pos h1 h3
    have h5 : m / (n - 1) < 1 := (div_lt_one h3).mpr (by linarith)
    rw [abs_lt]
    constructor <;> linarith
  have e1 : pointLat f i - nodeLat f i = ((i : ℚ) / (f.rows - 1) - 1 / 2) * dLat f := by
    have h3 : (f.rows : ℚ) - 1 ≠ 0 := by linarith
    unfold pointLat
    rw [lat_span h]
    change loLat f + _ - (f.lat0 + i * dLat f) = _
    unfold loLat
    field_simp
    ring
  have e2 : pointLon f j - nodeLon f j = ((j : ℚ) / (f.cols - 1) - 1 / 2) * dLon f := by
    have h3 : (f.cols : ℚ) - 1 ≠ 0 := by linarith
    unfold pointLon
    rw [lon_span h]
    change loLon f + _ - (f.lon0 + j * dLon f - turn f) = _
    unfold loLon
    field_simp
    ring
  have hdy : 0 < |dLat f| := abs_pos.mpr (dLat_ne h)
  have hdx : 0 < |dLon f| := abs_pos.mpr (dLon_ne h)
  have hm := (C231_move f h windScale perDegree t dt ⟨true, 0, windage, pointLon f j, pointLat f i⟩ hp).2 rfl
    (le_refl (0 : ℚ)) i j (by omega) (by omega)
    (by
      change |pointLat f i - nodeLat f i| < |dLat f| / 2
      rw [e1, abs_mul]
      have := mul_lt_mul_of_pos_right (key f.rows i hi1 hr) hdy
      linarith)
    (by
      change |pointLon f j - nodeLon f j| < |dLon f| / 2
      rw [e2, abs_mul]
      have := mul_lt_mul_of_pos_right (key f.cols j hj1 hc) hdx
      linarith)
  rw [hm, ← C232_reported_partial f h t i j (by omega) (by omega), mul_comm 10]

example : move sample 3 111120 600 900 ⟨true, 0, 2 / 100, pointLon sample 1, pointLat sample 1⟩ * 111120 =
    2 / 100 * (3 * (10 * reported sample 600 1 1)) * 900 :=
  C232_inner_partial sample sample_good _ _ _ _ _ (by decide +kernel) 1 1 (by decide) (by decide) (by decide) (by decide)

/-- The points of the outer rows and columns are half a spacing outside the file's nodes. -/
theorem C232_outer (f : File) (h : Good f) :
    pointLat f 0 = nodeLat f 0 - (f.lat1 - f.lat0) / (f.rows - 1) / 2 ∧
    pointLat f (f.rows - 1) = nodeLat f (f.rows - 1) + (f.lat1 - f.lat0) / (f.rows - 1) / 2 := by
  have h1 : (2 : ℚ) ≤ f.rows := by exact_mod_cast h.rows
  have h2 : (f.rows : ℚ) - 1 ≠ 0 := by linarith
  have h3 : ((f.rows - 1 : Nat) : ℚ) = (f.rows : ℚ) - 1 := by
    rw [Nat.cast_sub (by have := h.rows; omega)]
    simp
  constructor
  · simp only [pointLat, loLat, nodeLat, dLat]
    push_cast
    ring
  · simp only [pointLat, loLat, hiLat, nodeLat, dLat, h3]
    field_simp
    ring

/-- Row and column of a point by its number. -/
def rowCol (f : File) (p : Nat) : Nat × Nat := (p / f.cols, p % f.cols)

theorem rowCol_of (f : File) (i j : Nat) (hj : j < f.cols) : rowCol f (i * f.cols + j) = (i, j) := by
  unfold rowCol
  rw [Nat.mul_comm, Nat.mul_add_div (by omega), Nat.div_eq_of_lt hj, Nat.mul_add_mod, Nat.mod_eq_of_lt hj, Nat.add_zero]

/-- The corners of a cell are in the grid and go round it. -/
theorem C232_cells (f : File) (i j : Nat) (hi : i + 1 < f.rows) (hj : j + 1 < f.cols) :
    (corners f i j).map (rowCol f) = [(i, j), (i, j + 1), (i + 1, j + 1), (i + 1, j)] ∧
    ∀ p ∈ corners f i j, p < f.rows * f.cols := by
  constructor
  · have e : ∀ a b : Nat, a * f.cols + b + 1 = a * f.cols + (b + 1) := fun a b => by omega
    simp only [corners, List.map_cons, List.map_nil, e]
    rw [rowCol_of _ _ _ (by omega), rowCol_of _ _ _ hj, rowCol_of _ _ _ hj, rowCol_of _ _ _ (by omega)]
  · have h1 : (i + 2) * f.cols ≤ f.rows * f.cols := Nat.mul_le_mul_right _ (by omega)
    have h2 : (i + 2) * f.cols = i * f.cols + f.cols + f.cols := by ring
    have h3 : (i + 1) * f.cols = i * f.cols + f.cols := by ring
    intro p hp
    simp only [corners, List.mem_cons, List.not_mem_nil, or_false, h3] at hp
    omega

example : (corners sample 1 1).map (rowCol sample) = [(1, 1), (1, 2), (2, 2), (2, 1)] :=
  (C232_cells sample 1 1 (by decide) (by decide)).1

end Verif.GridCur.WindRect
