import Mathlib.Tactic.Ring
import Mathlib.Tactic.FieldSimp
import Mathlib.Tactic.Linarith
import Mathlib.Algebra.Order.Field.Rat
import Verif.GridCur.Model

/-!
# C183 – C185: files in the "gridcur" format
-/
namespace Verif.GridCur
open Verif.Py

/-! ## C183: what is written is read -/

theorem pyIdx_nat (n i : Nat) (h : i < n) : pyIdx n (Int.ofNat i + 1 - 1) = some i := by
  unfold pyIdx
  have h0 : Int.ofNat i + 1 - 1 = (i : Int) := by simp
  rw [h0, if_pos (by omega), if_pos (by omega)]
  simp

/-- The lines of some cells. -/
def cellLines (f : Arr) (l : List (Nat × Nat)) : List Line :=
  l.map fun p => Line.cell (Int.ofNat p.1 + 1) (Int.ofNat p.2 + 1) (f p.1 p.2).1 (f p.1 p.2).2

theorem body_cells (valid : List Int → Bool) (g : Grid) (f : Arr) (rest : List Line) (d : List Int) :
    ∀ (l : List (Nat × Nat)) (a : Arr) (acc : List (List Int × Arr)), (∀ p ∈ l, p.1 < g.rows ∧ p.2 < g.cols) →
    body valid g (cellLines f l ++ rest) ((d, a) :: acc) =
      body valid g rest ((d, fun r c => if (r, c) ∈ l then f r c else a r c) :: acc) := by
  intro l
  induction l with
  | nil => intro a acc _; simp [cellLines]
  | cons p l ih =>
    intro a acc hl
    obtain ⟨r, c⟩ := p
    have hp := hl (r, c) (by simp)
    have e : cellLines f ((r, c) :: l) ++ rest =
        Line.cell (Int.ofNat r + 1) (Int.ofNat c + 1) (f r c).1 (f r c).2 :: (cellLines f l ++ rest) := rfl
    rw [e, body, pyIdx_nat _ _ hp.1, pyIdx_nat _ _ hp.2]
    simp only
    rw [ih _ _ (fun q hq => hl q (List.mem_cons_of_mem _ hq))]
    congr 2
    congr 1
    funext r' c'
    by_cases h1 : (r', c') ∈ l
    · simp [h1]
    · by_cases h2 : r' = r ∧ c' = c
      · obtain ⟨rfl, rfl⟩ := h2; simp [h1, Arr.set]
      · have : ¬ ((r', c') = (r, c)) := fun e => h2 (by simpa using e)
        simp [h1, this, Arr.set, h2]

/-- All places of an array. -/
def places (g : Grid) : List (Nat × Nat) := (List.range g.rows).flatMap fun r => (List.range g.cols).map fun c => (r, c)

theorem mem_places (g : Grid) (r c : Nat) : (r, c) ∈ places g ↔ r < g.rows ∧ c < g.cols := by
  simp [places]

theorem timeLines_eq (g : Grid) (p : List Int × Arr) : timeLines g p = .time p.1 :: cellLines p.2 (places g) := by
  unfold timeLines cellLines places
  rw [List.map_flatMap]
  congr 2
  funext r
  rw [List.map_map]; rfl

/-- An array as it is read: nothing outside. -/
def clip (g : Grid) (a : Arr) : Arr := fun r c => if r < g.rows ∧ c < g.cols then a r c else (0, 0)

theorem body_times (valid : List Int → Bool) (g : Grid) : ∀ (l : List (List Int × Arr)) (acc : List (List Int × Arr)),
    (∀ p ∈ l, valid p.1 = true) →
    body valid g (l.flatMap (timeLines g)) acc = some (acc.reverse ++ l.map fun p => (p.1, clip g p.2)) := by
  intro l
  induction l with
  | nil => intro acc _; simp [body]
  | cons p l ih =>
    intro acc hv
    rw [List.flatMap_cons, timeLines_eq, List.cons_append, body, if_pos (hv p (by simp)),
      body_cells valid g p.2 _ p.1 (places g) _ _ (fun q hq => (mem_places g q.1 q.2).mp hq), ih _ (fun q hq => hv q (List.mem_cons_of_mem _ hq))]
    simp only [List.reverse_cons, List.append_assoc, List.singleton_append, List.map_cons]
    congr 3
    simp only [Prod.mk.injEq, true_and]
    funext r c
    simp [mem_places, clip]

theorem gridLines_times (g : Grid) (l : List (List Int × Arr)) (hl : l ≠ []) (info : Dict String ℚ) :
    gridLines (l.flatMap (timeLines g)) info = some (info, l.flatMap (timeLines g)) := by
  cases l with
  | nil => exact absurd rfl hl
  | cons p l => rw [List.flatMap_cons, timeLines_eq]; rfl

/-- **C183**, as one would expect: what `write_gridcur` writes is read as the same grid and velocities. -/
def C183_claim : Prop := ∀ (valid : List Int → Bool) (x : Content) (ls : List Line), x.data ≠ [] → (∀ p ∈ x.data, valid p.1 = true) →
  writeFile x = some ls → ∃ y, readFile valid ls = some y ∧ y.grid = x.grid

/-- A grid with longitudes 0, 1 and 4. -/
def uneven : Content := ⟨false, "m/s", ⟨[0, 1, 4], [0, 1], 3, 2⟩, [([], fun _ _ => (1, 1))]⟩

/-- Only the ends of the longitudes and latitudes are written: a grid with unequal steps is read as another. -/
theorem C183_counterexample : ¬ C183_claim := by
  intro h
  obtain ⟨y, h1, h2⟩ := h (fun _ => true) uneven _ (by simp [uneven]) (by simp) rfl
  have h3 : (readFile (fun _ => true) ((writeFile uneven).getD [])).map (fun y => y.grid.lon) = some [0, 2, 4] := by decide +kernel
  have h4 : (some y).map (fun y : Content => y.grid.lon) = some [0, 1, 4] := by simp [h2, uneven]
  rw [← h1] at h4
  have h5 := h3.symm.trans h4
  revert h5; decide +kernel

theorem linspace_length (a b : ℚ) (n : Nat) : (linspace a b n).length = n := by simp [linspace]

theorem linspace_head (a b : ℚ) (n : Nat) (h : 0 < n) : (linspace a b n).headD 0 = a := by
  obtain ⟨m, rfl⟩ : ∃ m, n = m + 1 := ⟨n - 1, by omega⟩
  unfold linspace
  rw [List.range_succ_eq_map]
  simp

theorem linspace_last (a b : ℚ) (n : Nat) (h : 1 < n) : (linspace a b n).getLastD 0 = b := by
  obtain ⟨m, rfl⟩ : ∃ m, n = m + 2 := ⟨n - 2, by omega⟩
  unfold linspace
  rw [List.range_succ, List.map_append, List.map_singleton, List.getLastD_concat]
  have hne : ((m : ℚ) + 1) ≠ 0 := by positivity
  push_cast
  have e : (m : ℚ) + 2 - 1 = m + 1 := by ring
  rw [e]
  field_simp
  ring

theorem gridLines_field (k : String) (x : ℚ) (l : List Line) (info : Dict String ℚ) :
    gridLines (.field k x :: l) info = gridLines l (info.set k x) := rfl

/-- **C183** for grids with equal steps, on nodes (at least two each way) or on cells: type, units, grid, times and all velocities are
those that were written. -/
theorem C183_partial (valid : List Int → Bool) (x : Content) (a b a' b' : ℚ)
    (hv : ∀ p ∈ x.data, valid p.1 = true) (hne : x.data ≠ [])
    (hg : (1 < x.grid.rows ∧ 1 < x.grid.cols ∧ x.grid.lon = linspace a b x.grid.rows ∧ x.grid.lat = linspace a' b' x.grid.cols) ∨
      (0 < x.grid.rows ∧ 0 < x.grid.cols ∧ x.grid.lon = linspace a b (x.grid.rows + 1) ∧ x.grid.lat = linspace a' b' (x.grid.cols + 1))) :
    ∃ ls y, writeFile x = some ls ∧ readFile valid ls = some y ∧ y.wind = x.wind ∧ y.units = x.units ∧ y.grid = x.grid ∧
      y.data.map Prod.fst = x.data.map Prod.fst ∧
      ∀ (k r c : Nat) (p : List Int × Arr), x.data[k]? = some p → r < x.grid.rows → c < x.grid.cols →
        (y.data[k]?).map (fun q => q.2 r c) = some (p.2 r c) := by
  obtain ⟨wind, units, ⟨lon, lat, rows, cols⟩, data⟩ := x
  simp only at hg hv hne ⊢
  have fl : ∀ n : Nat, (n : ℚ).floor.toNat = n := by
    intro n
    have : (n : ℚ).floor = (n : Int) := by
      have := Int.floor_natCast (R := ℚ) n
      exact this
    rw [this]; simp
  have fin : ∀ ls, findHeader ls = some (wind, units, ls.tail) → ∀ info, gridLines ls.tail [] =
      some (info, data.flatMap (timeLines ⟨lon, lat, rows, cols⟩)) → mkGrid info = some ⟨lon, lat, rows, cols⟩ →
      ∃ y, readFile valid ls = some y ∧ y.wind = wind ∧ y.units = units ∧ y.grid = ⟨lon, lat, rows, cols⟩ ∧
      y.data.map Prod.fst = data.map Prod.fst ∧
      ∀ (k r c : Nat) (p : List Int × Arr), data[k]? = some p → r < rows → c < cols →
        (y.data[k]?).map (fun q => q.2 r c) = some (p.2 r c) := by
    intro ls h1 info h2 h3
    refine ⟨⟨wind, units, ⟨lon, lat, rows, cols⟩, data.map fun p => (p.1, clip ⟨lon, lat, rows, cols⟩ p.2)⟩, ?_, rfl, rfl, rfl, ?_, ?_⟩
    · unfold readFile
      rw [h1]
      simp only [Option.bind_eq_bind, Option.bind_some]
      rw [h2]
      simp only [Option.bind_some]
      rw [h3]
      simp only [Option.bind_some]
      rw [body_times valid _ data [] hv]
      simp
    · simp
    · intro k r c p hk hr hc
      simp [hk, clip, hr, hc]
  rcases hg with ⟨hr, hc, rfl, rfl⟩ | ⟨hr, hc, rfl, rfl⟩
  · have hw : writeFile ⟨wind, units, ⟨linspace a b rows, linspace a' b' cols, rows, cols⟩, data⟩ =
        some (.header wind units :: .field "NUMROWS" rows :: .field "NUMCOLS" cols :: .field "STARTLAT" a' :: .field "STARTLONG" a ::
          .field "DLAT" ((b' - a') / ((cols : ℚ) - 1)) :: .field "DLONG" ((b - a) / ((rows : ℚ) - 1)) ::
          data.flatMap (timeLines ⟨linspace a b rows, linspace a' b' cols, rows, cols⟩)) := by
      unfold writeFile
      simp only [linspace_length, and_self, if_true]
      rw [if_neg (by omega), linspace_head _ _ _ (by omega), linspace_head _ _ _ (by omega), linspace_last _ _ _ hr, linspace_last _ _ _ hc]
      rfl
    have hr1 : ((rows : ℚ) - 1) ≠ 0 := by
      have : (1 : ℚ) < rows := by exact_mod_cast hr
      linarith
    have hc1 : ((cols : ℚ) - 1) ≠ 0 := by
      have : (1 : ℚ) < cols := by exact_mod_cast hc
      linarith
    have hi : mkGrid [("NUMROWS", (rows : ℚ)), ("NUMCOLS", (cols : ℚ)), ("STARTLAT", a'), ("STARTLONG", a),
        ("DLAT", (b' - a') / ((cols : ℚ) - 1)), ("DLONG", (b - a) / ((rows : ℚ) - 1))] = some ⟨linspace a b rows, linspace a' b' cols, rows, cols⟩ := by
      have e1 : a + (b - a) / ((rows : ℚ) - 1) * ((rows : ℚ) - 1) = b := by field_simp; ring
      have e2 : a' + (b' - a') / ((cols : ℚ) - 1) * ((cols : ℚ) - 1) = b' := by field_simp; ring
      simp [mkGrid, Dict.get?_cons, Dict.has, fl, e1, e2]
    obtain ⟨y, hy⟩ := fin (.header wind units :: .field "NUMROWS" rows :: .field "NUMCOLS" cols :: .field "STARTLAT" a' :: .field "STARTLONG" a ::
          .field "DLAT" ((b' - a') / ((cols : ℚ) - 1)) :: .field "DLONG" ((b - a) / ((rows : ℚ) - 1)) ::
          data.flatMap (timeLines ⟨linspace a b rows, linspace a' b' cols, rows, cols⟩)) rfl _
      (by
        simp only [List.tail_cons, gridLines_field]
        rw [gridLines_times _ _ hne _]
        simp [Dict.set]) hi
    exact ⟨_, y, hw, hy⟩
  · have hw : writeFile ⟨wind, units, ⟨linspace a b (rows + 1), linspace a' b' (cols + 1), rows, cols⟩, data⟩ =
        some (.header wind units :: .field "NUMROWS" rows :: .field "NUMCOLS" cols :: .field "LOLAT" a' :: .field "HILAT" b' ::
          .field "LOLONG" a :: .field "HILONG" b ::
          data.flatMap (timeLines ⟨linspace a b (rows + 1), linspace a' b' (cols + 1), rows, cols⟩)) := by
      unfold writeFile
      simp only [linspace_length]
      rw [if_neg (by omega), if_pos (by simp), linspace_head _ _ _ (by omega), linspace_head _ _ _ (by omega),
        linspace_last _ _ _ (by omega), linspace_last _ _ _ (by omega)]
      rfl
    have hi : mkGrid [("NUMROWS", (rows : ℚ)), ("NUMCOLS", (cols : ℚ)), ("LOLAT", a'), ("HILAT", b'), ("LOLONG", a), ("HILONG", b)] = some ⟨linspace a b (rows + 1), linspace a' b' (cols + 1), rows, cols⟩ := by
      simp [mkGrid, Dict.get?_cons, Dict.has, fl]
    obtain ⟨y, hy⟩ := fin (.header wind units :: .field "NUMROWS" rows :: .field "NUMCOLS" cols :: .field "LOLAT" a' :: .field "HILAT" b' ::
          .field "LOLONG" a :: .field "HILONG" b ::
          data.flatMap (timeLines ⟨linspace a b (rows + 1), linspace a' b' (cols + 1), rows, cols⟩)) rfl _
      (by
        simp only [List.tail_cons, gridLines_field]
        rw [gridLines_times _ _ hne _]
        simp [Dict.set]) hi
    exact ⟨_, y, hw, hy⟩

/-- A file on nodes, three by two, two times. -/
example : ∃ ls y, writeFile ⟨false, "knots", ⟨linspace 0 4 3, linspace 10 11 2, 3, 2⟩,
      [([1], fun r c => (r, c)), ([2], fun r c => (c, r))]⟩ = some ls ∧ readFile (fun _ => true) ls = some y ∧
      (y.data[1]?).map (fun q => q.2 2 1) = some (1, 2) := by
  obtain ⟨ls, y, h1, h2, _, _, _, _, h3⟩ := C183_partial (fun _ => true) ⟨false, "knots", ⟨linspace 0 4 3, linspace 10 11 2, 3, 2⟩,
    [([1], fun r c => (r, c)), ([2], fun r c => (c, r))]⟩ 0 4 10 11 (by simp) (by simp) (Or.inl ⟨by simp, by simp, rfl, rfl⟩)
  exact ⟨ls, y, h1, h2, by simpa using h3 1 2 1 _ rfl (by simp) (by simp)⟩

/-! ## C184: both readers -/

/-- **C184**, as one would expect: the velocity of a line of the file belongs to the same place for both readers. -/
def C184_claim : Prop := ∀ (lat0 lon0 dlat dlon : ℚ) (rows cols r c : Nat), 0 < dlat → 0 < dlon → r < rows → c < cols →
  ∀ lon lat, pyPlace ⟨linspace lon0 (lon0 + dlon * ((rows : ℚ) - 1)) rows, linspace lat0 (lat0 + dlat * ((cols : ℚ) - 1)) cols, rows, cols⟩ r c =
    some (lon, lat) → cIndex (cBounds lat0 lon0 dlat dlon rows cols) rows cols lon lat = some (r, c)

theorem linspace_get (a d : ℚ) (n i : Nat) (h : i < n) : (linspace a (a + d * ((n : ℚ) - 1)) n)[i]? = some (a + i * d) := by
  unfold linspace
  rw [List.getElem?_map, List.getElem?_range h]
  simp only [Option.map_some]
  congr 1
  by_cases h1 : n = 1
  · subst h1
    obtain rfl : i = 0 := by omega
    simp
  · have hn : ((n : ℚ) - 1) ≠ 0 := by
      have : (1 : ℚ) < n := by exact_mod_cast (show 1 < n by omega)
      linarith
    have : a + d * ((n : ℚ) - 1) - a = d * ((n : ℚ) - 1) := by ring
    rw [this, mul_div_assoc, div_self hn, mul_one]

theorem roundC_nat (n : Nat) : roundC (n : ℚ) = n := by
  unfold roundC
  rw [if_pos (by positivity)]
  have : ⌊(n : ℚ) + 1 / 2⌋ = (n : Int) := by
    rw [Int.floor_eq_iff]
    push_cast
    constructor <;> linarith
  exact this

/-- Where the C++ reader puts the velocities: rows from north to south, columns from west to east. -/
theorem C184_native (lat0 lon0 dlat dlon : ℚ) (rows cols r c : Nat) (hla : 0 < dlat) (hlo : 0 < dlon) (hr : r < rows) (hc : c < cols) :
    cIndex (cBounds lat0 lon0 dlat dlon rows cols) rows cols (lon0 + c * dlon) (lat0 + r * dlat) = some (rows - 1 - r, c) := by
  have hR : (0 : ℚ) < rows := by exact_mod_cast (show 0 < rows by omega)
  have hC : (0 : ℚ) < cols := by exact_mod_cast (show 0 < cols by omega)
  unfold cIndex cBounds
  simp only
  have e1 : (lon0 + c * dlon - (lon0 - dlon / 2)) / (lon0 + ((cols : ℚ) - 1) * dlon + dlon / 2 - (lon0 - dlon / 2)) * cols - 1 / 2 = (c : ℚ) := by
    have h1 : lon0 + ((cols : ℚ) - 1) * dlon + dlon / 2 - (lon0 - dlon / 2) = cols * dlon := by ring
    have h2 : lon0 + c * dlon - (lon0 - dlon / 2) = (c + 1 / 2) * dlon := by ring
    rw [h1, h2]
    field_simp
    ring
  have e2 : (rows : ℚ) - (lat0 + r * dlat - (lat0 - dlat / 2)) / (lat0 + ((rows : ℚ) - 1) * dlat + dlat / 2 - (lat0 - dlat / 2)) * rows - 1 / 2 =
      ((rows - 1 - r : Nat) : ℚ) := by
    have h1 : lat0 + ((rows : ℚ) - 1) * dlat + dlat / 2 - (lat0 - dlat / 2) = rows * dlat := by ring
    have h2 : lat0 + r * dlat - (lat0 - dlat / 2) = (r + 1 / 2) * dlat := by ring
    have h3 : ((rows - 1 - r : Nat) : ℚ) = rows - 1 - r := by
      rw [Nat.cast_sub (by omega), Nat.cast_sub (by omega)]; simp
    rw [h1, h2, h3]
    field_simp
    ring
  rw [e1, e2, roundC_nat, roundC_nat, if_neg (by omega)]
  simp

/-- Where the Python reader puts them: rows from west to east, columns from south to north. -/
theorem C184_python (lat0 lon0 dlat dlon : ℚ) (rows cols r c : Nat) (hr : r < rows) (hc : c < cols) :
    pyPlace ⟨linspace lon0 (lon0 + dlon * ((rows : ℚ) - 1)) rows, linspace lat0 (lat0 + dlat * ((cols : ℚ) - 1)) cols, rows, cols⟩ r c =
      some (lon0 + r * dlon, lat0 + c * dlat) := by
  unfold pyPlace
  simp only [linspace_get _ _ _ _ hr, linspace_get _ _ _ _ hc]
  rfl

theorem C184_counterexample : ¬ C184_claim := by
  intro h
  have := h 0 0 1 1 2 2 0 0 (by norm_num) (by norm_num) (by norm_num) (by norm_num) 0 0 (by
    rw [C184_python 0 0 1 1 2 2 0 0 (by norm_num) (by norm_num)]; norm_num)
  have h2 := C184_native 0 0 1 1 2 2 0 0 (by norm_num) (by norm_num) (by norm_num) (by norm_num)
  norm_num at h2
  rw [h2] at this
  simp at this

/-- What holds for as many rows as columns: what the C++ code uses at the place of row `r` and column `c` of the Python code is row
`n - 1 - c`, column `r`: the two fields are the same turned by a right angle, so that they agree in the middle. -/
theorem C184_partial (lat0 lon0 dlat dlon : ℚ) (n r c : Nat) (hla : 0 < dlat) (hlo : 0 < dlon) (hr : r < n) (hc : c < n) :
    ∃ lon lat, pyPlace ⟨linspace lon0 (lon0 + dlon * ((n : ℚ) - 1)) n, linspace lat0 (lat0 + dlat * ((n : ℚ) - 1)) n, n, n⟩ r c = some (lon, lat) ∧
      cIndex (cBounds lat0 lon0 dlat dlon n n) n n lon lat = some (n - 1 - c, r) :=
  ⟨_, _, C184_python lat0 lon0 dlat dlon n n r c hr hc, C184_native lat0 lon0 dlat dlon n n c r hla hlo hc hr⟩

/-- With more columns than rows some velocities of the Python code are where the C++ code has none. -/
theorem C184_outside (lat0 lon0 dlat dlon : ℚ) (rows cols : Nat) (hla : 0 < dlat) (hr : 0 < rows) (h : rows < cols) :
    ∃ lon lat, pyPlace ⟨linspace lon0 (lon0 + dlon * ((rows : ℚ) - 1)) rows, linspace lat0 (lat0 + dlat * ((cols : ℚ) - 1)) cols, rows, cols⟩ 0
      (cols - 1) = some (lon, lat) ∧ cIndex (cBounds lat0 lon0 dlat dlon rows cols) rows cols lon lat = none := by
  refine ⟨_, _, C184_python lat0 lon0 dlat dlon rows cols 0 (cols - 1) hr (by omega), ?_⟩
  have hR : (0 : ℚ) < rows := by exact_mod_cast hr
  unfold cIndex cBounds
  simp only
  have e2 : (rows : ℚ) - (lat0 + ((cols - 1 : Nat) : ℚ) * dlat - (lat0 - dlat / 2)) /
      (lat0 + ((rows : ℚ) - 1) * dlat + dlat / 2 - (lat0 - dlat / 2)) * rows - 1 / 2 = -((cols - rows : Nat) : ℚ) := by
    have h1 : lat0 + ((rows : ℚ) - 1) * dlat + dlat / 2 - (lat0 - dlat / 2) = rows * dlat := by ring
    have h2 : lat0 + ((cols - 1 : Nat) : ℚ) * dlat - (lat0 - dlat / 2) = (cols - 1 + 1 / 2) * dlat := by
      rw [Nat.cast_sub (by omega)]; push_cast; ring
    rw [h1, h2, Nat.cast_sub (by omega)]
    field_simp
    ring
  rw [e2]
  have hpos : (0 : ℚ) < ((cols - rows : Nat) : ℚ) := by exact_mod_cast (show 0 < cols - rows by omega)
  have hneg : roundC (-((cols - rows : Nat) : ℚ)) < 0 := by
    have e := roundC_nat (cols - rows)
    unfold roundC at e ⊢
    rw [if_neg (by linarith), neg_neg]
    rw [if_pos (le_of_lt hpos)] at e
    rw [e]; omega
  rw [if_pos (Or.inr (Or.inr (Or.inl hneg)))]

example : ∃ lon lat, pyPlace ⟨linspace 0 (0 + 1 * (((1 : Nat) : ℚ) - 1)) 1, linspace 0 (0 + 1 * (((2 : Nat) : ℚ) - 1)) 2, 1, 2⟩ 0 (2 - 1) =
    some (lon, lat) ∧ cIndex (cBounds 0 0 1 1 1 2) 1 2 lon lat = none :=
  C184_outside 0 0 1 1 1 2 (by norm_num) (by norm_num) (by norm_num)

/-! ## C185: lines outside the grid -/

/-- **C185**, as one would expect (and as the C++ code does): a line for a row or column that the grid does not have is refused. -/
def C185_claim : Prop := ∀ (valid : List Int → Bool) (g : Grid) (d : List Int) (r c : Int) (u v : ℚ) (l : List Line),
  (r < 1 ∨ r > g.rows ∨ c < 1 ∨ c > g.cols) → body valid g (.time d :: .cell r c u v :: l) [] = none

/-- Row 0, as in a file that counts from 0, is taken as the last row. -/
theorem C185_counterexample : ¬ C185_claim := by
  intro h
  have h1 := h (fun _ => true) ⟨[], [], 2, 2⟩ [] 0 1 5 5 [] (by simp)
  have h2 : (body (fun _ => true) ⟨[], [], 2, 2⟩ [.time [], .cell 0 1 5 5] []).isSome = true := by decide +kernel
  rw [h1] at h2
  simp at h2

theorem C185_last (valid : List Int → Bool) (g : Grid) (d : List Int) (u v : ℚ) (hv : valid d = true) (hr : 0 < g.rows) (hc : 0 < g.cols) :
    (body valid g [.time d, .cell 0 1 u v] []).map (fun l => l.map fun p => p.2 (g.rows - 1) 0) = some [(u, v)] := by
  have h1 : pyIdx g.rows ((0 : Int) - 1) = some (g.rows - 1) := by
    unfold pyIdx
    rw [if_neg (by omega), if_pos (by omega)]
    congr 1; omega
  have h2 : pyIdx g.cols ((1 : Int) - 1) = some 0 := by
    unfold pyIdx
    rw [if_pos (by omega), if_pos (by omega)]
    rfl
  rw [body, if_pos hv, body, h1, h2]
  simp [body, Arr.set]

/-- **C185** for numbers that are too large, or below `1 - n`. -/
theorem C185_partial (valid : List Int → Bool) (g : Grid) (d : List Int) (r c : Int) (u v : ℚ) (l : List Line)
    (h : r > g.rows ∨ c > g.cols ∨ r < 1 - g.rows ∨ c < 1 - g.cols) : body valid g (.time d :: .cell r c u v :: l) [] = none := by
  have key : ∀ (n : Nat) (i : Int), (i > n ∨ i < 1 - n) → pyIdx n (i - 1) = none := by
    intro n i hi
    unfold pyIdx
    split
    · rw [if_neg (by omega)]
    · rw [if_neg (by omega)]
  rw [body]
  split
  · rw [body]
    rcases h with h | h | h | h
    · rw [key _ _ (Or.inl h)]
    · rw [key g.cols c (Or.inl h)]; split <;> simp_all
    · rw [key _ _ (Or.inr h)]
    · rw [key g.cols c (Or.inr h)]; split <;> simp_all
  · rfl

/-- A place without a line has the velocity zero. -/
theorem C185_missing (valid : List Int → Bool) (g : Grid) (f : Arr) (d : List Int) (l : List (Nat × Nat)) (hv : valid d = true)
    (hl : ∀ p ∈ l, p.1 < g.rows ∧ p.2 < g.cols) (r c : Nat) :
    (body valid g (.time d :: cellLines f l) []).map (fun x => x.map fun p => p.2 r c) =
      some [if (r, c) ∈ l then f r c else (0, 0)] := by
  rw [body, if_pos hv]
  have := body_cells valid g f [] d l (fun _ _ => (0, 0)) [] hl
  rw [List.append_nil] at this
  rw [this]
  simp [body]

example : body (fun _ => true) ⟨[], [], 2, 2⟩ [.time [], .cell 3 1 5 5] [] = none :=
  C185_partial _ ⟨[], [], 2, 2⟩ [] 3 1 5 5 [] (Or.inl (by decide))

/-- **C183**, what stands before the header: lines of any text are left out, but a blank line makes the file unreadable. -/
theorem C183_before (valid : List Int → Bool) (pre l : List Line) (hp : ∀ x ∈ pre, x ≠ .blank ∧ ∀ w u, x ≠ .header w u) :
    readFile valid (pre ++ l) = readFile valid l ∧ readFile valid (pre ++ .blank :: l) = none := by
  have hf : ∀ l', findHeader (pre ++ l') = findHeader l' := by
    intro l'
    induction pre with
    | nil => rfl
    | cons x pre ih =>
      obtain ⟨h1, h2⟩ := hp x List.mem_cons_self
      have ih := ih fun y hy => hp y (List.mem_cons_of_mem _ hy)
      cases x with
      | header w u => exact absurd rfl (h2 w u)
      | blank => exact absurd rfl h1
      | field k x => exact ih
      | time d => exact ih
      | cell r c u v => exact ih
      | other => exact ih
  constructor
  · unfold readFile; rw [hf]
  · unfold readFile; rw [hf]; rfl

example : readFile (fun _ => true) [.other, .blank, .header false "m/s"] = none :=
  (C183_before _ [.other] [.header false "m/s"] (by simp)).2

end Verif.GridCur
