import Verif.GridCur.ArrowModel
import Mathlib.Tactic.Ring
import Mathlib.Tactic.NormNum
import Mathlib.Tactic.Linarith
/-!
# C303: vectors and centres sent to the web client
-/
namespace Verif.GridCur.Arrow

/-- a table of `ny` rows of `nx` values -/
def table {α : Type} (ny nx : Nat) (f : Nat → Nat → α) : Table α := (List.range ny).map fun j => (List.range nx).map fun i => f j i

/-- all cells row by row -/
def all (ny nx : Nat) : List (Nat × Nat) := (List.range ny).flatMap fun j => (List.range nx).map fun i => (j, i)

/-- the cells that are not masked -/
def shown (ny nx : Nat) (mask : Nat → Nat → Bool) : List (Nat × Nat) := (all ny nx).filter fun c => !mask c.1 c.2

theorem flatten_table {α : Type} (ny nx : Nat) (f : Nat → Nat → α) : (table ny nx f).flatten = (all ny nx).map fun c => f c.1 c.2 := by
  unfold table all
  rw [List.map_flatMap, List.flatMap]
  congr 1
  refine List.map_congr_left fun j _ => ?_
  rw [List.map_map]; rfl

theorem compress_map {α β : Type} (l : List β) (m : β → Bool) (f : β → α) : compress (l.map m) (l.map f) = (l.filter fun c => !m c).map f := by
  induction l with
  | nil => rfl
  | cons c t ih =>
    unfold compress at ih ⊢
    simp only [List.map_cons, List.zip_cons_cons, List.filter_cons]
    cases hm : m c <;> simp [ih]

theorem compress_table {α : Type} (ny nx : Nat) (m : Nat → Nat → Bool) (f : Nat → Nat → α) :
    compress (table ny nx m).flatten (table ny nx f).flatten = (shown ny nx m).map fun c => f c.1 c.2 := by
  rw [flatten_table, flatten_table, compress_map]; rfl

theorem zipWith_shift {α β : Type} (n : Nat) (f : Nat → α) (op : α → α → β) :
    ((List.range (n + 1)).map f).dropLast.zipWith op ((List.range (n + 1)).map f).tail = (List.range n).map fun i => op (f i) (f (i + 1)) := by
  refine List.ext_getElem (by simp) fun i h1 h2 => ?_
  simp [List.getElem_zipWith, List.getElem_dropLast, List.getElem_tail]

theorem alongRows_table (ny nx : Nat) (f : Nat → Nat → ℝ) : alongRows (table ny (nx + 1) f) = table ny nx fun j i => mean (f j i) (f j (i + 1)) := by
  unfold alongRows table
  rw [List.map_map]
  refine List.map_congr_left fun j _ => ?_
  exact zipWith_shift nx (f j) mean

theorem acrossRows_table (ny nx : Nat) (f : Nat → Nat → ℝ) : acrossRows (table (ny + 1) nx f) = table ny nx fun j i => mean (f j i) (f (j + 1) i) := by
  unfold acrossRows table
  rw [zipWith_shift ny (fun j => (List.range nx).map fun i => f j i)]
  refine List.map_congr_left fun j _ => ?_
  refine List.ext_getElem (by simp) fun i h1 h2 => by simp

theorem fill_table (ny nx : Nat) (f : Nat → Nat → Option ℝ) : (table ny nx f).map (fun r => r.map fill) = table ny nx fun j i => fill (f j i) := by
  unfold table
  rw [List.map_map]
  refine List.map_congr_left fun j _ => ?_
  rw [Function.comp, List.map_map]; rfl

/-- a grid of `ny` rows of `nx` centres -/
structure G where
  ny : Nat
  nx : Nat
  lon : Nat → Nat → ℝ
  lat : Nat → Nat → ℝ
  mask : Nat → Nat → Bool
  angle : Nat → Nat → ℝ

def G.grid (g : G) : Grid := ⟨table g.ny g.nx g.lon, table g.ny g.nx g.lat, table g.ny g.nx g.mask, table g.ny g.nx g.angle⟩

def G.shown (g : G) : List (Nat × Nat) := Arrow.shown g.ny g.nx g.mask

theorem zip_map {α β γ : Type} (l : List γ) (f : γ → α) (h : γ → β) : (l.map f).zip (l.map h) = l.map fun c => (f c, h c) := by
  induction l with
  | nil => rfl
  | cons c t ih => simp [ih]

theorem zipWith_map {α β γ δ : Type} (l : List γ) (f : γ → α) (h : γ → β) (op : α → β → δ) : (l.map f).zipWith op (l.map h) = l.map fun c => op (f c) (h c) := by
  induction l with
  | nil => rfl
  | cons c t ih => simp [ih]

theorem centres_eq (g : G) : g.grid.centres = g.shown.map fun c => (g.lon c.1 c.2, g.lat c.1 c.2) := by
  unfold Grid.centres
  rw [show g.grid.mask = table g.ny g.nx g.mask from rfl, show g.grid.lon = table g.ny g.nx g.lon from rfl, show g.grid.lat = table g.ny g.nx g.lat from rfl,
    compress_table, compress_table, zip_map]; rfl

/-- value at the centre of a cell of components on the faces left and right, and below and above; missing ones are no flow -/
noncomputable def atCentre (u v : Nat → Nat → Option ℝ) (c : Nat × Nat) : ℝ × ℝ :=
  (((u c.1 c.2).getD 0 + (u c.1 (c.2 + 1)).getD 0) / 2, ((v c.1 c.2).getD 0 + (v (c.1 + 1) c.2).getD 0) / 2)

theorem fill_getD (x : Option ℝ) : fill x = x.getD 0 := by cases x <;> rfl

/-- C303. With components on the faces, the cells that are not masked, row by row, are the same for the centres and for the vectors: at each centre is the vector of its cell, the mean of
its faces. -/
theorem C303_staggered (g : G) (u v : Nat → Nat → Option ℝ) :
    g.grid.centres = g.shown.map (fun c => (g.lon c.1 c.2, g.lat c.1 c.2)) ∧
    staggered g.grid (table g.ny (g.nx + 1) u) (table (g.ny + 1) g.nx v) = some (g.shown.map (atCentre u v)) := by
  refine ⟨centres_eq g, ?_⟩
  unfold staggered
  simp only
  rw [fill_table, fill_table, alongRows_table, acrossRows_table, show g.grid.mask = table g.ny g.nx g.mask from rfl, compress_table, compress_table,
    if_pos (by rw [List.length_map, List.length_map]), zip_map]
  refine congrArg some (List.map_congr_left fun c _ => ?_)
  unfold atCentre mean
  rw [fill_getD, fill_getD, fill_getD, fill_getD]

/-- C303. The angles belong to the same cells: each vector is turned by the angle of its own cell. -/
theorem C303_turned (g : G) (w : Nat × Nat → ℝ × ℝ) : turned g.grid (g.shown.map w) = some (g.shown.map fun c => turn (g.angle c.1 c.2) (w c)) := by
  unfold turned
  simp only
  rw [show g.grid.mask = table g.ny g.nx g.mask from rfl, show g.grid.angle = table g.ny g.nx g.angle from rfl, compress_table]
  rw [show Arrow.shown g.ny g.nx g.mask = g.shown from rfl, if_pos (by rw [List.length_map, List.length_map]), zipWith_map]

/-- C303. Turning keeps the speed and turns by the angle, against the clock: the vector with direction `d` gets direction `d + a`. -/
theorem C303_turn (a s d : ℝ) : turn a (s * Real.cos d, s * Real.sin d) = (s * Real.cos (d + a), s * Real.sin (d + a)) := by
  unfold turn
  rw [Real.cos_add, Real.sin_add]
  ext <;> simp only <;> ring

/-- C303. Every cell of the grid that is not masked is shown once, and no other. -/
theorem C303_cells (g : G) : g.shown.Nodup ∧ ∀ j i, (j, i) ∈ g.shown ↔ j < g.ny ∧ i < g.nx ∧ g.mask j i = false := by
  constructor
  · refine List.Nodup.filter _ ?_
    unfold all
    rw [List.nodup_flatMap]
    constructor
    · intro j _
      exact List.Nodup.map (fun a b h => by simpa using h) List.nodup_range
    · refine List.Pairwise.imp ?_ (List.nodup_range (n := g.ny))
      intro a b hab x ha hb
      obtain ⟨i, -, rfl⟩ := List.mem_map.1 ha
      obtain ⟨k, -, h⟩ := List.mem_map.1 hb
      simp only [Prod.mk.injEq] at h
      exact hab h.1.symm
  · intro j i
    unfold G.shown Arrow.shown all
    simp only [List.mem_filter, List.mem_flatMap, List.mem_range, List.mem_map, Prod.mk.injEq, Bool.not_eq_true']
    constructor
    · rintro ⟨⟨a, ha, b, hb, rfl, rfl⟩, hm⟩
      exact ⟨ha, hb, hm⟩
    · rintro ⟨h1, h2, h3⟩
      exact ⟨⟨j, h1, i, h2, rfl, rfl⟩, h3⟩

/-- C303 in full for components at the centres: as many vectors as centres, each that of its cell. -/
def C303_claim : Prop := ∀ (g : G) (u v : Nat → Nat → Option ℝ), centred g.grid (table g.ny g.nx u) (table g.ny g.nx v) =
  some (g.shown.map fun c => ((u c.1 c.2).getD 0, (v c.1 c.2).getD 0))

/-- C303. It holds if no value of a cell that is shown is missing. -/
theorem C303_partial (g : G) (u v : Nat → Nat → Option ℝ) (hu : ∀ c ∈ g.shown, (u c.1 c.2).isSome) (hv : ∀ c ∈ g.shown, (v c.1 c.2).isSome) :
    centred g.grid (table g.ny g.nx u) (table g.ny g.nx v) = some (g.shown.map fun c => ((u c.1 c.2).getD 0, (v c.1 c.2).getD 0)) := by
  have key : ∀ w : Nat → Nat → Option ℝ, (∀ c ∈ g.shown, (w c.1 c.2).isSome) →
      (compress g.grid.mask.flatten (table g.ny g.nx w).flatten).filterMap id = g.shown.map fun c => (w c.1 c.2).getD 0 := by
    intro w hw
    rw [show g.grid.mask = table g.ny g.nx g.mask from rfl, compress_table, show Arrow.shown g.ny g.nx g.mask = g.shown from rfl, List.filterMap_map]
    generalize g.shown = l at hw
    induction l with
    | nil => rfl
    | cons c t ih =>
      have h1 := hw c (by simp)
      rw [List.map_cons, List.filterMap_cons]
      cases hc : w c.1 c.2 with
      | none => rw [hc] at h1; simp at h1
      | some x =>
        simp only [Function.comp, id, hc, Option.getD_some]
        congr 1
        exact ih fun d hd => hw d (List.mem_cons_of_mem _ hd)
  unfold centred
  simp only
  rw [key u hu, key v hv, if_pos (by rw [List.length_map, List.length_map]), zip_map]

/-- C303 fails: where a value of a cell that is shown is missing, the vectors after it move up to the centre before. -/
theorem C303_counterexample : ¬ C303_claim := by
  intro h
  have := h ⟨1, 2, fun _ i => i, fun _ _ => 0, fun _ _ => false, fun _ _ => 0⟩ (fun _ i => if i = 0 then none else some 1) (fun _ i => if i = 0 then none else some 1)
  have e : centred (G.grid ⟨1, 2, fun _ i => i, fun _ _ => 0, fun _ _ => false, fun _ _ => 0⟩) (table 1 2 fun _ i => if i = 0 then none else some 1)
      (table 1 2 fun _ i => if i = 0 then none else some 1) = some [(1, 1)] := by
    simp [centred, G.grid, table, compress, List.range_succ]
  rw [e] at this
  have h2 := congrArg (Option.map List.length) this
  simp [G.shown, shown, all, List.range_succ] at h2

/-- two rows of two cells, one of them land: three vectors -/
example : (G.shown ⟨2, 2, fun _ i => i, fun j _ => j, fun j i => j == 0 && i == 1, fun _ _ => 0⟩) = [(0, 0), (1, 0), (1, 1)] ∧
    atCentre (fun _ i => some (i : ℝ)) (fun j _ => if j = 0 then none else some 2) (0, 1) = (3 / 2, 1) := by
  refine ⟨by decide, ?_⟩
  unfold atCentre
  norm_num

end Verif.GridCur.Arrow
