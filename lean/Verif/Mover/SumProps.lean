import Verif.Mover.MoveProps
/-!
# C304: the moves of a step add up, in any order, and each element moves by itself

About `Model.move_elements` up to the map (`/repo/py_gnome/gnome/model.py` 989-1000), in `Verif.Mover.MoveModel`.
-/
namespace Verif.Mover

theorem zipWith_swap : ∀ p a b : List V, List.zipWith (· + ·) (List.zipWith (· + ·) p a) b = List.zipWith (· + ·) (List.zipWith (· + ·) p b) a
  | [], _, _ => by simp
  | _ :: _, [], b => by cases b <;> simp
  | _ :: _, _ :: _, [] => by simp
  | x :: p, y :: a, z :: b => by
    simp only [List.zipWith_cons_cons]
    rw [zipWith_swap p a b, add_right_comm]

/-- C304. The order of the movers does not matter: with the same movers in another order, random numbers included, the elements get to the same places, or both orders raise. -/
theorem C304_order (ms ms' : List AnyMover) (dt : ℝ) (els : List LE) (h : ms.Perm ms') : nextPositions dt ms els = nextPositions dt ms' els := by
  unfold nextPositions
  refine h.foldl_eq' (fun a _ b _ acc => ?_) _
  cases acc with
  | none => rfl
  | some ps =>
    simp only [Option.bind_some]
    cases ha : a.move dt els with
    | none => cases hb : b.move dt els <;> simp
    | some x =>
      cases hb : b.move dt els with
      | none => simp
      | some y =>
        simp only [Option.map_some, Option.bind_some]
        rw [zipWith_swap]

theorem rowwise_at (f : Nat → LE → V) (els : List LE) (i : Nat) : (rowwise f els)[i]? = els[i]?.map (f i) := by
  unfold rowwise
  rw [List.getElem?_mapIdx]

theorem iceDamp_one {c : ℝ} (h : c < 2 / 10) : iceDamp c = 1 := by
  unfold iceDamp
  rw [if_neg (by linarith), if_pos h]

/-- what a mover moves one element by: of the elements it looks at this one only -/
theorem own_move (m : AnyMover) (dt : ℝ) : ∃ f : Nat → LE → V, ∀ els ds, m.move dt els = some ds → ds = rowwise f els := by
  cases m with
  | simple vel scale active on uncertain r => exact ⟨_, fun els ds h => (Option.some.inj h).symm⟩
  | current active scale dm unc => exact ⟨_, fun els ds h => (Option.some.inj h).symm⟩
  | wind active scale dm unc => exact ⟨_, fun els ds h => (Option.some.inj h).symm⟩
  | pointWind active uv unc => exact ⟨_, fun els ds h => (Option.some.inj h).symm⟩
  | random active coef factor r1 r2 => exact ⟨_, fun els ds h => (Option.some.inj h).symm⟩
  | iceRandom active coef factor r1 r2 ice =>
    refine ⟨fun i e => if inWater e then iceDamp (ice e) • randomRow active coef factor dt (r1 i) (r2 i) e else 0, fun els ds h => ?_⟩
    have h' := (Option.some.inj h).symm
    rw [h']
    unfold iceRandomMove
    split
    · rfl
    · next hn =>
      unfold rowwise
      refine List.ext_getElem? fun i => ?_
      rw [List.getElem?_mapIdx, List.getElem?_mapIdx]
      cases he : els[i]? with
      | none => rfl
      | some e =>
        have hm : e ∈ els := List.mem_of_getElem? he
        have hc : ice e < 2 / 10 := by
          by_contra hc
          exact hn ⟨e, hm, not_lt.1 hc⟩
        simp only [Option.map_some, Option.some.injEq]
        by_cases hw : inWater e
        · rw [if_pos hw, iceDamp_one hc, one_smul]
        · rw [if_neg hw]
          unfold randomRow
          split_ifs <;> rfl
  | rise active =>
    refine ⟨fun _ e => riseRow active dt e, fun els ds h => ?_⟩
    have h : unsignedStep active dt els (rowwise (fun _ e => riseRow active dt e) els) = some ds := h
    unfold unsignedStep at h
    split at h
    · exact absurd h nofun
    · exact (Option.some.inj h).symm
  | vertical p active r =>
    refine ⟨fun i e => vertRow p active dt (r i) e, fun els ds h => ?_⟩
    have h : unsignedStep active dt els (rowwise (fun i e => vertRow p active dt (r i) e) els) = some ds := h
    unfold unsignedStep at h
    split at h
    · exact absurd h nofun
    · exact (Option.some.inj h).symm

/-- C304. An element is moved the same whatever elements are beside it: two sets of elements with the same element in the same row. -/
theorem C304_alone (m : AnyMover) (dt : ℝ) (els els' : List LE) (ds ds' : List V) (h : m.move dt els = some ds) (h' : m.move dt els' = some ds') (i : Nat)
    (he : els[i]? = els'[i]?) : ds[i]? = ds'[i]? := by
  obtain ⟨f, hf⟩ := own_move m dt
  rw [hf els ds h, hf els' ds' h', rowwise_at, rowwise_at, he]

/-- C304. The place of an element after all movers is its place before and the sum of the moves of the movers, each taken at the place before. -/
theorem C304_sum (ms : List AnyMover) (dt : ℝ) (els : List LE) (ps : List V) (h : nextPositions dt ms els = some ps) :
    ∃ moves : List (List V), List.Forall₂ (fun m ds => m.move dt els = some ds ∧ ds.length = els.length) ms moves ∧ ps.length = els.length ∧
      ∀ (i : Nat) e, els[i]? = some e → ps[i]? = some (e.pos + (moves.map fun ds => ds.getD i 0).sum) := by
  have key : ∀ (ms : List AnyMover) (p0 ps : List V), p0.length = els.length →
      ms.foldl (fun acc m => acc.bind fun ps => (m.move dt els).map fun ds => List.zipWith (· + ·) ps ds) (some p0) = some ps →
      ∃ moves : List (List V), List.Forall₂ (fun m ds => m.move dt els = some ds ∧ ds.length = els.length) ms moves ∧ ps.length = els.length ∧
        ∀ (i : Nat) q, p0[i]? = some q → ps[i]? = some (q + (moves.map fun ds => ds.getD i 0).sum) := by
    intro ms
    induction ms with
    | nil =>
      intro p0 ps hl hf
      obtain rfl : p0 = ps := by simpa using hf
      exact ⟨[], List.Forall₂.nil, hl, fun i q hq => by simpa using hq⟩
    | cons m ms ih =>
      intro p0 ps hl hf
      simp only [List.foldl_cons, Option.bind_some] at hf
      cases hd : m.move dt els with
      | none => rw [hd, Option.map_none, fold_none] at hf; exact absurd hf nofun
      | some ds =>
        rw [hd, Option.map_some] at hf
        obtain ⟨f, hr⟩ := own_move m dt
        have hlen : ds.length = els.length := by rw [hr els ds hd]; simp [rowwise]
        obtain ⟨moves, h1, h2, h3⟩ := ih _ ps (by rw [List.length_zipWith, hl, hlen, Nat.min_self]) hf
        refine ⟨ds :: moves, List.Forall₂.cons ⟨hd, hlen⟩ h1, h2, fun i q hq => ?_⟩
        have hi : i < p0.length := (List.getElem?_eq_some_iff.1 hq).1
        have hi2 : i < ds.length := by omega
        have hz : (List.zipWith (· + ·) p0 ds)[i]? = some (q + ds.getD i 0) := by
          rw [List.getElem?_zipWith, hq, List.getElem?_eq_getElem hi2, List.getD_eq_getElem?_getD, List.getElem?_eq_getElem hi2]
          rfl
        rw [h3 i _ hz, List.map_cons, List.sum_cons, add_assoc]
  obtain ⟨moves, h1, h2, h3⟩ := key ms _ ps (by simp) h
  exact ⟨moves, h1, h2, fun i e he => h3 i e.pos (by simp [he])⟩

/-- C304. A mover that is not active can as well be left out. -/
theorem C304_inactive (ms : List AnyMover) (m : AnyMover) (dt : ℝ) (els : List LE) (hm : m.active = false) : nextPositions dt (m :: ms) els = nextPositions dt ms els := by
  obtain ⟨ds, h1, h2, h3⟩ := C94_inactive m dt els hm
  unfold nextPositions
  rw [List.foldl_cons, Option.bind_some, h1, Option.map_some]
  have : List.zipWith (· + ·) (els.map LE.pos) ds = els.map LE.pos := by
    refine List.ext_getElem? fun i => ?_
    rw [List.getElem?_zipWith, List.getElem?_map]
    cases he : els[i]? with
    | none => rfl
    | some e =>
      rw [h3 i e he trivial]
      simp [show ((0 : ℝ), (0 : ℝ), (0 : ℝ)) = (0 : V) from rfl]
  rw [this]

/-- a mover to the east and a rising element five metres below the equator -/
example : ∃ ps, nextPositions 100 [.simple (1, 0, 0) 0 true true false fun _ => 0, .rise true] [⟨(0, 0, 5), 2, 0, 1 / 100⟩] = some ps ∧
    ps = [(100 * (89992801 / 10 ^ 13), 0, 4)] := by
  refine ⟨_, by simp [nextPositions, AnyMover.move, riseMove, unsignedStep, rowwise]; rfl, ?_⟩
  norm_num [simpleRow, riseRow, inWater, m2l]

end Verif.Mover
