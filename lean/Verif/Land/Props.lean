import Verif.Land.Lemmas
/-
Properties C31-C33: the raster land check.
-/
namespace Verif.Land

/-! ### C32: the pixel walk -/

/-- The state of the march after `k` advances. -/
def march (p q : Int × Int) : Nat → Int × Int × Int
  | 0 => (p.1, p.2, ((q.1 - p.1).natAbs : Int) - ((q.2 - p.2).natAbs : Int))
  | k + 1 =>
    let s := march p q k
    adv ((q.1 - p.1).natAbs : Int) ((q.2 - p.2).natAbs : Int) (sgn p.1 q.1) (sgn p.2 q.2)
      s.1 s.2.1 s.2.2

theorem march_eq (p q : Int × Int) (h : 0 < steps p q) (k : Nat) :
    march p q k = ((pix p q k).1, (pix p q k).2, errAt (ex p q) (ey p q) k) := by
  induction k with
  | zero =>
    rw [pix_zero]
    unfold march errAt
    rw [(cnt_zero (ex_nonneg p q) (ey_nonneg p q)).1, (cnt_zero (ex_nonneg p q) (ey_nonneg p q)).2]
    simp [ex, ey]
  | succ k ih =>
    rw [march, ih]
    exact adv_eq h k

/-- The march visits, one after the other, exactly the pixels of the straight
path. -/
theorem C32_march_is_path (p q : Int × Int) (k : Nat) (hk : k ≤ steps p q) :
    ((march p q k).1, (march p q k).2.1) = pix p q k := by
  rcases Nat.eq_zero_or_pos (steps p q) with h | h
  · have : k = 0 := by omega
    subst this; rw [pix_zero]; rfl
  · rw [march_eq p q h k]

/-- The straight path begins at the start, ends at the end after
`max |dx| |dy|` moves and not before, moves to a neighbour each time, and is
monotone along both axes. -/
theorem C32_path_shape (p q : Int × Int) :
    pix p q 0 = p ∧ pix p q (steps p q) = q ∧
    (∀ k < steps p q, pix p q k ≠ q) ∧
    (∀ k < steps p q,
      ((pix p q (k + 1)).1 - (pix p q k).1).natAbs ≤ 1 ∧
      ((pix p q (k + 1)).2 - (pix p q k).2).natAbs ≤ 1 ∧
      pix p q (k + 1) ≠ pix p q k) ∧
    (∀ i j k : Nat, i ≤ j → j ≤ k →
      (((pix p q i).1 ≤ (pix p q j).1 ∧ (pix p q j).1 ≤ (pix p q k).1) ∨
       ((pix p q k).1 ≤ (pix p q j).1 ∧ (pix p q j).1 ≤ (pix p q i).1)) ∧
      (((pix p q i).2 ≤ (pix p q j).2 ∧ (pix p q j).2 ≤ (pix p q k).2) ∨
       ((pix p q k).2 ≤ (pix p q j).2 ∧ (pix p q j).2 ≤ (pix p q i).2))) := by
  refine ⟨pix_zero p q, pix_end p q, ?_, ?_, fun i j k h1 h2 => pix_between h1 h2⟩
  · intro k hk h
    have := pix_eq_end h
    omega
  · intro k hk
    have h := pix_step (show 0 < steps p q by omega) k
    have hx : sgn p.1 q.1 = 1 ∨ sgn p.1 q.1 = -1 := by unfold sgn; split <;> simp
    have hy : sgn p.2 q.2 = 1 ∨ sgn p.2 q.2 = -1 := by unfold sgn; split <;> simp
    refine ⟨?_, ?_, ?_⟩
    · rw [h.1]; split <;> omega
    · rw [h.2.1]; split <;> omega
    · intro he
      have h1 := congrArg Prod.fst he
      have h2 := congrArg Prod.snd he
      rw [h.1] at h1
      rw [h.2.1] at h2
      rcases h.2.2 with h3 | h3
      · rw [if_pos h3] at h1; omega
      · rw [if_pos h3] at h2; omega

/-- Every pixel of the path is within half a pixel of the exact segment: with
`X = x_k - x_0`, `Y = y_k - y_0`, twice the distance along the minor axis,
times the major extent, is at most the major extent. -/
theorem C32_path_near_line (p q : Int × Int) (k : Nat) (hk : k ≤ steps p q) :
    (2 * (((pix p q k).2 - p.2) * (q.1 - p.1) - ((pix p q k).1 - p.1) * (q.2 - p.2))).natAbs ≤
      steps p q := by
  rcases Nat.eq_zero_or_pos (steps p q) with h0 | h0
  · have : k = 0 := by omega
    subst this; rw [pix_zero]; simp
  rw [pix_eq]
  have hxe : q.1 - p.1 = sgn p.1 q.1 * ex p q := by
    unfold sgn ex; split <;> omega
  have hye : q.2 - p.2 = sgn p.2 q.2 * ey p q := by
    unfold sgn ey; split <;> omega
  have hx : sgn p.1 q.1 = 1 ∨ sgn p.1 q.1 = -1 := by unfold sgn; split <;> simp
  have hy : sgn p.2 q.2 = 1 ∨ sgn p.2 q.2 = -1 := by unfold sgn; split <;> simp
  have key : (2 * (cntY (ex p q) (ey p q) k * ex p q - cntX (ex p q) (ey p q) k * ey p q)).natAbs ≤
      steps p q := by
    unfold cntX cntY
    by_cases h : ey p q ≤ ex p q
    · simp only [if_pos h]
      have hp : 0 < ex p q := by have := pos_of_steps h0; omega
      have hn := nearest_near (d := ey p q) hp k
      unfold Near at hn
      have : (steps p q : Int) = ex p q := by unfold steps ex ey at *; omega
      omega
    · simp only [if_neg h]
      have hp : 0 < ey p q := by have := ex_nonneg p q; omega
      have hn := nearest_near (d := ex p q) hp k
      unfold Near at hn
      have : (steps p q : Int) = ey p q := by unfold steps ex ey at *; omega
      omega
  simp only
  rw [hxe, hye]
  generalize cntX (ex p q) (ey p q) k = a at *
  generalize cntY (ex p q) (ey p q) k = b at *
  generalize ex p q = X at *
  generalize ey p q = Y at *
  generalize steps p q = N at *
  have e : 2 * ((p.2 + sgn p.2 q.2 * b - p.2) * (sgn p.1 q.1 * X) -
      (p.1 + sgn p.1 q.1 * a - p.1) * (sgn p.2 q.2 * Y)) =
      (sgn p.1 q.1 * sgn p.2 q.2) * (2 * (b * X - a * Y)) := by ring
  rw [e, Int.natAbs_mul]
  have : (sgn p.1 q.1 * sgn p.2 q.2).natAbs = 1 := by
    rcases hx with h | h <;> rcases hy with h' | h' <;> rw [h, h'] <;> rfl
  rw [this, Nat.one_mul]
  exact key

/-- The march ends: with one iteration more than there are moves it has
stopped, more iterations change nothing, and no read left the raster's
memory. -/
theorem C32_terminates (g : Grid) (p q : Int × Int) (f : Nat) (hf : steps p q < f) :
    findFirst g f p.1 p.2 q.1 q.2 ≠ .fuel ∧ findFirst g f p.1 p.2 q.1 q.2 ≠ .oob ∧
    ∀ f', steps p q < f' →
      findFirst g f' p.1 p.2 q.1 q.2 = findFirst g f p.1 p.2 q.1 q.2 := by
  have hg := find_good g p q f hf
  refine ⟨?_, ?_, ?_⟩
  · rcases hg with ⟨h, _⟩ | ⟨j, _, h, _, _, he⟩
    · rw [h]; simp
    · rw [he]; simp
  · rcases hg with ⟨h, _⟩ | ⟨j, _, h, _, _, he⟩
    · rw [h]; simp
    · rw [he]; simp
  · intro f' hf'
    have hg' := find_good g p q f' hf'
    rcases hg with ⟨h, hn⟩ | ⟨j, hj, h, hs, hn, he⟩ <;>
      rcases hg' with ⟨h', hn'⟩ | ⟨j', hj', h', hs', hn', he'⟩
    · rw [h, h']
    · rw [hn j' hj'] at hs'; simp at hs'
    · rw [hn' j hj] at hs; simp at hs
    · have : j = j' := by
        rcases Nat.lt_trichotomy j j' with hl | hl | hl
        · rw [hn' j hl] at hs; simp at hs
        · exact hl
        · rw [hn j' hl] at hs'; simp at hs'
      subst this
      rw [hs] at hs'
      simp at hs'
      subst hs'
      rw [he, he']

/-- For moves whose extents are at most 2^29, between pixels within 2^30 of
the origin, no value the march computes leaves the int32 range. -/
theorem C32_no_overflow (p q : Int × Int) (k : Nat) (hk : k ≤ steps p q)
    (hs : steps p q ≤ 2 ^ 29)
    (hp : p.1.natAbs ≤ 2 ^ 30 ∧ p.2.natAbs ≤ 2 ^ 30)
    (hq : q.1.natAbs ≤ 2 ^ 30 ∧ q.2.natAbs ≤ 2 ^ 30) :
    let s := march p q k
    s.1.natAbs < 2 ^ 31 ∧ s.2.1.natAbs < 2 ^ 31 ∧ (2 * s.2.2).natAbs < 2 ^ 31 := by
  rcases Nat.eq_zero_or_pos (steps p q) with h0 | h0
  · have : k = 0 := by omega
    subst this
    unfold steps at h0
    simp only [march]
    omega
  simp only [march_eq p q h0 k]
  have hb := pix_between (p := p) (q := q) (Nat.zero_le k) hk
  rw [pix_zero, pix_end] at hb
  refine ⟨by omega, by omega, ?_⟩
  have hx := ex_nonneg p q
  have hy := ey_nonneg p q
  unfold errAt cntX cntY
  by_cases h : ey p q ≤ ex p q
  · simp only [if_pos h]
    have hp : 0 < ex p q := by have := pos_of_steps h0; omega
    have hn := nearest_near (d := ey p q) hp k
    unfold Near at hn
    have hl : ex p q ≤ 2 ^ 29 := by unfold steps at hs; unfold ex; omega
    have e : 2 * ((nearest (ex p q) (ey p q) k + 1) * ex p q - ((k : Int) + 1) * ey p q) =
      2 * (nearest (ex p q) (ey p q) k * ex p q - k * ey p q) + 2 * ex p q - 2 * ey p q := by ring
    rw [e]
    omega
  · simp only [if_neg h]
    have hp : 0 < ey p q := by omega
    have hn := nearest_near (d := ex p q) hp k
    unfold Near at hn
    have hl : ey p q ≤ 2 ^ 29 := by unfold steps at hs; unfold ey; omega
    have e : 2 * (((k : Int) + 1) * ex p q - (nearest (ey p q) (ex p q) k + 1) * ey p q) =
      -(2 * (nearest (ey p q) (ex p q) k * ey p q - k * ex p q)) + 2 * ex p q - 2 * ey p q := by ring
    rw [e]
    omega

example : (List.range 6).map (pix (0, 0) (5, -2)) =
    [(0, 0), (1, 0), (2, -1), (3, -1), (4, -2), (5, -2)] := by decide
example : steps (0, 0) (5, -2) = 5 := by decide

/-! ### C31: the land check -/

/-- The land check reports a hit exactly when the path is stopped somewhere,
and then it reports the first such place with the pixel before it; otherwise
it reports none, and no pixel of the whole path is land. -/
theorem C31_find_first (g : Grid) (p q : Int × Int) (f : Nat) (hf : steps p q < f) :
    (findFirst g f p.1 p.2 q.1 q.2 = .miss ↔ ∀ k ≤ steps p q, stop g p q k = none) ∧
    (∀ w h : Int × Int, findFirst g f p.1 p.2 q.1 q.2 = .hit w.1 w.2 h.1 h.2 ↔
      ∃ k ≤ steps p q, stop g p q k = some h ∧ (∀ j < k, stop g p q j = none) ∧
        w = pix p q (k - 1)) := by
  have hg := find_good g p q f hf
  constructor
  · constructor
    · intro hm
      rcases hg with ⟨_, hn⟩ | ⟨j, _, h, _, _, he⟩
      · exact hn
      · rw [he] at hm; simp at hm
    · intro hn
      rcases hg with ⟨hm, _⟩ | ⟨j, hj, h, hs, _, _⟩
      · exact hm
      · rw [hn j hj] at hs; simp at hs
  · intro w h
    constructor
    · intro hm
      rcases hg with ⟨he, _⟩ | ⟨j, hj, h', hs, hn, he⟩
      · rw [he] at hm; simp at hm
      · rw [he] at hm
        simp only [Res.hit.injEq] at hm
        refine ⟨j, hj, ?_, hn, ?_⟩
        · rw [hs]; congr 1; exact Prod.ext hm.2.2.1 hm.2.2.2
        · exact (Prod.ext hm.1 hm.2.1).symm
    · rintro ⟨k, hk, hs, hn, hw⟩
      rcases hg with ⟨_, hn'⟩ | ⟨j, hj, h', hs', hn', he⟩
      · rw [hn' k hk] at hs; simp at hs
      · have : j = k := by
          rcases Nat.lt_trichotomy j k with hl | hl | hl
          · rw [hn j hl] at hs'; simp at hs'
          · exact hl
          · rw [hn' k hl] at hs; simp at hs
        subst this
        rw [hs] at hs'
        simp at hs'
        subst hs'
        rw [he, hw]

theorem stop_land {g : Grid} {p q h : Int × Int} {k : Nat} (hs : stop g p q k = some h) :
    land g h := by
  unfold stop at hs
  split at hs
  · simp at hs; subst hs; assumption
  · split at hs
    · rename_i hq
      simp at hs; subst hs
      exact hq.2.2.2.2.2.1
    · simp at hs

theorem stop_none_not_land {g : Grid} {p q : Int × Int} {k : Nat} (hs : stop g p q k = none) :
    ¬ land g (pix p q k) := by
  intro h
  unfold stop at hs
  rw [if_pos h] at hs
  simp at hs

/-- The result of the check of one element. -/
theorem checkOne_spec (g : Grid) (e : El) :
    ∃ e', checkOne g e = some e' ∧
      (e.status = 3 → e' = e) ∧
      (e.status ≠ 3 →
        (∃ k ≤ steps e.pos e.fin, ∃ h,
          stop g e.pos e.fin k = some h ∧ (∀ j < k, stop g e.pos e.fin j = none) ∧
          e' = { e with lwp := pix e.pos e.fin (k - 1), fin := h, status := 3 }) ∨
        ((∀ k ≤ steps e.pos e.fin, stop g e.pos e.fin k = none) ∧
          e' = { e with pos := e.fin })) := by
  unfold checkOne
  by_cases h3 : e.status = onLand
  · rw [if_pos h3]
    exact ⟨e, rfl, fun _ => rfl, fun h => absurd h3 h⟩
  · rw [if_neg h3]
    have hg := find_good g e.pos e.fin (enough e.pos e.fin) (by unfold steps enough; omega)
    rcases hg with ⟨hm, hn⟩ | ⟨j, hj, h, hs, hn, he⟩
    · rw [hm]
      exact ⟨_, rfl, fun h => absurd h h3, fun _ => .inr ⟨hn, rfl⟩⟩
    · rw [he]
      exact ⟨_, rfl, fun h => absurd h h3, fun _ => .inl ⟨j, hj, h, hs, hn, rfl⟩⟩

/-- What one element looks like after the check. -/
def CheckedOk (g : Grid) (e e' : El) : Prop :=
  (e.status = 3 → e' = e) ∧
  (e.status ≠ 3 →
    -- beached: on a land pixel next to the last water pixel, which is a
    -- pixel of the path and not land unless the element began there
    (e'.status = 3 ∧ e'.pos = e.pos ∧ land g e'.fin ∧
      (∃ k ≤ steps e.pos e.fin, e'.lwp = pix e.pos e.fin k) ∧
      (land g e'.lwp → e'.lwp = e.pos ∧ e'.fin = e.pos) ∧
      (e'.fin.1 - e'.lwp.1).natAbs ≤ 1 ∧ (e'.fin.2 - e'.lwp.2).natAbs ≤ 1) ∨
    -- not beached: moved to the requested position, over water only
    (e'.status = e.status ∧ e'.fin = e.fin ∧ e'.pos = e.fin ∧ e'.lwp = e.lwp ∧
      ∀ k ≤ steps e.pos e.fin, ¬ land g (pix e.pos e.fin k)))

/-- `check_land`: every element ends in one of the two correct ways, and
elements beached before stay as they are. -/
theorem C31_check_land (g : Grid) (es : List El) :
    ∃ out, checkLand g es = some out ∧ out.length = es.length ∧
      ∀ (i : Nat) (e e' : El), es[i]? = some e → out[i]? = some e' → CheckedOk g e e' := by
  induction es with
  | nil => exact ⟨[], rfl, rfl, by simp⟩
  | cons a es ih =>
    obtain ⟨out, ho, hl, hi⟩ := ih
    obtain ⟨a', ha, h1, h2⟩ := checkOne_spec g a
    refine ⟨a' :: out, ?_, by simp [hl], ?_⟩
    · unfold checkLand at ho ⊢
      rw [List.mapM_cons, ha, ho]; rfl
    · intro i e e' he he'
      cases i with
      | succ i => exact hi i e e' (by simpa using he) (by simpa using he')
      | zero =>
        simp at he he'
        subst he he'
        refine ⟨h1, fun hne => ?_⟩
        rcases h2 hne with ⟨k, hk, h, hs, hn, he⟩ | ⟨hn, he⟩
        · left
          subst he
          simp only
          have hnb : (h.1 - (pix a.pos a.fin (k - 1)).1).natAbs ≤ 1 ∧
              (h.2 - (pix a.pos a.fin (k - 1)).2).natAbs ≤ 1 := by
            cases k with
            | zero =>
              unfold stop at hs
              simp at hs
              obtain ⟨-, hs⟩ := hs
              subst hs; simp
            | succ k =>
              have hsh := (C32_path_shape a.pos a.fin).2.2.2.1 k (by omega)
              simp only [Nat.add_sub_cancel]
              unfold stop at hs
              split at hs
              · simp at hs; subst hs; exact ⟨hsh.1, hsh.2.1⟩
              · split at hs
                · simp at hs; subst hs; simp [hsh.1]
                · simp at hs
          refine ⟨trivial, trivial, stop_land hs, ⟨k - 1, by omega, rfl⟩, ?_, hnb.1, hnb.2⟩
          intro hland
          cases k with
          | zero =>
            rw [pix_zero] at hland ⊢
            refine ⟨rfl, ?_⟩
            unfold stop at hs
            rw [pix_zero, if_pos hland] at hs
            simpa using hs.symm
          | succ k => exact absurd hland (stop_none_not_land (hn k (by omega)))
        · right
          subst he
          exact ⟨rfl, rfl, rfl, rfl, fun k hk => stop_none_not_land (hn k hk)⟩

/-- A 3 × 3 raster with land at (2, 1). -/
def demo : Grid := ⟨3, 3, [0, 0, 0, 0, 0, 0, 0, 1, 0], rfl⟩

/-- A move across the land pixel, one diagonally beside it, one from outside
of the raster, one of an already beached element. -/
example : checkLand demo [⟨(0, 1), (2, 1), 2, (9, 9)⟩, ⟨(0, 0), (2, 2), 2, (9, 9)⟩,
      ⟨(2, -7), (2, 5), 2, (9, 9)⟩, ⟨(2, 1), (0, 0), 3, (1, 1)⟩] =
    some [⟨(0, 1), (2, 1), 3, (1, 1)⟩, ⟨(2, 2), (2, 2), 2, (9, 9)⟩,
      ⟨(2, -7), (2, 1), 3, (2, 0)⟩, ⟨(2, 1), (0, 0), 3, (1, 1)⟩] := by decide

/-- A diagonal move between two land pixels is stopped. -/
example : findFirst ⟨2, 2, [0, 1, 1, 0], rfl⟩ 9 0 0 1 1 = .hit 0 0 1 0 := by decide

/-! ### C33: the multi-resolution land check -/

theorem ceilDiv_lt {w r x : Nat} (hr : 0 < r) (hx : x < w) : x / r < ceilDiv w r := by
  unfold ceilDiv
  rw [Nat.div_lt_iff_lt_mul hr]
  have h := Nat.div_add_mod (w + r - 1) r
  have h2 := Nat.mod_lt (w + r - 1) hr
  rw [Nat.mul_comm]
  omega

theorem coarser_land {g : Grid} {r : Nat} (hr : 0 < r) {c : Int × Int} (h : land g c) :
    land (coarser g r) (coarse r c) := by
  obtain ⟨⟨h1, h2, h3, h4⟩, hv⟩ := h
  obtain ⟨x, hx⟩ : ∃ x : Nat, c.1 = x := ⟨c.1.toNat, by omega⟩
  obtain ⟨y, hy⟩ : ∃ y : Nat, c.2 = y := ⟨c.2.toNat, by omega⟩
  have hxm : x < g.m := by omega
  have hyn : y < g.n := by omega
  have e1 : (coarse r c).1 = ((x / r : Nat) : Int) := by
    unfold coarse; rw [hx]; exact (Int.ofNat_tdiv x r).symm
  have e2 : (coarse r c).2 = ((y / r : Nat) : Int) := by
    unfold coarse; rw [hy]; exact (Int.ofNat_tdiv y r).symm
  have l1 := ceilDiv_lt hr hxm
  have l2 := ceilDiv_lt hr hyn
  refine ⟨⟨by rw [e1]; exact Int.natCast_nonneg _, ?_, by rw [e2]; exact Int.natCast_nonneg _, ?_⟩, ?_⟩
  · rw [e1]; exact Int.ofNat_lt.2 l1
  · rw [e2]; exact Int.ofNat_lt.2 l2
  · rw [e1, e2, Int.toNat_natCast, Int.toNat_natCast]
    show (List.map _ _).getD (x / r * ceilDiv g.n r + y / r) 0 ≠ 0
    have hlt : x / r * ceilDiv g.n r + y / r < ceilDiv g.m r * ceilDiv g.n r := flat_lt l1 l2
    rw [List.getD_eq_getElem?_getD, List.getElem?_map, List.getElem?_range hlt]
    simp only [Option.map_some, Option.getD_some]
    have d1 : (x / r * ceilDiv g.n r + y / r) / ceilDiv g.n r = x / r := by
      rw [Nat.mul_comm, Nat.mul_add_div (Nat.lt_of_le_of_lt (Nat.zero_le _) l2), Nat.div_eq_of_lt l2]; rfl
    have d2 : (x / r * ceilDiv g.n r + y / r) % ceilDiv g.n r = y / r := by
      rw [Nat.mul_comm, Nat.mul_add_mod, Nat.mod_eq_of_lt l2]
    rw [d1, d2]
    unfold coarseCell
    rw [if_pos]
    · omega
    · rw [List.any_eq_true]
      refine ⟨x % r, List.mem_range.2 (Nat.mod_lt _ hr), ?_⟩
      rw [List.any_eq_true]
      refine ⟨y % r, List.mem_range.2 (Nat.mod_lt _ hr), ?_⟩
      have a1 : x / r * r + x % r = x := by rw [Nat.mul_comm]; exact Nat.div_add_mod x r
      have a2 : y / r * r + y % r = y := by rw [Nat.mul_comm]; exact Nat.div_add_mod y r
      rw [a1, a2]
      rw [hx, hy, Int.toNat_natCast, Int.toNat_natCast] at hv
      rw [Bool.and_eq_true]
      exact ⟨decide_eq_true ⟨hxm, hyn⟩, decide_eq_true hv⟩

theorem tdiv_mono {a b : Int} (r : Nat) (h : a ≤ b) : a.tdiv r ≤ b.tdiv r := by
  rcases Nat.eq_zero_or_pos r with h0 | h0
  · subst h0; simp
  rcases Int.le_total 0 a with ha | ha
  · exact Int.tdiv_le_tdiv (by omega) h
  · rcases Int.le_total 0 b with hb | hb
    · have h1 : a.tdiv r ≤ 0 := by
        have : a = -(-a) := by omega
        rw [this, Int.neg_tdiv]
        have := Int.tdiv_nonneg (a := -a) (b := (r : Int)) (by omega) (by omega)
        omega
      have h2 := Int.tdiv_nonneg hb (show (0 : Int) ≤ r by omega)
      omega
    · have h1 : (-a).tdiv r = -(a.tdiv r) := Int.neg_tdiv _ _
      have h2 : (-b).tdiv r = -(b.tdiv r) := Int.neg_tdiv _ _
      have := Int.tdiv_le_tdiv (a := -b) (b := -a) (c := (r : Int)) (by omega) (by omega)
      omega

/-- Along an axis-aligned move every pixel between the ends is on the path. -/
theorem axis_path {p q c : Int × Int} (hax : p.1 = q.1 ∨ p.2 = q.2)
    (h1 : (p.1 ≤ c.1 ∧ c.1 ≤ q.1) ∨ (q.1 ≤ c.1 ∧ c.1 ≤ p.1))
    (h2 : (p.2 ≤ c.2 ∧ c.2 ≤ q.2) ∨ (q.2 ≤ c.2 ∧ c.2 ≤ p.2)) :
    ∃ k ≤ steps p q, pix p q k = c := by
  have near0 : ∀ (D : Int) (k : Nat), 0 ≤ D → nearest D 0 k = 0 := by
    intro D k hD
    unfold nearest
    rcases Int.lt_or_eq_of_le hD with h | h
    · simp
      rw [Int.ediv_eq_zero_of_lt] <;> omega
    · subst h; simp
  rcases hax with hax | hax
  · refine ⟨(c.2 - p.2).natAbs, by unfold steps; omega, ?_⟩
    have e : ((q.1 - p.1).natAbs : Int) = 0 := by omega
    unfold pix
    simp only
    rw [e]
    by_cases h : ((q.2 - p.2).natAbs : Int) ≤ 0
    · rw [if_pos h]
      have : ((q.2 - p.2).natAbs : Int) = 0 := by omega
      rw [this, near0 0 _ (by omega)]
      ext
      · simp only; split <;> omega
      · simp only; omega
    · rw [if_neg h, near0 _ _ (by omega)]
      ext
      · simp only; omega
      · simp only; split <;> omega
  · refine ⟨(c.1 - p.1).natAbs, by unfold steps; omega, ?_⟩
    have e : ((q.2 - p.2).natAbs : Int) = 0 := by omega
    unfold pix
    simp only
    rw [e, if_pos (by omega), near0 _ _ (by omega)]
    ext
    · simp only; split <;> omega
    · simp only; omega

theorem stop_between {g : Grid} {p q h : Int × Int} {k : Nat} (hk : k ≤ steps p q)
    (hs : stop g p q k = some h) :
    ((p.1 ≤ h.1 ∧ h.1 ≤ q.1) ∨ (q.1 ≤ h.1 ∧ h.1 ≤ p.1)) ∧
    ((p.2 ≤ h.2 ∧ h.2 ≤ q.2) ∨ (q.2 ≤ h.2 ∧ h.2 ≤ p.2)) := by
  have b1 := pix_between (p := p) (q := q) (Nat.zero_le k) hk
  have b2 := pix_between (p := p) (q := q) (Nat.zero_le (k - 1)) (show k - 1 ≤ steps p q by omega)
  rw [pix_zero, pix_end] at b1 b2
  unfold stop at hs
  split at hs
  · simp at hs; subst hs; exact b1
  · split at hs
    · simp at hs; subst hs; exact ⟨b1.1, b2.2⟩
    · simp at hs

theorem layerFind_good (g : Grid) (p q : Int × Int) : Good g p q (layerFind g p q) :=
  find_good g p q _ (by unfold steps enough; omega)

theorem coarse_one (p : Int × Int) : coarse 1 p = p := by
  unfold coarse; simp

/-- A hit the layered check reports is the hit of the full-resolution check,
and where the full-resolution check reports none neither does the layered
one; for every raster, every list of ratios, every move. -/
theorem C33_layers_sound_partial (g : Grid) (rs : List Nat) (p q : Int × Int) :
    (∀ a b c d, layersFind g p q rs = .hit a b c d → layerFind g p q = .hit a b c d) ∧
    (layerFind g p q = .miss → layersFind g p q rs = .miss) ∧
    layersFind g p q rs ≠ .bad := by
  induction rs with
  | nil =>
    unfold layersFind
    rw [coarse_one, coarse_one]
    rcases layerFind_good g p q with ⟨h, _⟩ | ⟨j, _, h, _, _, he⟩
    · rw [h]; simp
    · rw [he]; simp
  | cons r rs ih =>
    unfold layersFind
    rcases layerFind_good (coarser g r) (coarse r p) (coarse r q) with ⟨h, _⟩ | ⟨j, _, h, _, _, he⟩
    · rw [h]; simp
    · rw [he]; exact ih

/-- The layered check agrees with the full-resolution one on every move that
in each coarser raster stays within one row or one column of cells. -/
theorem C33_layers_agree_partial (g : Grid) (rs : List Nat) (p q : Int × Int)
    (hr : ∀ r ∈ rs, 0 < r)
    (hax : ∀ r ∈ rs, (coarse r p).1 = (coarse r q).1 ∨ (coarse r p).2 = (coarse r q).2) :
    (∀ a b c d, layersFind g p q rs = .hit a b c d ↔ layerFind g p q = .hit a b c d) ∧
    (layersFind g p q rs = .miss ↔ layerFind g p q = .miss) := by
  have key : ∀ a b c d, layerFind g p q = .hit a b c d → layersFind g p q rs = .hit a b c d := by
    intro a b c d hf
    induction rs with
    | nil =>
      unfold layersFind
      rw [coarse_one, coarse_one, hf]
    | cons r rs ih =>
      unfold layersFind
      rcases layerFind_good (coarser g r) (coarse r p) (coarse r q) with ⟨_, hn⟩ | ⟨j, _, h, _, _, he⟩
      · exfalso
        rcases layerFind_good g p q with ⟨h, _⟩ | ⟨j, hj, h, hs, _, _⟩
        · rw [h] at hf; simp at hf
        · have hl := coarser_land (hr r (by simp)) (stop_land hs)
          have hb := stop_between hj hs
          have m1 := fun {a b : Int} => tdiv_mono (a := a) (b := b) r
          obtain ⟨k, hk, hkc⟩ := axis_path (c := coarse r h) (hax r (by simp))
            (by
              rcases hb.1 with h' | h'
              · exact .inl ⟨m1 h'.1, m1 h'.2⟩
              · exact .inr ⟨m1 h'.1, m1 h'.2⟩)
            (by
              rcases hb.2 with h' | h'
              · exact .inl ⟨m1 h'.1, m1 h'.2⟩
              · exact .inr ⟨m1 h'.1, m1 h'.2⟩)
          have := stop_none_not_land (hn k hk)
          rw [hkc] at this
          exact this hl
      · rw [he]
        exact ih (fun r h => hr r (by simp [h])) (fun r h => hax r (by simp [h]))
  have hsound := C33_layers_sound_partial g rs p q
  refine ⟨fun a b c d => ⟨hsound.1 a b c d, key a b c d⟩, ⟨fun h => ?_, hsound.2.1⟩⟩
  rcases layerFind_good g p q with ⟨hm, _⟩ | ⟨j, _, h', _, _, he⟩
  · exact hm
  · rw [key _ _ _ _ he] at h; simp at h

/-- A 32 × 32 raster, all water but for the pixel (16, 15). -/
def islet : Grid := ⟨32, 32, (List.replicate 1024 0).set (16 * 32 + 15) 1, by rw [List.length_set, List.length_replicate]⟩

/-- The layered check with the ratio the code chooses for such a raster misses
the land that the full-resolution check finds on a move of two pixels: the
element passes over land. -/
theorem C33_counterexample :
    checkLand islet [⟨(15, 14), (17, 16), 2, (0, 0)⟩] =
      some [⟨(15, 14), (16, 15), 3, (15, 14)⟩] ∧
    checkLandLayers islet (defaultRatios 1024) [⟨(15, 14), (17, 16), 2, (0, 0)⟩] =
      some [⟨(17, 16), (17, 16), 2, (0, 0)⟩] ∧
    land islet (pix (15, 14) (17, 16) 1) := by
  decide +kernel

/-- A move along one column of cells, where both agree and land is hit. -/
example : coarse 16 (16, 3) = (1, 0) ∧ coarse 16 (18, 28) = (1, 1) ∧
    layersFind islet (16, 3) (16, 28) [16] = .hit 16 14 16 15 := by decide +kernel

end Verif.Land
