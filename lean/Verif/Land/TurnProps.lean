import Verif.Land.Props
import Mathlib.Tactic.LinearCombination
/-!
# C361: the check for land does not depend on how the map lies or which way an element goes

A map that is mirrored from east to west or from south to north, or turned over its diagonal; a move in the opposite direction.
-/
namespace Verif.Land

/-- Mirrored from east to west. -/
def mx (a : Int) (c : Int × Int) : Int × Int := (a - c.1, c.2)
/-- Mirrored from south to north. -/
def my (b : Int) (c : Int × Int) : Int × Int := (c.1, b - c.2)
/-- Turned over the diagonal. -/
def sw (c : Int × Int) : Int × Int := (c.2, c.1)

/-- The raster `g'` is the raster `g` turned by `τ`. -/
structure Turned (τ : Int × Int → Int × Int) (g g' : Grid) : Prop where
  inside_iff : ∀ c, inside g' (τ c) ↔ inside g c
  land_iff : ∀ c, land g' (τ c) ↔ land g c

/-- A result, turned. -/
def Res.turn (τ : Int × Int → Int × Int) : Res → Res
  | .hit px py hx hy => .hit (τ (px, py)).1 (τ (px, py)).2 (τ (hx, hy)).1 (τ (hx, hy)).2
  | r => r

/-- An element, turned. -/
def El.turn (τ : Int × Int → Int × Int) (e : El) : El := { e with pos := τ e.pos, fin := τ e.fin, lwp := τ e.lwp }

theorem good_unique {g : Grid} {p q : Int × Int} {r r' : Res} (h : Good g p q r) (h' : Good g p q r') : r = r' := by
  rcases h with ⟨h, hn⟩ | ⟨j, hj, h, hs, hn, he⟩ <;> rcases h' with ⟨h', hn'⟩ | ⟨j', hj', h', hs', hn', he'⟩
  · rw [h, h']
  · rw [hn j' hj'] at hs'; simp at hs'
  · rw [hn' j hj] at hs; simp at hs
  · have : j = j' := by
      rcases Nat.lt_trichotomy j j' with hl | hl | hl
      · rw [hn' j hl] at hs; simp at hs
      · exact hl
      · rw [hn j' hl] at hs'; simp at hs'
    subst this
    rw [hs] at hs'
    simp at hs'
    subst hs'
    rw [he, he']

theorem nearest_none {D : Int} (hD : 0 < D) (k : Nat) : nearest D 0 k = 0 := by
  apply near_unique hD (nearest_near hD k)
  unfold Near
  constructor <;> nlinarith

/-- Nothing is gone along an axis in which the move has no extent. -/
theorem cnt_none {dx dy : Int} (hx : 0 ≤ dx) (hy : 0 ≤ dy) (k : Nat) (hk : (k : Int) ≤ max dx dy) :
    (dx = 0 → cntX dx dy k = 0) ∧ (dy = 0 → cntY dx dy k = 0) := by
  unfold cntX cntY
  constructor
  · rintro rfl
    split
    · omega
    · exact nearest_none (by omega) k
  · rintro rfl
    split
    · rcases Int.lt_or_eq_of_le hx with h | h
      · exact nearest_none h k
      · subst h
        have : k = 0 := by omega
        subst this
        simp [nearest]
    · omega

theorem steps_ext (p q : Int × Int) : (steps p q : Int) = max (ex p q) (ey p q) := by
  unfold steps ex ey
  omega

theorem cnt_zero_axis (p q : Int × Int) (k : Nat) (hk : k ≤ steps p q) :
    (p.1 = q.1 → cntX (ex p q) (ey p q) k = 0) ∧ (p.2 = q.2 → cntY (ex p q) (ey p q) k = 0) := by
  have h := cnt_none (ex_nonneg p q) (ey_nonneg p q) k (by rw [← steps_ext]; omega)
  refine ⟨fun e => h.1 ?_, fun e => h.2 ?_⟩
  · unfold ex; omega
  · unfold ey; omega

theorem pix_mx (a : Int) (p q : Int × Int) (k : Nat) (hk : k ≤ steps p q) : pix (mx a p) (mx a q) k = mx a (pix p q k) := by
  have e1 : ex (mx a p) (mx a q) = ex p q := by unfold ex mx; simp only; omega
  have e2 : ey (mx a p) (mx a q) = ey p q := rfl
  rw [pix_eq, pix_eq, e1, e2]
  by_cases h : p.1 = q.1
  · rw [(cnt_zero_axis p q k hk).1 h]
    simp [mx]
  · have hs : sgn (mx a p).1 (mx a q).1 = -sgn p.1 q.1 := by
      have hlt : (mx a p).1 < (mx a q).1 ↔ q.1 < p.1 := by simp only [mx]; omega
      simp only [sgn]
      by_cases h' : p.1 < q.1
      · rw [if_pos h', if_neg (fun x => by have := hlt.1 x; omega)]
      · rw [if_neg h', if_pos (hlt.2 (by omega))]; rfl
    rw [hs]
    simp only [mx, Prod.mk.injEq]
    exact ⟨by rw [Int.neg_mul]; omega, trivial⟩

theorem pix_my (b : Int) (p q : Int × Int) (k : Nat) (hk : k ≤ steps p q) : pix (my b p) (my b q) k = my b (pix p q k) := by
  have e1 : ex (my b p) (my b q) = ex p q := rfl
  have e2 : ey (my b p) (my b q) = ey p q := by unfold ey my; simp only; omega
  rw [pix_eq, pix_eq, e1, e2]
  by_cases h : p.2 = q.2
  · rw [(cnt_zero_axis p q k hk).2 h]
    simp [my]
  · have hs : sgn (my b p).2 (my b q).2 = -sgn p.2 q.2 := by
      have hlt : (my b p).2 < (my b q).2 ↔ q.2 < p.2 := by simp only [my]; omega
      simp only [sgn]
      by_cases h' : p.2 < q.2
      · rw [if_pos h', if_neg (fun x => by have := hlt.1 x; omega)]
      · rw [if_neg h', if_pos (hlt.2 (by omega))]; rfl
    rw [hs]
    simp only [my, Prod.mk.injEq]
    exact ⟨trivial, by rw [Int.neg_mul]; omega⟩

theorem nearest_all {D : Int} (hD : 0 ≤ D) (k : Nat) (hk : (k : Int) ≤ D) : nearest D D k = k := by
  rcases Int.lt_or_eq_of_le hD with h | h
  · apply near_unique h (nearest_near h k)
    unfold Near
    constructor <;> nlinarith
  · subst h
    have : k = 0 := by omega
    subst this
    simp [nearest]

theorem pix_sw (p q : Int × Int) (k : Nat) (hk : k ≤ steps p q) : pix (sw p) (sw q) k = sw (pix p q k) := by
  have e1 : ex (sw p) (sw q) = ey p q := rfl
  have e2 : ey (sw p) (sw q) = ex p q := rfl
  have hk' : (k : Int) ≤ max (ex p q) (ey p q) := by rw [← steps_ext]; omega
  have c1 : cntX (ey p q) (ex p q) k = cntY (ex p q) (ey p q) k := by
    unfold cntX cntY
    by_cases h : ex p q = ey p q
    · rw [if_pos (by omega), if_pos (by omega), h]
      exact (nearest_all (ey_nonneg p q) k (by omega)).symm
    · by_cases h' : ex p q ≤ ey p q
      · rw [if_pos h', if_neg (by omega)]
      · rw [if_neg h', if_pos (by omega)]
  have c2 : cntY (ey p q) (ex p q) k = cntX (ex p q) (ey p q) k := by
    unfold cntX cntY
    by_cases h : ex p q = ey p q
    · rw [if_pos (by omega), if_pos (by omega), h]
      exact nearest_all (ey_nonneg p q) k (by omega)
    · by_cases h' : ex p q ≤ ey p q
      · rw [if_pos h', if_neg (by omega)]
      · rw [if_neg h', if_pos (by omega)]
  rw [pix_eq, pix_eq, e1, e2, c1, c2]
  rfl

/-- What a mirror does: it acts on each axis by itself, and takes paths to paths. -/
structure Mirror (τ : Int × Int → Int × Int) : Prop where
  corner : ∀ a b : Int × Int, τ (a.1, b.2) = ((τ a).1, (τ b).2)
  inj : ∀ a b : Int × Int, ((τ a).1 = (τ b).1 ↔ a.1 = b.1) ∧ ((τ a).2 = (τ b).2 ↔ a.2 = b.2)
  steps_eq : ∀ p q, steps (τ p) (τ q) = steps p q
  pix_eq : ∀ p q k, k ≤ steps p q → pix (τ p) (τ q) k = τ (pix p q k)

theorem mirror_mx (a : Int) : Mirror (mx a) :=
  ⟨fun _ _ => rfl, fun p q => ⟨by simp only [mx]; omega, Iff.rfl⟩, fun p q => by unfold steps mx; simp only; omega, fun p q k hk => pix_mx a p q k hk⟩

theorem mirror_my (b : Int) : Mirror (my b) :=
  ⟨fun _ _ => rfl, fun p q => ⟨Iff.rfl, by simp only [my]; omega⟩, fun p q => by unfold steps my; simp only; omega, fun p q k hk => pix_my b p q k hk⟩

section
variable {τ : Int × Int → Int × Int} (hτ : Mirror τ) {g g' : Grid} (hg : Turned τ g g')
include hτ hg

theorem squeeze_turn (a b : Int × Int) : squeeze g' (τ a) (τ b) ↔ squeeze g a b := by
  unfold squeeze
  rw [hg.inside_iff, hg.inside_iff, ← hτ.corner, ← hτ.corner, hg.land_iff, hg.land_iff, ne_eq, ne_eq, (hτ.inj a b).1, (hτ.inj a b).2]

theorem stop_turn (p q : Int × Int) (k : Nat) (hk : k ≤ steps p q) : stop g' (τ p) (τ q) k = (stop g p q k).map τ := by
  unfold stop
  rw [hτ.pix_eq p q k hk, hτ.pix_eq p q (k - 1) (by omega)]
  by_cases h : land g (pix p q k)
  · rw [if_pos h, if_pos ((hg.land_iff _).2 h)]
    rfl
  · rw [if_neg h, if_neg (fun x => h ((hg.land_iff _).1 x))]
    by_cases h' : 0 < k ∧ squeeze g (pix p q (k - 1)) (pix p q k)
    · rw [if_pos h', if_pos ⟨h'.1, (squeeze_turn hτ hg _ _).2 h'.2⟩, Option.map_some, ← hτ.corner]
    · rw [if_neg h', if_neg (fun x => h' ⟨x.1, (squeeze_turn hτ hg _ _).1 x.2⟩)]
      rfl

theorem good_turn (p q : Int × Int) (r : Res) (h : Good g p q r) : Good g' (τ p) (τ q) (r.turn τ) := by
  rcases h with ⟨rfl, hn⟩ | ⟨j, hj, h, hs, hn, rfl⟩
  · left
    refine ⟨rfl, fun j hj => ?_⟩
    rw [hτ.steps_eq] at hj
    rw [stop_turn hτ hg p q j hj, hn j hj]
    rfl
  · right
    refine ⟨j, by rw [hτ.steps_eq]; exact hj, τ h, by rw [stop_turn hτ hg p q j hj, hs]; rfl, fun i hi => ?_, ?_⟩
    · rw [stop_turn hτ hg p q i (by omega), hn i hi]
      rfl
    · rw [hτ.pix_eq p q (j - 1) (by omega)]
      rfl

theorem find_turn (p q : Int × Int) (f f' : Nat) (hf : steps p q < f) (hf' : steps p q < f') :
    findFirst g' f' (τ p).1 (τ p).2 (τ q).1 (τ q).2 = (findFirst g f p.1 p.2 q.1 q.2).turn τ :=
  good_unique (find_good g' (τ p) (τ q) f' (by rw [hτ.steps_eq]; exact hf')) (good_turn hτ hg p q _ (find_good g p q f hf))

theorem checkOne_turn (e : El) : checkOne g' (e.turn τ) = (checkOne g e).map (El.turn τ) := by
  unfold checkOne
  rw [show (e.turn τ).status = e.status from rfl]
  by_cases h : e.status = onLand
  · rw [if_pos h, if_pos h]; rfl
  · have h1 : ∀ p q : Int × Int, steps p q < enough p q := fun p q => by unfold steps enough; omega
    have hst := hτ.steps_eq e.pos e.fin
    rw [if_neg h, if_neg h, show (e.turn τ).pos = τ e.pos from rfl, show (e.turn τ).fin = τ e.fin from rfl,
      find_turn hτ hg e.pos e.fin (enough e.pos e.fin) (enough (τ e.pos) (τ e.fin)) (h1 _ _) (by rw [← hst]; exact h1 _ _)]
    cases findFirst g (enough e.pos e.fin) e.pos.1 e.pos.2 e.fin.1 e.fin.2 <;> rfl

theorem checkLand_turn (es : List El) : checkLand g' (es.map (El.turn τ)) = (checkLand g es).map (List.map (El.turn τ)) := by
  unfold checkLand
  induction es with
  | nil => rfl
  | cons e es ih =>
    rw [List.map_cons, List.mapM_cons, List.mapM_cons, checkOne_turn hτ hg, ih]
    cases checkOne g e with
    | none => rfl
    | some x => cases List.mapM (checkOne g) es <;> rfl

end

/-- **C361** on a map that is mirrored from east to west, elements whose moves are mirrored meet the mirrored land, at the mirrored places. -/
theorem C361_east_west (g g' : Grid) (h : Turned (mx (g.m - 1)) g g') (es : List El) :
    checkLand g' (es.map (El.turn (mx (g.m - 1)))) = (checkLand g es).map (List.map (El.turn (mx (g.m - 1)))) :=
  checkLand_turn (mirror_mx _) h es

/-- **C361** and so on a map that is mirrored from south to north. -/
theorem C361_south_north (g g' : Grid) (h : Turned (my (g.n - 1)) g g') (es : List El) :
    checkLand g' (es.map (El.turn (my (g.n - 1)))) = (checkLand g es).map (List.map (El.turn (my (g.n - 1)))) :=
  checkLand_turn (mirror_my _) h es

theorem stop_sw {g g' : Grid} (hg : Turned sw g g') (p q : Int × Int) (k : Nat) (hk : k ≤ steps p q) :
    (stop g' (sw p) (sw q) k = none ↔ stop g p q k = none) ∧ (land g (pix p q k) → stop g' (sw p) (sw q) k = (stop g p q k).map sw) := by
  have hsq : ∀ a b, squeeze g' (sw a) (sw b) ↔ squeeze g a b := by
    intro a b
    unfold squeeze
    rw [hg.inside_iff, hg.inside_iff, show ((sw b).1, (sw a).2) = sw (a.1, b.2) from rfl, show ((sw a).1, (sw b).2) = sw (b.1, a.2) from rfl, hg.land_iff,
      hg.land_iff]
    simp only [sw]
    exact ⟨fun ⟨h1, h2, h3, h4, h5, h6⟩ => ⟨h1, h2, h4, h3, h6, h5⟩, fun ⟨h1, h2, h3, h4, h5, h6⟩ => ⟨h1, h2, h4, h3, h6, h5⟩⟩
  unfold stop
  rw [pix_sw p q k hk, pix_sw p q (k - 1) (by omega)]
  by_cases h : land g (pix p q k)
  · rw [if_pos h, if_pos ((hg.land_iff _).2 h)]
    simp
  · rw [if_neg h, if_neg (fun x => h ((hg.land_iff _).1 x))]
    by_cases h' : 0 < k ∧ squeeze g (pix p q (k - 1)) (pix p q k)
    · rw [if_pos h', if_pos ⟨h'.1, (hsq _ _).2 h'.2⟩]
      simp [h]
    · rw [if_neg h', if_neg (fun x => h' ⟨x.1, (hsq _ _).1 x.2⟩)]
      simp

/-- **C361** on a map that is turned over its diagonal the same moves meet land, coming from the same places in the water. -/
theorem C361_diagonal (g g' : Grid) (h : Turned sw g g') (p q : Int × Int) (f : Nat) (hf : steps p q < f) :
    (findFirst g' f (sw p).1 (sw p).2 (sw q).1 (sw q).2 = .miss ↔ findFirst g f p.1 p.2 q.1 q.2 = .miss) ∧
    ∀ w, (∃ x : Int × Int, findFirst g f p.1 p.2 q.1 q.2 = .hit w.1 w.2 x.1 x.2) →
      ∃ x : Int × Int, findFirst g' f (sw p).1 (sw p).2 (sw q).1 (sw q).2 = .hit (sw w).1 (sw w).2 x.1 x.2 := by
  have hst : steps (sw p) (sw q) = steps p q := by unfold steps sw; simp only; omega
  have a := C31_find_first g p q f hf
  have b := C31_find_first g' (sw p) (sw q) f (by rw [hst]; exact hf)
  constructor
  · rw [a.1, b.1, hst]
    exact ⟨fun hn k hk => ((stop_sw h p q k hk).1).1 (hn k hk), fun hn k hk => ((stop_sw h p q k hk).1).2 (hn k hk)⟩
  · rintro w ⟨x, hx⟩
    obtain ⟨k, hk, hs, hn, rfl⟩ := (a.2 w x).1 hx
    have hne : stop g' (sw p) (sw q) k ≠ none := fun hc => by
      rw [((stop_sw h p q k hk).1).1 hc] at hs
      simp at hs
    obtain ⟨y, hy⟩ := Option.ne_none_iff_exists'.1 hne
    refine ⟨y, (b.2 _ y).2 ⟨k, by rw [hst]; exact hk, hy, fun j hj => ((stop_sw h p q j (by omega)).1).2 (hn j hj), ?_⟩⟩
    rw [pix_sw p q (k - 1) (by omega)]

/-! ### the way back -/

/-- The straight way is nowhere exactly midway between two pixels. -/
def NoTie (p q : Int × Int) : Prop := ∀ k : Nat, k ≤ steps p q → 2 * (k * min (ex p q) (ey p q)) % (2 * (steps p q : Int)) ≠ steps p q

/-- The claim: what is in the way from `p` to `q` is in the way back. -/
def C361_claim : Prop := ∀ (g : Grid) (p q : Int × Int) (f : Nat), steps p q < f →
  (findFirst g f q.1 q.2 p.1 p.2 = .miss ↔ findFirst g f p.1 p.2 q.1 q.2 = .miss)

theorem nearest_back {D d : Int} (hD : 0 < D) (k N : Nat) (hN : (N : Int) = D) (hk : k ≤ N) (h : 2 * (k * d) % (2 * D) ≠ D) :
    nearest D d (N - k) = d - nearest D d k := by
  apply near_unique hD (nearest_near hD _)
  have hn := nearest_near (d := d) hD k
  unfold Near at hn ⊢
  generalize nearest D d k = b at hn ⊢
  have e : (d - b) * D - ((N - k : Nat) : Int) * d = -(b * D - k * d) := by
    rw [Nat.cast_sub hk, hN]; ring
  rw [e]
  have hne : 2 * (b * D - k * d) ≠ -D := by
    intro hc
    apply h
    have e2 : 2 * (k * d) = D + (2 * D) * b := by linarith
    rw [e2, Int.add_mul_emod_self_left]
    exact Int.emod_eq_of_lt (by omega) (by omega)
  omega

theorem pix_back (p q : Int × Int) (k : Nat) (hk : k ≤ steps p q) (h : NoTie p q) : pix q p (steps p q - k) = pix p q k := by
  have e1 : ex q p = ex p q := by unfold ex; omega
  have e2 : ey q p = ey p q := by unfold ey; omega
  have hx0 := ex_nonneg p q
  have hy0 := ey_nonneg p q
  have hN := steps_ext p q
  have ht := h k hk
  have hc : cntX (ex p q) (ey p q) (steps p q - k) = ex p q - cntX (ex p q) (ey p q) k ∧
      cntY (ex p q) (ey p q) (steps p q - k) = ey p q - cntY (ex p q) (ey p q) k := by
    unfold cntX cntY
    by_cases hle : ey p q ≤ ex p q
    · simp only [if_pos hle]
      have hN' : (steps p q : Int) = ex p q := by omega
      refine ⟨by omega, ?_⟩
      rcases Int.lt_or_eq_of_le hx0 with hp | hp
      · refine nearest_back hp k _ hN' hk ?_
        rw [min_eq_right hle, hN'] at ht
        exact ht
      · have hey : ey p q = 0 := by omega
        rw [← hp, hey]
        simp [nearest]
    · simp only [if_neg hle]
      have hN' : (steps p q : Int) = ey p q := by omega
      refine ⟨?_, by omega⟩
      refine nearest_back (by omega) k _ hN' hk ?_
      rw [min_eq_left (by omega), hN'] at ht
      exact ht
  rw [pix_eq, pix_eq, e1, e2, hc.1, hc.2]
  have hz := cnt_zero_axis p q k hk
  ext
  · simp only
    by_cases hpq : p.1 = q.1
    · rw [hz.1 hpq, show ex p q = 0 by unfold ex; omega]; simp [hpq]
    · have hs : sgn q.1 p.1 = -sgn p.1 q.1 ∧ q.1 = p.1 + sgn p.1 q.1 * ex p q := by
        simp only [sgn, ex]
        by_cases h' : p.1 < q.1
        · rw [if_pos h', if_neg (by omega)]; constructor <;> omega
        · rw [if_neg h', if_pos (by omega)]; constructor <;> omega
      rw [hs.1]; linear_combination hs.2
  · simp only
    by_cases hpq : p.2 = q.2
    · rw [hz.2 hpq, show ey p q = 0 by unfold ey; omega]; simp [hpq]
    · have hs : sgn q.2 p.2 = -sgn p.2 q.2 ∧ q.2 = p.2 + sgn p.2 q.2 * ey p q := by
        simp only [sgn, ey]
        by_cases h' : p.2 < q.2
        · rw [if_pos h', if_neg (by omega)]; constructor <;> omega
        · rw [if_neg h', if_pos (by omega)]; constructor <;> omega
      rw [hs.1]; linear_combination hs.2

theorem stop_iff (g : Grid) (p q : Int × Int) (k : Nat) :
    stop g p q k = none ↔ ¬ land g (pix p q k) ∧ ¬ (0 < k ∧ squeeze g (pix p q (k - 1)) (pix p q k)) := by
  unfold stop
  by_cases h : land g (pix p q k)
  · rw [if_pos h]; simp [h]
  · rw [if_neg h]
    by_cases h' : 0 < k ∧ squeeze g (pix p q (k - 1)) (pix p q k)
    · rw [if_pos h']; simp [h']
    · rw [if_neg h']; exact ⟨fun _ => ⟨h, h'⟩, fun _ => rfl⟩

theorem squeeze_comm (g : Grid) (a b : Int × Int) : squeeze g a b → squeeze g b a :=
  fun ⟨h1, h2, h3, h4, h5, h6⟩ => ⟨h2, h1, h3.symm, h4.symm, h6, h5⟩

theorem free_back (g : Grid) (p q : Int × Int) (h : NoTie p q) (hn : ∀ k ≤ steps p q, stop g p q k = none) :
    ∀ k ≤ steps q p, stop g q p k = none := by
  have hst : steps q p = steps p q := by unfold steps; omega
  have hb : ∀ k ≤ steps p q, pix q p k = pix p q (steps p q - k) := by
    intro k hk
    have := pix_back p q (steps p q - k) (by omega) h
    rwa [show steps p q - (steps p q - k) = k by omega] at this
  intro k hk
  rw [hst] at hk
  rw [stop_iff, hb k hk, hb (k - 1) (by omega)]
  refine ⟨((stop_iff ..).1 (hn (steps p q - k) (by omega))).1, fun ⟨h0, hs⟩ => ?_⟩
  have := ((stop_iff ..).1 (hn (steps p q - k + 1) (by omega))).2
  apply this
  refine ⟨by omega, ?_⟩
  rw [show steps p q - k + 1 - 1 = steps p q - k by omega, show steps p q - k + 1 = steps p q - (k - 1) by omega]
  exact squeeze_comm _ _ _ hs

theorem noTie_back (p q : Int × Int) (h : NoTie p q) : NoTie q p := by
  intro k hk
  have hst : steps q p = steps p q := by unfold steps; omega
  have e1 : ex q p = ex p q := by unfold ex; omega
  have e2 : ey q p = ey p q := by unfold ey; omega
  rw [hst] at hk ⊢
  rw [e1, e2]
  exact h k hk

/-- **C361 (partial)** where the straight way is nowhere midway between two pixels, land is in the way exactly if it is in the way back (missing: the other
ways, `C361_counterexample`). -/
theorem C361_back_partial (g : Grid) (p q : Int × Int) (f : Nat) (hf : steps p q < f) (h : NoTie p q) :
    findFirst g f q.1 q.2 p.1 p.2 = .miss ↔ findFirst g f p.1 p.2 q.1 q.2 = .miss := by
  have hst : steps q p = steps p q := by unfold steps; omega
  rw [(C31_find_first g p q f hf).1, (C31_find_first g q p f (by rw [hst]; exact hf)).1]
  exact ⟨free_back g q p (noTie_back p q h), free_back g p q h⟩

/-- So it is for moves over an odd number of pixels, along a row or a column of pixels, and along a diagonal. -/
theorem C361_noTie (p q : Int × Int) (h : steps p q % 2 = 1 ∨ ((p.1 = q.1 ∨ p.2 = q.2 ∨ ex p q = ey p q) ∧ p ≠ q)) : NoTie p q := by
  intro k hk hc
  have hN := steps_ext p q
  rcases h with h | ⟨h, hne⟩
  · have h2 := Int.emod_emod_of_dvd (2 * ((k : Int) * min (ex p q) (ey p q))) (show (2 : Int) ∣ 2 * (steps p q : Int) from ⟨_, rfl⟩)
    rw [hc, Int.mul_emod_right] at h2
    omega
  · have hpos : 0 < (steps p q : Int) := by
      have : ¬ (p.1 = q.1 ∧ p.2 = q.2) := fun hh => hne (Prod.ext hh.1 hh.2)
      unfold steps
      omega
    have hcase : min (ex p q) (ey p q) = 0 ∨ min (ex p q) (ey p q) = steps p q := by
      rcases h with h | h | h
      · left
        have : ex p q = 0 := by unfold ex; omega
        have := ey_nonneg p q
        omega
      · left
        have : ey p q = 0 := by unfold ey; omega
        have := ex_nonneg p q
        omega
      · right
        omega
    rcases hcase with h0 | h0
    · rw [h0] at hc
      simp at hc
      omega
    · rw [h0] at hc
      have : 2 * ((k : Int) * (steps p q : Int)) = 2 * (steps p q : Int) * k := by ring
      rw [this, Int.mul_emod_right] at hc
      omega

/-- A raster of three by two pixels with one of land. -/
def rock : Grid := ⟨3, 2, [0, 0, 0, 1, 0, 0], rfl⟩

/-- **C361** fails on the way back: of two pixels that are equally near the one nearer to the start is taken. -/
theorem C361_counterexample : ¬ C361_claim := by
  intro h
  have h1 := h rock (0, 0) (2, 1) 3 (by decide)
  exact absurd (h1.2 (by decide)) (by decide)

/-! ### the check in layers -/

/-- The claim for the check that a map uses, which looks at a coarser raster first. -/
def C361_claim_layers : Prop := ∀ (g g' : Grid) (es : List El), Turned (mx (g.m - 1)) g g' →
  checkLandLayers g' (defaultRatios (g.m * g.n)) (es.map (El.turn (mx (g.m - 1)))) =
    (checkLandLayers g (defaultRatios (g.m * g.n)) es).map (List.map (El.turn (mx (g.m - 1))))

/-- A raster of 40 by 32 pixels with one of land, and the same mirrored. -/
def skerry : Grid := ⟨40, 32, (List.replicate 1280 0).set (16 * 32 + 15) 1, by rw [List.length_set, List.length_replicate]⟩
def yrreks : Grid := ⟨40, 32, (List.replicate 1280 0).set (23 * 32 + 15) 1, by rw [List.length_set, List.length_replicate]⟩

theorem one_land (x y : Nat) (c : Int × Int) (h : ((List.replicate 1280 0).set (x * 32 + y) 1).length = 40 * 32) (hx : x < 40) (hy : y < 32) :
    land ⟨40, 32, (List.replicate 1280 0).set (x * 32 + y) 1, h⟩ c ↔ c = ((x : Int), (y : Int)) := by
  unfold land inside
  constructor
  · rintro ⟨⟨h1, h2, h3, h4⟩, hv⟩
    simp only at h1 h2 h3 h4 hv
    by_contra hc
    apply hv
    rw [List.getD_eq_getElem?_getD, List.getElem?_set_ne, List.getElem?_replicate]
    · split <;> rfl
    · intro he
      apply hc
      ext
      · simp only; omega
      · simp only; omega
  · rintro rfl
    simp only [Int.toNat_natCast]
    refine ⟨⟨by omega, by omega, by omega, by omega⟩, ?_⟩
    rw [List.getD_eq_getElem?_getD, List.getElem?_set_self (by rw [List.length_replicate]; omega)]
    exact Nat.one_ne_zero

theorem skerry_turned : Turned (mx (skerry.m - 1)) skerry yrreks := by
  refine ⟨fun c => ?_, fun c => ?_⟩
  · simp only [inside, mx, skerry, yrreks]
    push_cast
    omega
  · unfold skerry yrreks
    rw [one_land 23 15 _ _ (by norm_num) (by norm_num), one_land 16 15 _ _ (by norm_num) (by norm_num)]
    simp only [mx, Prod.ext_iff]
    push_cast
    omega

/-- **C361** fails for the check in layers when the raster is not a whole number of coarse cells: the cells are counted from the west. -/
theorem C361_counterexample_layers : ¬ C361_claim_layers := by
  intro h
  have h1 := h skerry yrreks [⟨(15, 14), (17, 16), 2, (0, 0)⟩] skerry_turned
  revert h1
  decide +kernel

/-- A small map and the same mirrored, with a move that meets the land. -/
example : Turned (mx (rock.m - 1)) rock rock ∧
    checkLand rock ([⟨(2, 1), (0, 1), 2, (0, 0)⟩].map (El.turn (mx 2))) = some [⟨(0, 1), (1, 1), 3, (0, 1)⟩] := by
  refine ⟨⟨fun c => by simp only [inside, mx, rock]; push_cast; omega, fun c => ?_⟩, by decide⟩
  have key : ∀ d : Int × Int, land rock d ↔ d = (1, 1) := by
    intro d
    constructor
    · rintro ⟨⟨h1, h2, h3, h4⟩, hv⟩
      obtain ⟨x, y⟩ := d
      simp only [rock] at h1 h2 h3 h4
      have hx : x = 0 ∨ x = 1 ∨ x = 2 := by omega
      have hy : y = 0 ∨ y = 1 := by omega
      rcases hx with rfl | rfl | rfl <;> rcases hy with rfl | rfl <;> first | rfl | (revert hv; decide)
    · rintro rfl; decide
  rw [key, key]
  simp only [mx, rock, Prod.ext_iff]
  push_cast
  omega

/-- A move of three pixels along and two across has no tie, one of two along and one across has. -/
example : NoTie (0, 0) (3, 2) ∧ ¬ NoTie (0, 0) (2, 1) :=
  ⟨C361_noTie _ _ (Or.inl (by decide)), fun h => h 1 (by decide) (by decide)⟩

end Verif.Land
