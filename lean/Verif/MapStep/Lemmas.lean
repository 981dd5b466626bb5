import Verif.MapStep.Model
import Verif.Land.Props
import Verif.Geom.ProjProps
/-
Helper lemmas: the result of the layered land check at the end of the move,
beaching of one element by cases, refloating element by element.
-/
namespace Verif.MapStep
open Verif.Land Verif.Geom

/-- A miss of the layered check: the end of the move is not land. -/
theorem layers_miss_end (g : Grid) (rs : List Nat) (hr : ∀ r ∈ rs, 0 < r) (p q : Int × Int)
    (h : layersFind g p q rs = .miss) : ¬ land g q := by
  induction rs with
  | nil =>
    unfold layersFind at h
    rw [coarse_one, coarse_one] at h
    rcases layerFind_good g p q with ⟨_, hn⟩ | ⟨j, _, h', _, _, he⟩
    · have := stop_none_not_land (hn (steps p q) (Nat.le_refl _))
      rwa [pix_end] at this
    · rw [he] at h; simp at h
  | cons r rs ih =>
    unfold layersFind at h
    rcases layerFind_good (coarser g r) (coarse r p) (coarse r q) with ⟨_, hn⟩ | ⟨j, _, h', _, _, he⟩
    · have := stop_none_not_land (hn (steps (coarse r p) (coarse r q)) (Nat.le_refl _))
      rw [pix_end] at this
      exact fun hl => this (coarser_land (hr r (by simp)) hl)
    · rw [he] at h
      exact ih (fun r h => hr r (by simp [h])) h

/-- Where an element goes that beaches at the pixel `h` after the pixel `w`. -/
def BeachedAt (M : RMap) (h w : Int × Int) (e' : Elem) : Prop :=
  e'.lwp.xy = M.proj.toLonLatInt w.1 w.2 ∧
  (M.hl ≠ 0 → e'.status = 3 ∧ e'.nxt.xy = M.proj.toLonLatInt h.1 h.2) ∧
  (M.hl = 0 → e'.status = 2 ∧ e'.nxt.xy = M.proj.toLonLatInt w.1 w.2)

/-- Beaching of one element by cases. -/
theorem beachOne_spec (M : RMap) (hr : ∀ r ∈ M.ratios, 0 < r) (e : Elem) :
    ∃ e', beachOne M e = some e' ∧ e'.pos = e.pos ∧ e'.mass = e.mass ∧ e'.fate = e.fate ∧ e'.nw = e.nw ∧
      e'.nxt.z = max e.nxt.z 0 ∧ e'.lwp.z = e.lwp.z ∧
      ((e.status = 3 ∧ BeachedAt M (M.pixel e.nxt) (M.pixel e.lwp) e') ∨
       (e.status ≠ 3 ∧ ∃ k ≤ steps (M.pixel e.pos) (M.pixel e.nxt), ∃ h,
          stop M.grid (M.pixel e.pos) (M.pixel e.nxt) k = some h ∧
          (∀ j < k, stop M.grid (M.pixel e.pos) (M.pixel e.nxt) j = none) ∧
          BeachedAt M h (pix (M.pixel e.pos) (M.pixel e.nxt) (k - 1)) e') ∨
       (e.status ≠ 3 ∧ ¬ land M.grid (M.pixel e.nxt) ∧ e'.status = e.status ∧
          e'.nxt.xy = e.nxt.xy ∧ e'.lwp = e.lwp)) := by
  have px : M.pixel (resurface e).nxt = M.pixel e.nxt := rfl
  have pp : M.pixel (resurface e).pos = M.pixel e.pos := rfl
  have pl : M.pixel (resurface e).lwp = M.pixel e.lwp := rfl
  have ps : (resurface e).status = e.status := rfl
  have key : ∀ (h w c : Int × Int), ∃ e', (some (if M.hl = 0 ∧ (3 : Nat) = onLand then
        { (if (3 : Nat) = onLand then
            { resurface e with status := 3
                               nxt := (resurface e).nxt.setXY (M.proj.toLonLatInt h.1 h.2)
                               lwp := (resurface e).lwp.setXY (M.proj.toLonLatInt w.1 w.2) }
          else { resurface e with status := 3 }) with
            nxt := ((if (3 : Nat) = onLand then
            { resurface e with status := 3
                               nxt := (resurface e).nxt.setXY (M.proj.toLonLatInt h.1 h.2)
                               lwp := (resurface e).lwp.setXY (M.proj.toLonLatInt w.1 w.2) }
          else { resurface e with status := 3 })).nxt.setXY ((if (3 : Nat) = onLand then
            { resurface e with status := 3
                               nxt := (resurface e).nxt.setXY (M.proj.toLonLatInt h.1 h.2)
                               lwp := (resurface e).lwp.setXY (M.proj.toLonLatInt w.1 w.2) }
          else { resurface e with status := 3 })).lwp.xy, status := inWater }
      else (if (3 : Nat) = onLand then
            { resurface e with status := 3
                               nxt := (resurface e).nxt.setXY (M.proj.toLonLatInt h.1 h.2)
                               lwp := (resurface e).lwp.setXY (M.proj.toLonLatInt w.1 w.2) }
          else { resurface e with status := 3 })) : Option Elem) = some e' ∧
      e'.pos = e.pos ∧ e'.mass = e.mass ∧ e'.fate = e.fate ∧ e'.nw = e.nw ∧
      e'.nxt.z = max e.nxt.z 0 ∧ e'.lwp.z = e.lwp.z ∧ BeachedAt M h w e' := by
    intro h w _
    refine ⟨_, rfl, ?_⟩
    rw [if_pos (show (3 : Nat) = onLand from rfl)]
    by_cases hz : M.hl = 0
    · rw [if_pos ⟨hz, rfl⟩]
      exact ⟨rfl, rfl, rfl, rfl, rfl, rfl, rfl, fun h => absurd hz h, fun _ => ⟨rfl, rfl⟩⟩
    · rw [if_neg (show ¬ (M.hl = 0 ∧ (3 : Nat) = onLand) from fun h => hz h.1)]
      exact ⟨rfl, rfl, rfl, rfl, rfl, rfl, rfl, fun _ => ⟨rfl, rfl⟩, fun h => absurd h hz⟩
  unfold beachOne
  simp only
  rw [px, pp, pl, ps]
  unfold checkLayersOne
  by_cases h3 : e.status = Land.onLand
  · rw [if_pos h3]
    simp only
    have h3' : e.status = 3 := h3
    rw [h3']
    obtain ⟨e', he, a⟩ := key (M.pixel e.nxt) (M.pixel e.lwp) (0, 0)
    exact ⟨e', he, a.1, a.2.1, a.2.2.1, a.2.2.2.1, a.2.2.2.2.1, a.2.2.2.2.2.1, .inl ⟨rfl, a.2.2.2.2.2.2⟩⟩
  · rw [if_neg h3]
    have h3' : e.status ≠ 3 := h3
    have hs := C33_layers_sound_partial M.grid M.ratios (M.pixel e.pos) (M.pixel e.nxt)
    cases hf : layersFind M.grid (M.pixel e.pos) (M.pixel e.nxt) M.ratios with
    | bad => exact absurd hf hs.2.2
    | miss =>
      simp only
      have hl := layers_miss_end M.grid M.ratios hr _ _ hf
      refine ⟨_, rfl, ?_⟩
      rw [if_neg (show ¬ e.status = onLand from h3),
        if_neg (show ¬ (M.hl = 0 ∧ e.status = onLand) from fun h => h3 h.2)]
      exact ⟨rfl, rfl, rfl, rfl, rfl, rfl, .inr (.inr ⟨h3', hl, rfl, rfl, rfl⟩)⟩
    | hit a b c d =>
      simp only
      obtain ⟨e', he, a'⟩ := key (c, d) (a, b) (0, 0)
      refine ⟨e', he, a'.1, a'.2.1, a'.2.2.1, a'.2.2.2.1, a'.2.2.2.2.1, a'.2.2.2.2.2.1, .inr (.inl ⟨h3', ?_⟩)⟩
      have hh := hs.1 _ _ _ _ hf
      rcases layerFind_good M.grid (M.pixel e.pos) (M.pixel e.nxt) with ⟨hm, _⟩ | ⟨j, hj, h, hst, hn, hhit⟩
      · rw [hm] at hh; simp at hh
      · rw [hhit] at hh
        simp only [Res.hit.injEq] at hh
        refine ⟨j, hj, h, hst, hn, ?_⟩
        have e1 : h = (c, d) := Prod.ext hh.2.2.1 hh.2.2.2
        have e2 : pix (M.pixel e.pos) (M.pixel e.nxt) (j - 1) = (a, b) := Prod.ext hh.1 hh.2.1
        rw [e1, e2]
        exact a'.2.2.2.2.2.2

end Verif.MapStep

namespace Verif.MapStep
open Verif.Land Verif.Geom

/-- Beaching as a total function (it never leaves the raster's memory). -/
def beachT (M : RMap) (e : Elem) : Elem := (beachOne M e).getD e

theorem beachOne_some (M : RMap) (hr : ∀ r ∈ M.ratios, 0 < r) (e : Elem) :
    beachOne M e = some (beachT M e) := by
  obtain ⟨e', h, _⟩ := beachOne_spec M hr e
  unfold beachT; rw [h]; rfl

theorem mapM_total {α β : Type} (f : α → Option β) (g : α → β) (h : ∀ a, f a = some (g a)) (l : List α) :
    l.mapM f = some (l.map g) := by
  induction l with
  | nil => rfl
  | cons a l ih => rw [List.mapM_cons, h, ih]; rfl

theorem map_mapIdx {α β γ : Type} (f : Nat → α → β) (g : β → γ) (l : List α) :
    (l.mapIdx f).map g = l.mapIdx (fun i a => g (f i a)) := by
  apply List.ext_getElem?
  intro n
  simp only [List.getElem?_map, List.getElem?_mapIdx, Option.map_map]
  rfl

/-- The whole move of the element of index `i`, after refloating. -/
def fin (M : RMap) (ds : List (Nat → P3)) (i : Nat) (e : Elem) : Elem :=
  arrive (fateOne (markOne (offOne M.bounds (beachT M (move ds i e)))))

/-- `move_elements` always succeeds, and works element by element. -/
theorem moveElements_eq (M : RMap) (hr : ∀ r ∈ M.ratios, 0 < r) (p : ℚ) (rs : List ℚ) (ds : List (Nat → P3))
    (sc : SC) :
    moveElements M p rs ds sc = some { sc with
      els := (refloat M.hl p sc.els rs).mapIdx (fin M ds)
      beached := massOf 3 ((refloat M.hl p sc.els rs).mapIdx (fun i e => offOne M.bounds (beachT M (move ds i e))))
      offMap := sc.offMap +
        massOf 7 ((refloat M.hl p sc.els rs).mapIdx (fun i e => offOne M.bounds (beachT M (move ds i e)))) } := by
  unfold moveElements rasterBeach
  simp only
  rw [mapM_total _ _ (beachOne_some M hr)]
  simp only [setOff, map_mapIdx]
  rfl

theorem refloat_length (hl p : ℚ) (es : List Elem) (rs : List ℚ) : (refloat hl p es rs).length = es.length := by
  induction es generalizing rs with
  | nil => rfl
  | cons e es ih => simp only [refloat]; split <;> simp [ih]

/-- Every element after refloating is an element before, refloated or not. -/
theorem refloat_mem {hl p : ℚ} {es : List Elem} {rs : List ℚ} {e' : Elem} (h : e' ∈ refloat hl p es rs) :
    ∃ e ∈ es, (e' = e ∧ (e.status = 3 → hl ≠ 0)) ∨ (e.status = 3 ∧ e' = float e) := by
  induction es generalizing rs with
  | nil => simp [refloat] at h
  | cons a es ih =>
    simp only [refloat] at h
    split at h
    · rename_i h3
      rcases List.mem_cons.1 h with h | h
      · refine ⟨a, by simp, ?_⟩
        split at h
        · exact .inr ⟨h3, h⟩
        · rename_i hn
          refine .inl ⟨h, fun _ hz => hn ?_⟩
          unfold refloats; rw [hz]; simp
      · obtain ⟨e, he, hh⟩ := ih h
        exact ⟨e, by simp [he], hh⟩
    · rename_i h3
      rcases List.mem_cons.1 h with h | h
      · exact ⟨a, by simp, .inl ⟨h, fun h => absurd h h3⟩⟩
      · obtain ⟨e, he, hh⟩ := ih h
        exact ⟨e, by simp [he], hh⟩

theorem add_zero3 (p : P3) : p.add .zero = p := by
  unfold P3.add P3.zero; cases p; simp

theorem move_still (ds : List (Nat → P3)) (i : Nat) (e : Elem) (h : e.status ≠ 2) : (move ds i e).nxt = e.pos := by
  unfold move
  simp only
  have h' : ¬ e.status = inWater := h
  simp only [if_neg h']
  induction ds with
  | nil => rfl
  | cons d ds ih => rw [List.foldl_cons, add_zero3]; exact ih

theorem fateOne_fields (e : Elem) : (fateOne e).pos = e.pos ∧ (fateOne e).nxt = e.nxt ∧ (fateOne e).lwp = e.lwp ∧
    (fateOne e).status = e.status ∧ (fateOne e).mass = e.mass ∧ (fateOne e).nw = e.nw := by
  refine ⟨rfl, rfl, rfl, rfl, rfl, rfl⟩

/-- The pixel of the middle of a pixel. -/
theorem pixel_centre (M : RMap) (hP : M.proj.Ok) (p : P3) (c : Int × Int)
    (h : p.xy = M.proj.toLonLatInt c.1 c.2) : M.pixel p = c := by
  unfold RMap.pixel; rw [h, C43_pixel M.proj hP]

theorem stop_zero {g : Grid} {p q : Int × Int} (h : ¬ land g p) : stop g p q 0 = none := by
  unfold stop
  rw [pix_zero, if_neg h, if_neg (by omega)]

/-- The pixel before the first stop is not land unless the path begins on land. -/
theorem before_stop {g : Grid} {p q h : Int × Int} {k : Nat} (hp : ¬ land g p) (hs : stop g p q k = some h)
    (hn : ∀ j < k, stop g p q j = none) : ¬ land g (pix p q (k - 1)) := by
  cases k with
  | zero => rw [stop_zero hp] at hs; simp at hs
  | succ k => exact stop_none_not_land (hn k (by omega))

/-- What holds of every element before it is moved. -/
structure Ready (M : RMap) (e : Elem) : Prop where
  st : e.status = 2 ∨ e.status = 3
  l3 : e.status = 3 → land M.grid (M.pixel e.pos)
  z2 : M.hl = 0 → e.status = 2 ∧ ¬ land M.grid (M.pixel e.pos)

/-- What holds of every element of a run between the steps. -/
structure Placed (M : RMap) (e : Elem) : Prop where
  st : e.status = 2 ∨ e.status = 3
  l3 : e.status = 3 → land M.grid (M.pixel e.pos)
  l2 : e.status = 2 → ¬ land M.grid (M.pixel e.pos)
  w3 : M.hl = 0 → e.status = 3 → ¬ land M.grid (M.pixel e.lwp)

theorem ready_of_refloat {M : RMap} {p : ℚ} {es : List Elem} {rs : List ℚ} (h : ∀ e ∈ es, Placed M e) :
    ∀ e ∈ refloat M.hl p es rs, Ready M e := by
  intro e' he'
  obtain ⟨e, he, ⟨hh, hz⟩ | ⟨h3, hh⟩⟩ := refloat_mem he'
  · subst hh
    have := h e' he
    refine ⟨this.st, this.l3, fun h0 => ?_⟩
    have h2 : e'.status = 2 := this.st.resolve_right (fun h => hz h h0)
    exact ⟨h2, this.l2 h2⟩
  · subst hh
    have := h e he
    exact ⟨.inl rfl, fun h => absurd h (show ¬ (2 : Nat) = 3 by decide), fun h0 => ⟨rfl, this.w3 h0 h3⟩⟩

/-- The result of moving one element. -/
theorem fin_spec (M : RMap) (hr : ∀ r ∈ M.ratios, 0 < r) (hP : M.proj.Ok) (ds : List (Nat → P3)) (i : Nat) (e : Elem)
    (h : Ready M e) :
    ((fin M ds i e).status = 12 ∨ (Placed M (fin M ds i e) ∧ onMap M.bounds (fin M ds i e).pos = true)) ∧
    0 ≤ (fin M ds i e).pos.z := by
  obtain ⟨e', he, hpos, _, _, _, hz, _, hc⟩ := beachOne_spec M hr (move ds i e)
  have hb : beachT M (move ds i e) = e' := by unfold beachT; rw [he]; rfl
  have mp : (move ds i e).pos = e.pos := rfl
  have ms : (move ds i e).status = e.status := rfl
  have hfp : (fin M ds i e).pos = e'.nxt := by
    unfold fin arrive fateOne markOne offOne; rw [hb]; simp only
    split <;> split <;> rfl
  have hfl : (fin M ds i e).lwp = e'.lwp := by
    unfold fin arrive fateOne markOne offOne; rw [hb]; simp only
    split <;> split <;> rfl
  constructor
  · by_cases ho : onMap M.bounds e'.nxt = true
    · right
      have hfs : e'.status ≠ 7 → (fin M ds i e).status = e'.status := by
        intro h7
        unfold fin arrive fateOne markOne offOne
        rw [hb, if_pos ho, if_neg (show ¬ e'.status = offMaps from h7)]
      rw [hfp]
      refine ⟨?_, ho⟩
      have build : (e'.status = 2 ∨ e'.status = 3) → (e'.status = 3 → M.hl ≠ 0) →
          (e'.status = 3 → land M.grid (M.pixel e'.nxt)) →
          (e'.status = 2 → ¬ land M.grid (M.pixel e'.nxt)) → Placed M (fin M ds i e) := by
        intro a b c d
        have hs : (fin M ds i e).status = e'.status := hfs (by omega)
        exact ⟨by rw [hs]; exact a, by rw [hs, hfp]; exact c, by rw [hs, hfp]; exact d,
          by rw [hs]; exact fun h0 h3 => absurd h0 (b h3)⟩
      rcases hc with ⟨h3, hB⟩ | ⟨h3, k, hk, w, hs, hn, hB⟩ | ⟨h3, hl, hst, hnx, _⟩
      · have hne : M.hl ≠ 0 := fun h0 => by have := (h.z2 h0).1; rw [ms] at h3; omega
        obtain ⟨hs3, hx⟩ := hB.2.1 hne
        have hpx := pixel_centre M hP e'.nxt _ hx
        refine build (.inr hs3) (fun _ => hne) (fun _ => ?_) (fun h => by omega)
        rw [hpx, move_still ds i e (by rw [← ms]; omega)]
        exact h.l3 h3
      · by_cases h0 : M.hl = 0
        · obtain ⟨hs2, hx⟩ := hB.2.2 h0
          have hpx := pixel_centre M hP e'.nxt _ hx
          refine build (.inl hs2) (fun h => by omega) (fun h => by omega) (fun _ => ?_)
          rw [hpx]
          exact before_stop (h.z2 h0).2 hs hn
        · obtain ⟨hs3, hx⟩ := hB.2.1 h0
          have hpx := pixel_centre M hP e'.nxt _ hx
          refine build (.inr hs3) (fun _ => h0) (fun _ => ?_) (fun h => by omega)
          rw [hpx]
          exact stop_land hs
      · have hst2 : e'.status = 2 := by rw [hst, ms]; exact h.st.resolve_right h3
        refine build (.inl hst2) (fun h => by omega) (fun h => by omega) (fun _ => ?_)
        have : M.pixel e'.nxt = M.pixel (move ds i e).nxt := by unfold RMap.pixel; rw [hnx]
        rw [this]; exact hl
    · left
      unfold fin arrive fateOne markOne offOne
      rw [hb, if_neg ho]
      rfl
  · rw [hfp, hz]; exact le_max_right _ _

theorem landPoint_iff (g : Grid) (hg : ∀ v ∈ g.data, v ≤ 1) (c : Int × Int) :
    landPoint g c = true ↔ land g c := by
  unfold landPoint land inside
  have hv : g.data.getD (c.1.toNat * g.n + c.2.toNat) 0 ≤ 1 := by
    rw [List.getD_eq_getElem?_getD]
    cases hh : g.data[c.1.toNat * g.n + c.2.toNat]? with
    | none => simp
    | some v => exact hg v (List.mem_of_getElem? hh)
  simp only [Bool.and_eq_true, Bool.not_eq_true', Bool.or_eq_false_iff, decide_eq_false_iff_not, decide_eq_true_eq]
  omega

end Verif.MapStep
