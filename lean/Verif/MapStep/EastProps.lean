import Verif.MapStep.Props
import Verif.Mover.MoveModel
import Mathlib.Data.List.Forall2
import Mathlib.Tactic.Ring

/-!
# C352: moving everything on the map

Everything of a run is moved by the same number of degrees: releases, map bounds, the raster with its projection, the fields of
current, wind and ice.  The elements move along, and statuses, masses and the mass balance are the same.  The models are those of
`MapStep` (one step on a raster map) and `Mover` (moves of the movers).
-/

namespace Verif.MapStep.East
open Verif.Geom
open Verif.Land (Grid checkLayersOne)
open Verif.MapStep

/-! ## What it means to move -/

def mvPt (s q : Pt) : Pt := ⟨q.x + s.x, q.y + s.y⟩

def mv3 (s : Pt) (p : P3) : P3 := ⟨p.x + s.x, p.y + s.y, p.z⟩

def mvProj (s : Pt) (P : Proj) : Proj := { P with cx := P.cx + s.x, cy := P.cy + s.y }

def mvMap (s : Pt) (M : RMap) : RMap := { M with proj := mvProj s M.proj, bounds := M.bounds.map (mvPt s) }

def mvBox (s : Pt) (b : LBox) : LBox := ⟨b.x0 + s.x, b.y0 + s.y, b.x1 + s.x, b.y1 + s.y⟩

def mvNew (s : Pt) (n : New) : New := { n with pos := mv3 s n.pos }

/-- The releases are moved; the movers' displacements, the random numbers and the losses stay. -/
def mvOp (s : Pt) : Op → Op
  | .rel ns => .rel (ns.map (mvNew s))
  | .step p rs ds loss => .step p rs ds loss

/-- What a user sees of a container: positions, statuses, masses, fates, and the mass balance. -/
def seen (sc : SC) : List (P3 × Nat × ℚ × Nat) × ℚ × ℚ × ℚ × ℚ :=
  (sc.els.map fun e => (e.pos, e.status, e.mass, e.fate), sc.beached, sc.offMap, sc.lost, sc.released)

/-- The same, moved. -/
def mvSeen (s : Pt) (v : List (P3 × Nat × ℚ × Nat) × ℚ × ℚ × ℚ × ℚ) : List (P3 × Nat × ℚ × Nat) × ℚ × ℚ × ℚ × ℚ :=
  (v.1.map fun e => (mv3 s e.1, e.2), v.2)

/-- No element is released on land. -/
def Wet (M : RMap) : Op → Prop
  | .rel ns => ∀ n ∈ ns, landPoint M.grid (M.pixel n.pos) = false
  | .step .. => True

/-! ## Geometry -/

theorem crosses_mv (s p a b : Pt) : crosses (mvPt s p) (mvPt s a) (mvPt s b) = crosses p a b := by
  unfold crosses mvPt
  simp only [gt_iff_lt, add_lt_add_iff_right, add_sub_add_right_eq_sub]
  have h : ∀ u : ℚ, (p.x + s.x < u + (a.x + s.x)) = (p.x < u + a.x) := by
    intro u
    rw [← add_assoc, add_lt_add_iff_right]
  simp only [h]

theorem pip_mv (s p : Pt) : ∀ (vs : List Pt) (j : Pt) (c : Bool),
    pipLoop (mvPt s p) (mvPt s j) (vs.map (mvPt s)) c = pipLoop p j vs c := by
  intro vs
  induction vs with
  | nil => intro j c; rfl
  | cons v vs ih => intro j c; simp only [List.map_cons, pipLoop, crosses_mv]; exact ih _ _

/-- Being in a polygon does not depend on where polygon and point are. -/
theorem C352_polygon (s p : Pt) (vs : List Pt) : inPoly (vs.map (mvPt s)) (mvPt s p) = inPoly vs p := by
  unfold inPoly
  rw [List.getLast?_map]
  cases vs.getLast? with
  | none => rfl
  | some l => exact pip_mv s p vs l false

/-- The projections for a moved box are those of the box, moved; the scale of `FlatEarthProjection` depends on the latitude of the
middle, so that one is for moves in longitude, where the factor `k` is the same. -/
theorem C352_projection (s : Pt) (b : LBox) (W H : Int) (k : Rat) :
    geoScale (mvBox s b) W H = mvProj s (geoScale b W H) ∧ gridScale (mvBox s b) W H = mvProj s (gridScale b W H) ∧
      flatScale k (mvBox s b) W H = mvProj s (flatScale k b W H) := by
  unfold geoScale gridScale flatScale mvBox mvProj
  simp only [add_sub_add_right_eq_sub, Proj.mk.injEq, and_true]
  refine ⟨⟨?_, ?_⟩, ⟨?_, ?_⟩, ?_, ?_⟩ <;> ring

theorem pixel_mv (s : Pt) (M : RMap) (p : P3) : (mvMap s M).pixel (mv3 s p) = M.pixel p := by
  unfold RMap.pixel mvMap mvProj Proj.toPixelInt Proj.toPixel mv3 P3.xy
  simp only [add_sub_add_right_eq_sub]

theorem lonlat_mv (s : Pt) (P : Proj) (i j : Int) : (mvProj s P).toLonLatInt i j = mvPt s (P.toLonLatInt i j) := by
  unfold Proj.toLonLatInt Proj.toLonLat mvProj mvPt
  simp only [add_assoc]

theorem onMap_mv (s : Pt) (M : RMap) (p : P3) : onMap (mvMap s M).bounds (mv3 s p) = onMap M.bounds p :=
  C352_polygon s p.xy M.bounds

/-! ## One element -/

/-- Two elements that correspond.  The last position in water counts for elements on land only. -/
structure Rel (s : Pt) (e e' : Elem) : Prop where
  pos : e'.pos = mv3 s e.pos
  status : e'.status = e.status
  mass : e'.mass = e.mass
  fate : e'.fate = e.fate
  nw : e'.nw = e.nw
  lz : e'.lwp.z = e.lwp.z
  lwp : e.status = 3 → e'.lwp = mv3 s e.lwp

/-- And with the next positions. -/
structure RelN (s : Pt) (e e' : Elem) : Prop extends Rel s e e' where
  nxt : e'.nxt = mv3 s e.nxt

theorem float_rel {s : Pt} {e e' : Elem} (h : Rel s e e') (h3 : e.status = 3) : Rel s (float e) (float e') :=
  ⟨h.lwp h3, rfl, h.mass, h.fate, h.nw, h.lz, fun hh => absurd hh (show ¬ (2 : Nat) = 3 by decide)⟩

theorem refloat_rel {s : Pt} (hl p : ℚ) {es es' : List Elem} (h : List.Forall₂ (Rel s) es es') :
    ∀ rs, List.Forall₂ (Rel s) (refloat hl p es rs) (refloat hl p es' rs) := by
  induction h with
  | nil => intro rs; exact .nil
  | @cons e e' es es' h _ ih =>
    intro rs
    simp only [refloat, h.status]
    by_cases h3 : e.status = onLand
    · simp only [if_pos h3]
      refine .cons ?_ (ih _)
      by_cases hr : refloats hl p (rs.headD 1) = true
      · simp only [if_pos hr]; exact float_rel h h3
      · simp only [if_neg hr]; exact h
    · simp only [if_neg h3]
      exact .cons h (ih _)

theorem add_mv (s : Pt) (p d : P3) : (mv3 s p).add d = mv3 s (p.add d) := by
  unfold mv3 P3.add
  simp only [P3.mk.injEq, and_true]
  constructor <;> ring

theorem fold_mv (s : Pt) (q : (Nat → P3) → P3) : ∀ (ds : List (Nat → P3)) (p : P3),
    ds.foldl (fun a d => a.add (q d)) (mv3 s p) = mv3 s (ds.foldl (fun a d => a.add (q d)) p) := by
  intro ds
  induction ds with
  | nil => intro p; rfl
  | cons d ds ih => intro p; rw [List.foldl_cons, add_mv, ih]; rfl

theorem move_rel {s : Pt} {e e' : Elem} (h : Rel s e e') (ds : List (Nat → P3)) (i : Nat) : RelN s (move ds i e) (move ds i e') := by
  refine ⟨⟨h.pos, h.status, h.mass, h.fate, h.nw, h.lz, h.lwp⟩, ?_⟩
  unfold move
  simp only [h.pos, h.status]
  exact fold_mv s (fun d => if e.status = inWater then d i else .zero) ds e.pos

theorem beach_rel {s : Pt} {M : RMap} {e e' r : Elem} (h : RelN s e e') (hr : beachOne M e = some r) :
    ∃ r', beachOne (mvMap s M) e' = some r' ∧ RelN s r r' := by
  have hn : (resurface e').nxt = mv3 s (resurface e).nxt := by
    unfold resurface; rw [h.nxt]; rfl
  have hp1 : (mvMap s M).pixel (resurface e').pos = M.pixel (resurface e).pos := by
    rw [show (resurface e').pos = mv3 s (resurface e).pos from h.pos, pixel_mv]
  have hp2 : (mvMap s M).pixel (resurface e').nxt = M.pixel (resurface e).nxt := by rw [hn, pixel_mv]
  have hs : (resurface e').status = (resurface e).status := h.status
  have hz : (resurface e').nxt.z = (resurface e).nxt.z := by rw [hn]; rfl
  have hx : ∀ q : Pt, ∀ a b : P3, a.z = b.z → a.setXY (mvPt s q) = mv3 s (b.setXY q) := by
    intro q a b hab
    unfold P3.setXY mvPt mv3
    simp only [hab]
  have land : ∀ (c w : Int × Int), ∀ r,
      (if M.hl = 0 ∧ (3 : Nat) = onLand then
        { (({ resurface e with status := 3
                               nxt := (resurface e).nxt.setXY (M.proj.toLonLatInt c.1 c.2)
                               lwp := (resurface e).lwp.setXY (M.proj.toLonLatInt w.1 w.2) } : Elem)) with
          nxt := (resurface e).nxt.setXY (M.proj.toLonLatInt w.1 w.2), status := inWater }
      else
        ({ resurface e with status := 3
                            nxt := (resurface e).nxt.setXY (M.proj.toLonLatInt c.1 c.2)
                            lwp := (resurface e).lwp.setXY (M.proj.toLonLatInt w.1 w.2) } : Elem)) = r →
      RelN s r (if M.hl = 0 ∧ (3 : Nat) = onLand then
        { (({ resurface e' with status := 3
                                nxt := (resurface e').nxt.setXY ((mvProj s M.proj).toLonLatInt c.1 c.2)
                                lwp := (resurface e').lwp.setXY ((mvProj s M.proj).toLonLatInt w.1 w.2) } : Elem)) with
          nxt := (resurface e').nxt.setXY ((mvProj s M.proj).toLonLatInt w.1 w.2), status := inWater }
      else
        ({ resurface e' with status := 3
                             nxt := (resurface e').nxt.setXY ((mvProj s M.proj).toLonLatInt c.1 c.2)
                             lwp := (resurface e').lwp.setXY ((mvProj s M.proj).toLonLatInt w.1 w.2) } : Elem)) := by
    intro c w r hh
    subst hh
    have hw := hx (M.proj.toLonLatInt w.1 w.2) (resurface e').lwp (resurface e).lwp h.lz
    simp only [lonlat_mv, hx _ _ _ hz, hw]
    split
    · exact ⟨⟨h.pos, rfl, h.mass, h.fate, h.nw, rfl, fun hh => rfl⟩, rfl⟩
    · exact ⟨⟨h.pos, rfl, h.mass, h.fate, h.nw, rfl, fun hh => rfl⟩, rfl⟩
  unfold beachOne at hr ⊢
  simp only [hp1, hp2, hs] at hr ⊢
  unfold checkLayersOne at hr ⊢
  by_cases h3 : (resurface e).status = Land.onLand
  · have hl : (mvMap s M).pixel (resurface e').lwp = M.pixel (resurface e).lwp := by
      rw [show (resurface e').lwp = mv3 s (resurface e).lwp from h.lwp h3, pixel_mv]
    have h3' : (resurface e).status = 3 := h3
    rw [hl]
    rw [if_pos h3] at hr ⊢
    simp only [h3'] at hr ⊢
    refine ⟨_, rfl, ?_⟩
    exact land _ _ r (Option.some.inj hr)
  · rw [if_neg h3] at hr ⊢
    have hg : (mvMap s M).grid = M.grid := rfl
    have hrt : (mvMap s M).ratios = M.ratios := rfl
    simp only [hg, hrt] at hr ⊢
    cases hf : Land.layersFind M.grid (M.pixel (resurface e).pos) (M.pixel (resurface e).nxt) M.ratios with
    | bad => rw [hf] at hr; simp at hr
    | miss =>
      rw [hf] at hr
      simp only at hr ⊢
      have h3' : ¬ (resurface e).status = onLand := h3
      rw [if_neg h3', if_neg (fun hh => h3' hh.2)] at hr
      rw [if_neg h3', if_neg (fun hh => h3' hh.2)]
      refine ⟨_, rfl, ?_⟩
      rw [← Option.some.inj hr]
      exact ⟨⟨h.pos, rfl, h.mass, h.fate, h.nw, h.lz, fun hh => absurd hh h3⟩, hn⟩
    | hit a b c d =>
      rw [hf] at hr
      simp only at hr ⊢
      refine ⟨_, rfl, ?_⟩
      exact land (c, d) (a, b) r (Option.some.inj hr)

theorem off_rel {s : Pt} {M : RMap} {e e' : Elem} (h : RelN s e e') : RelN s (offOne M.bounds e) (offOne (mvMap s M).bounds e') := by
  unfold offOne
  rw [h.nxt, onMap_mv]
  split
  · exact h
  · exact ⟨⟨h.pos, rfl, h.mass, h.fate, h.nw, h.lz, fun hh => absurd hh (show ¬ (7 : Nat) = 3 by decide)⟩, rfl⟩

theorem end_rel {s : Pt} {e e' : Elem} (h : RelN s e e') : Rel s (arrive (fateOne (markOne e))) (arrive (fateOne (markOne e'))) := by
  have hm : RelN s (markOne e) (markOne e') := by
    unfold markOne
    rw [h.status]
    split
    · exact ⟨⟨h.pos, rfl, h.mass, h.fate, h.nw, h.lz, fun hh => absurd hh (show ¬ (12 : Nat) = 3 by decide)⟩, h.nxt⟩
    · exact h
  refine ⟨hm.nxt, hm.status, hm.mass, ?_, hm.nw, hm.lz, hm.lwp⟩
  have hz : (markOne e').pos.z = (markOne e).pos.z := by rw [hm.pos]; rfl
  show (fateOne (markOne e')).fate = (fateOne (markOne e)).fate
  unfold fateOne
  simp only [hm.status, hm.fate, hm.nw, hz]

/-! ## Lists of elements -/

theorem forall₂_mapIdx {α β γ δ : Type} {R : α → β → Prop} {S : γ → δ → Prop} {f : Nat → α → γ} {g : Nat → β → δ} {l : List α} {l' : List β}
    (h : List.Forall₂ R l l') (hfg : ∀ i a b, R a b → S (f i a) (g i b)) : List.Forall₂ S (l.mapIdx f) (l'.mapIdx g) := by
  induction h generalizing f g with
  | nil => exact .nil
  | cons h _ ih =>
    rw [List.mapIdx_cons, List.mapIdx_cons]
    exact .cons (hfg _ _ _ h) (ih fun i a b => hfg (i + 1) a b)

theorem forall₂_mapM {s : Pt} {M : RMap} {l l' : List Elem} (h : List.Forall₂ (RelN s) l l') :
    ∀ r, l.mapM (beachOne M) = some r → ∃ r', l'.mapM (beachOne (mvMap s M)) = some r' ∧ List.Forall₂ (RelN s) r r' := by
  induction h with
  | nil => intro r hr; exact ⟨[], rfl, by cases hr; exact .nil⟩
  | @cons e e' l l' h _ ih =>
    intro r hr
    rw [List.mapM_cons] at hr
    cases hb : beachOne M e with
    | none => rw [hb] at hr; cases hr
    | some b =>
      cases hm : l.mapM (beachOne M) with
      | none => rw [hb, hm] at hr; cases hr
      | some bs =>
        rw [hb, hm] at hr
        obtain ⟨b', hb', h1⟩ := beach_rel h hb
        obtain ⟨bs', hm', h2⟩ := ih bs hm
        refine ⟨b' :: bs', ?_, ?_⟩
        · rw [List.mapM_cons, hb', hm']; rfl
        · cases hr; exact .cons h1 h2

theorem massOf_rel {s : Pt} (st : Nat) {l l' : List Elem} (h : List.Forall₂ (RelN s) l l') : massOf st l' = massOf st l := by
  unfold massOf
  induction h with
  | nil => rfl
  | @cons e e' l l' h _ ih =>
    simp only [List.filter_cons, h.status]
    split
    · simp only [List.map_cons, List.sum_cons, h.mass, ih]
    · exact ih

/-- Two containers that correspond. -/
structure RelS (s : Pt) (a b : SC) : Prop where
  els : List.Forall₂ (Rel s) a.els b.els
  beached : b.beached = a.beached
  offMap : b.offMap = a.offMap
  lost : b.lost = a.lost
  released : b.released = a.released

theorem move_sc {s : Pt} {M : RMap} {p : ℚ} {rs : List ℚ} {ds : List (Nat → P3)} {a b r : SC} (h : RelS s a b)
    (hr : moveElements M p rs ds a = some r) : ∃ r', moveElements (mvMap s M) p rs ds b = some r' ∧ RelS s r r' := by
  have h1 := refloat_rel M.hl p h.els rs
  have h2 := forall₂_mapIdx (S := RelN s) h1 (fun i x y hxy => move_rel hxy ds i)
  unfold moveElements rasterBeach at hr ⊢
  simp only at hr ⊢
  cases hm : ((refloat M.hl p a.els rs).mapIdx (move ds)).mapM (beachOne M) with
  | none => rw [hm] at hr; cases hr
  | some bs =>
    obtain ⟨bs', hm', h3⟩ := forall₂_mapM h2 bs hm
    rw [hm] at hr
    rw [show (mvMap s M).hl = M.hl from rfl, hm']
    simp only [Option.some.injEq] at hr ⊢
    subst hr
    have h4 : List.Forall₂ (RelN s) (bs.map (offOne M.bounds)) (bs'.map (offOne (mvMap s M).bounds)) := by
      rw [List.forall₂_map_left_iff, List.forall₂_map_right_iff]
      exact h3.imp fun _ _ hxy => off_rel hxy
    refine ⟨_, rfl, ⟨?_, ?_, ?_, h.lost, h.released⟩⟩
    · simp only [setOff]
      rw [List.forall₂_map_left_iff, List.forall₂_map_right_iff]
      exact h4.imp fun _ _ hxy => end_rel hxy
    · exact massOf_rel onLand h4
    · show b.offMap + massOf offMaps _ = a.offMap + massOf offMaps _
      rw [massOf_rel offMaps h4, h.offMap]

theorem weathers_rel {s : Pt} {e e' : Elem} (h : Rel s e e') : weathers e' = weathers e := by
  unfold weathers
  rw [h.fate, h.mass]

theorem weather_rel {s : Pt} (loss : Nat → ℚ) {a b : SC} (h : RelS s a b) : RelS s (weather loss a) (weather loss b) := by
  have hl : b.els.mapIdx (fun i e => if weathers e then loss i else 0) = a.els.mapIdx (fun i e => if weathers e then loss i else 0) := by
    have := forall₂_mapIdx (S := fun x y : ℚ => y = x) (f := fun i e => if weathers e then loss i else 0)
      (g := fun i e => if weathers e then loss i else 0) h.els (by intro i x y hxy; simp only [weathers_rel hxy])
    have h2 := List.Forall₂.flip this
    exact List.forall₂_eq_eq_eq ▸ h2
  refine ⟨?_, h.beached, h.offMap, ?_, h.released⟩
  · refine forall₂_mapIdx h.els ?_
    intro i x y hxy
    simp only [weathers_rel hxy]
    split
    · exact ⟨hxy.pos, hxy.status, by simp only [hxy.mass], hxy.fate, hxy.nw, hxy.lz, hxy.lwp⟩
    · exact hxy
  · show b.lost + _ = a.lost + _
    rw [hl, h.lost]

theorem remove_rel {s : Pt} {a b : SC} (h : RelS s a b) : RelS s (remove a) (remove b) := by
  refine ⟨?_, h.beached, h.offMap, h.lost, h.released⟩
  unfold remove
  simp only
  have := h.els
  revert this
  generalize a.els = l
  generalize b.els = l'
  intro this
  induction this with
  | nil => exact .nil
  | @cons e e' l l' h _ ih =>
    simp only [List.filter_cons, h.status]
    split
    · exact .cons h ih
    · exact ih

theorem release_rel {s : Pt} {M : RMap} {ns : List New} {a b : SC} (h : RelS s a b) (hw : Wet M (.rel ns)) :
    RelS s (release M ns a) (release (mvMap s M) (ns.map (mvNew s)) b) := by
  refine ⟨?_, h.beached, h.offMap, h.lost, ?_⟩
  · unfold release
    simp only
    refine List.rel_append h.els ?_
    rw [List.map_map, List.forall₂_map_left_iff, List.forall₂_map_right_iff, List.forall₂_same]
    intro n hn
    have h1 : landPoint M.grid (M.pixel n.pos) = false := hw n hn
    have h2 : (mvMap s M).pixel (mvNew s n).pos = M.pixel n.pos := pixel_mv s M n.pos
    have h3 : landPoint (mvMap s M).grid (M.pixel n.pos) = false := h1
    simp only [Function.comp_apply]
    unfold mkElem
    simp only [h1, h2, h3]
    exact ⟨rfl, rfl, rfl, rfl, rfl, rfl, fun hh => absurd hh (show ¬ (2 : Nat) = 3 by decide)⟩
  · unfold release
    simp only [h.released, List.map_map]
    rfl

theorem run_rel {s : Pt} {M : RMap} : ∀ (ops : List Op), (∀ o ∈ ops, Wet M o) → ∀ {a b r : SC}, RelS s a b →
    run M ops a = some r → ∃ r', run (mvMap s M) (ops.map (mvOp s)) b = some r' ∧ RelS s r r' := by
  intro ops
  induction ops with
  | nil => intro _ a b r h hr; cases hr; exact ⟨b, rfl, h⟩
  | cons o os ih =>
    intro hw a b r h hr
    have hw1 := hw o (by simp)
    have hw2 : ∀ o ∈ os, Wet M o := fun x hx => hw x (by simp [hx])
    cases o with
    | rel ns => exact ih hw2 (release_rel h hw1) hr
    | step p rs ds loss =>
      simp only [run, exec, stepR] at hr
      cases hm : moveElements M p rs ds a with
      | none => rw [hm] at hr; cases hr
      | some x =>
        rw [hm] at hr
        obtain ⟨x', hx', hx⟩ := move_sc h hm
        obtain ⟨r', h1, h2⟩ := ih hw2 (remove_rel (weather_rel loss hx)) hr
        refine ⟨r', ?_, h2⟩
        simp only [List.map_cons, mvOp, run, exec, stepR, hx']
        exact h1

/-! ## Whole runs -/

/-- The claim: a run that is moved as a whole gives the same picture, moved. -/
def C352_claim : Prop := ∀ (s : Pt) (M : RMap) (ops : List Op) (sc : SC), run M ops SC.empty = some sc →
  ∃ sc', run (mvMap s M) (ops.map (mvOp s)) SC.empty = some sc' ∧ seen sc' = mvSeen s (seen sc)

/-- **C352** for runs in which no element is released on land. -/
theorem C352_run_partial (s : Pt) (M : RMap) (ops : List Op) (hw : ∀ o ∈ ops, Wet M o) (sc : SC) (h : run M ops SC.empty = some sc) :
    ∃ sc', run (mvMap s M) (ops.map (mvOp s)) SC.empty = some sc' ∧ seen sc' = mvSeen s (seen sc) := by
  obtain ⟨sc', h1, h2⟩ := run_rel (s := s) ops hw (a := SC.empty) (b := SC.empty) ⟨.nil, rfl, rfl, rfl, rfl⟩ h
  refine ⟨sc', h1, ?_⟩
  unfold seen mvSeen
  simp only [h2.beached, h2.offMap, h2.lost, h2.released, Prod.mk.injEq, and_true]
  have := h2.els
  revert this
  generalize sc.els = l
  generalize sc'.els = l'
  intro this
  induction this with
  | nil => rfl
  | cons h _ ih => simp only [List.map_cons, h.pos, h.status, h.mass, h.fate, ih]

/-- A release on land and a step in which the element refloats. -/
def ashore : List Op := [.rel [⟨⟨5/2, 1/2, 0⟩, 10, 2, false⟩], .step (1/2) [1/4] [] (fun _ => 0)]

/-- An element released on land has (0, 0) as its last position in water, wherever the run is: it refloats to there. -/
theorem C352_counterexample : ¬ C352_claim := by
  intro h
  have h0 : (run (demoMap2 1) ashore SC.empty).map (fun sc => sc.els.map fun e => e.pos.x) = some [0] := by decide +kernel
  have h1 : (run (mvMap ⟨10, 0⟩ (demoMap2 1)) (ashore.map (mvOp ⟨10, 0⟩)) SC.empty).map (fun sc => sc.els.map fun e => e.pos.x) =
    some [0] := by decide +kernel
  cases hr : run (demoMap2 1) ashore SC.empty with
  | none => rw [hr] at h0; cases h0
  | some sc =>
    obtain ⟨sc', h2, h3⟩ := h ⟨10, 0⟩ (demoMap2 1) ashore sc hr
    rw [hr] at h0
    rw [h2] at h1
    have h0' : sc.els.map (fun e => e.pos.x) = [0] := Option.some.inj h0
    have h1' : sc'.els.map (fun e => e.pos.x) = [0] := Option.some.inj h1
    have h4 := congrArg (fun v => v.1.map fun e => e.1.x) h3
    simp only [seen, mvSeen, mv3, List.map_map] at h4
    have h5 : sc'.els.map (fun e => e.pos.x) = (sc.els.map fun e => e.pos.x).map (· + 10) := by
      rw [List.map_map]; exact h4
    rw [h0', h1'] at h5
    norm_num at h5

/-- An element that beaches, in a run moved by (10, -3). -/
example : (run (mvMap ⟨10, -3⟩ (demoMap2 1)) ([.rel [⟨⟨1/2, 1/2, 0⟩, 10, 2, false⟩], .step (1/2) [] [fun _ => ⟨2, 0, 0⟩] (fun _ => 0)].map
    (mvOp ⟨10, -3⟩)) SC.empty).map (fun sc => (seen sc).1) = some [(⟨25/2, -5/2, 0⟩, 3, 10, 1)] := by decide +kernel

end Verif.MapStep.East

namespace Verif.Mover.East
open Verif.Mover Verif.Integ Verif.TimeUtil

/-! ## The moves of the movers -/

/-- A position `a` degrees further east. -/
noncomputable def mvV (a : ℝ) (p : V) : V := (p.1 + a, p.2)

noncomputable def mvLE (a : ℝ) (e : LE) : LE := { e with pos := mvV a e.pos }

/-- A mover whose fields are moved. -/
noncomputable def mvMover (a : ℝ) : AnyMover → AnyMover
  | .current active scale dm unc => .current active scale (fun p => dm (mvV (-a) p)) unc
  | .wind active scale dm unc => .wind active scale (fun p => dm (mvV (-a) p)) unc
  | .iceRandom active coef factor r1 r2 ice => .iceRandom active coef factor r1 r2 (fun e => ice (mvLE (-a) e))
  | m => m

theorem mv_back (a : ℝ) (p : V) : mvV (-a) (mvV a p) = p := by
  unfold mvV
  simp

theorem mvLE_back (a : ℝ) (e : LE) : mvLE (-a) (mvLE a e) = e := by
  unfold mvLE
  simp only [mv_back]

theorem m2l_mv (a : ℝ) (d p : V) : m2l d (mvV a p) = m2l d p := rfl

theorem add_mv (a : ℝ) (p d : V) : mvV a p + d = mvV a (p + d) := by
  unfold mvV
  exact Prod.ext (by show p.1 + a + d.1 = p.1 + d.1 + a; ring) rfl

/-- **C352**: the displacement found by each numerical method in a moved field. -/
theorem C352_delta (a : ℝ) (m : Method) (z : Zone) (vel : V → Rat → V) (dt : Rat) (t : Int) (p : V) :
    delta m z (fun q => vel (mvV (-a) q)) dt t (mvV a p) = delta m z vel dt t p := by
  cases m with
  | euler => simp only [delta, euler, mv_back]
  | rk2 => simp only [delta, rk2, m2l_mv, add_mv, mv_back]
  | rk4 => simp only [delta, rk4, m2l_mv, add_mv, mv_back]

theorem rowwise_mv (a : ℝ) (f g : Nat → LE → V) (h : ∀ i e, g i (mvLE a e) = f i e) (els : List LE) :
    rowwise g (els.map (mvLE a)) = rowwise f els := by
  unfold rowwise
  apply List.ext_getElem?
  intro n
  simp only [List.getElem?_mapIdx, List.getElem?_map, Option.map_map]
  congr 1
  funext e
  exact h n e

theorem unsigned_mv (a : ℝ) (active : Bool) (dt : ℝ) (els : List LE) (mv : List V) :
    unsignedStep active dt (els.map (mvLE a)) mv = unsignedStep active dt els mv := by
  unfold unsignedStep
  by_cases h : els = []
  · simp [h]
  · have : els.map (mvLE a) ≠ [] := by simpa using h
    by_cases h2 : active = true ∧ dt < 0
    · rw [if_pos ⟨h2.1, this, h2.2⟩, if_pos ⟨h2.1, h, h2.2⟩]
    · rw [if_neg (fun hh => h2 ⟨hh.1, hh.2.2⟩), if_neg (fun hh => h2 ⟨hh.1, hh.2.2⟩)]

/-- **C352**: every mover gives moved elements in a moved field the moves of the elements. -/
theorem C352_move (a dt : ℝ) (m : AnyMover) (els : List LE) : (mvMover a m).move dt (els.map (mvLE a)) = m.move dt els := by
  cases m with
  | simple vel scale active on uncertain r => exact congrArg some (rowwise_mv a _ _ (fun i e => rfl) els)
  | current active scale dm unc =>
    refine congrArg some (rowwise_mv a _ _ (fun i e => ?_) els)
    unfold currentRow mvLE
    simp only [mv_back, m2l_mv]
    rfl
  | wind active scale dm unc =>
    refine congrArg some (rowwise_mv a _ _ (fun i e => ?_) els)
    unfold windRow mvLE
    simp only [mv_back, m2l_mv]
    rfl
  | pointWind active uv unc => exact congrArg some (rowwise_mv a _ _ (fun i e => rfl) els)
  | random active coef factor r1 r2 => exact congrArg some (rowwise_mv a _ _ (fun i e => rfl) els)
  | iceRandom active coef factor r1 r2 ice =>
    refine congrArg some ?_
    unfold iceRandomMove
    have h : (∃ e ∈ els.map (mvLE a), 2 / 10 ≤ ice (mvLE (-a) e)) ↔ ∃ e ∈ els, 2 / 10 ≤ ice e := by
      constructor
      · rintro ⟨_, he, h2⟩
        obtain ⟨e, he', rfl⟩ := List.mem_map.1 he
        rw [mvLE_back] at h2
        exact ⟨e, he', h2⟩
      · rintro ⟨e, he, h2⟩
        exact ⟨_, List.mem_map_of_mem he, by rw [mvLE_back]; exact h2⟩
    by_cases hc : ∃ e ∈ els, 2 / 10 ≤ ice e
    · simp only [if_pos hc, if_pos (h.2 hc)]
      refine rowwise_mv a _ _ (fun i e => ?_) els
      simp only [mvLE_back]
      rfl
    · simp only [if_neg hc, if_neg (fun hh => hc (h.1 hh))]
      exact rowwise_mv a _ _ (fun i e => rfl) els
  | rise active =>
    show riseMove active dt (els.map (mvLE a)) = riseMove active dt els
    unfold riseMove
    rw [unsigned_mv, rowwise_mv a (fun _ e => riseRow active dt e) _ (fun i e => rfl)]
  | vertical p active r =>
    show vertMove p active dt r (els.map (mvLE a)) = vertMove p active dt r els
    unfold vertMove
    rw [unsigned_mv, rowwise_mv a (fun i e => vertRow p active dt (r i) e) _ (fun i e => rfl)]

/-- **C352**: the positions after all movers, before the map has its say. -/
theorem C352_positions (a dt : ℝ) (ms : List AnyMover) (els : List LE) :
    nextPositions dt (ms.map (mvMover a)) (els.map (mvLE a)) = (nextPositions dt ms els).map (List.map (mvV a)) := by
  have hz : ∀ ps ds : List V, List.zipWith (· + ·) (ps.map (mvV a)) ds = (List.zipWith (· + ·) ps ds).map (mvV a) := by
    intro ps
    induction ps with
    | nil => intro ds; simp
    | cons p ps ih =>
      intro ds
      cases ds with
      | nil => simp
      | cons d ds => simp only [List.map_cons, List.zipWith_cons_cons, add_mv, ih]
  have key : ∀ (ms : List AnyMover) (acc : Option (List V)),
      (ms.map (mvMover a)).foldl (fun acc m => acc.bind fun ps => (m.move dt (els.map (mvLE a))).map fun ds => List.zipWith (· + ·) ps ds)
        (acc.map (List.map (mvV a))) =
      (ms.foldl (fun acc m => acc.bind fun ps => (m.move dt els).map fun ds => List.zipWith (· + ·) ps ds) acc).map (List.map (mvV a)) := by
    intro ms
    induction ms with
    | nil => intro acc; rfl
    | cons m ms ih =>
      intro acc
      rw [List.map_cons, List.foldl_cons, List.foldl_cons, ← ih]
      congr 1
      rw [C352_move]
      cases acc with
      | none => rfl
      | some ps =>
        cases m.move dt els with
        | none => rfl
        | some ds => exact congrArg some (hz ps ds)
  unfold nextPositions
  rw [← key]
  congr 1
  simp only [List.map_map, Option.map_some]
  rfl

/-- A current that runs east between the longitudes 0 and 1 only. -/
example : nextPositions 10 [mvMover 100 (.current true 1 (fun p => if 0 ≤ p.1 ∧ p.1 ≤ 1 then (5, 0, 0) else 0) (fun _ => none))]
    [mvLE 100 ⟨(1 / 2, 0, 0), 2, 0, 0⟩] =
    (nextPositions 10 [.current true 1 (fun p => if 0 ≤ p.1 ∧ p.1 ≤ 1 then (5, 0, 0) else 0) (fun _ => none)]
      [⟨(1 / 2, 0, 0), 2, 0, 0⟩]).map (List.map (mvV 100)) := C352_positions 100 10 [_] [_]

end Verif.Mover.East
