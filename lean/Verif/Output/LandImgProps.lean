import Verif.Output.LandImgModel
import Verif.Bna.MapProps
/-!
# C320: The land on images is the land of the map

Spec: of the marks on the background, those of land and lakes are what the map paints as land and water, in the same order; the outlines of bounds and spillable areas are there if and only if they are asked for.
-/
namespace Verif.Output.LandImg
open Verif.Bna

def isShore : Mark → Bool
  | .lake _ => true
  | .land _ => true
  | _ => false

def boundsOf : Mark → Option (List Pt)
  | .bounds p => some p
  | _ => none

def spillOf : Mark → Option (List Pt)
  | .spill p => some p
  | _ => none

/-- A background shows land and lakes, bounds and spillable areas. -/
def Shows (r : Except Err (List Mark)) (shore : List Mark) (bounds spill : List (List Pt)) : Prop :=
  ∃ ms, r = .ok ms ∧ ms.filter isShore = shore ∧ ms.filterMap boundsOf = bounds ∧ ms.filterMap spillOf = spill

/-- The claim: for a file, or the map of a file, and all settings. -/
def C320_claim : Prop := ∀ (o : Opts) (ps : List Poly) (m : Map), fromBNA none [] ps = some m →
  Shows (image o (.file ps)) (paint m.land) (if o.bounds then [m.bounds] else []) (if o.spill then m.spill else []) ∧
  Shows (image o (ofMap m)) (paint m.land) (if o.bounds then [m.bounds] else []) (if o.spill then m.spill else [])

def sq : List Pt := [(0, 0), (1, 0), (1, 1)]
def island : Poly := ⟨sq, .polygon, "island".toList, ['1']⟩

/-- C320, false: bounds that are spelled without a space are bounds of the map and on the image land all over it. -/
theorem C320_counterexample : ¬ C320_claim := by
  intro h
  obtain ⟨⟨ms, h1, h2, -⟩, -⟩ := h ⟨false, false⟩ [⟨[(0, 0), (9, 0), (9, 9)], .polygon, "MapBounds".toList, ['1']⟩, island]
    ⟨[(0, 0), (9, 0), (9, 9)], [], [island]⟩ (by decide +kernel)
  have e : image ⟨false, false⟩ (.file [⟨[(0, 0), (9, 0), (9, 9)], .polygon, "MapBounds".toList, ['1']⟩, island]) =
      .ok [.land [(0, 0), (9, 0), (9, 9)], .land sq] := by decide +kernel
  rw [e] at h1
  cases h1
  revert h2
  decide +kernel

/-- A polygon that is neither marked as land nor as a lake is land on the image and water on the map. -/
theorem C320_kind : let p : Poly := ⟨sq, .polygon, "marsh".toList, ['3']⟩
    image ⟨false, false⟩ (.file [p]) = .ok [.land sq] ∧ (fromBNA none [] [p]).map (fun m => paint m.land) = some [] := by
  decide +kernel

/-- A map that has no file cannot be drawn, nor can land that was given as points. -/
theorem C320_object (o : Opts) (land : List MPoly) (ps : List (List Pt)) (h : ps ≠ []) :
    image o (.map land false) = .error .type ∧ image o (.map (ps.map fun p => ⟨p, none⟩) true) = .error .key := by
  refine ⟨rfl, ?_⟩
  cases ps with
  | nil => exact absurd rfl h
  | cons p ps => rfl

example : [sq] ≠ [] := by decide

theorem draw_append (o : Opts) (a b : List MPoly) (x y : List Mark) (ha : draw o a = .ok x) (hb : draw o b = .ok y) : draw o (a ++ b) = .ok (x ++ y) := by
  induction a generalizing x with
  | nil => simp only [draw, Except.ok.injEq] at ha; subst ha; simpa using hb
  | cons p a ih =>
    simp only [draw, List.cons_append] at ha ⊢
    cases h1 : drawOne o p with
    | error e => rw [h1] at ha; cases ha
    | ok m =>
      rw [h1] at ha
      cases h2 : draw o a with
      | error e => rw [h2] at ha; cases ha
      | ok ms =>
        rw [h2] at ha
        simp only [Except.ok.injEq] at ha
        subst ha
        simp only [ih ms h2, List.append_assoc]

/-- A name has no white space but spaces. -/
def Plain (s : Txt) : Prop := ∀ c ∈ s, isSp c = true → c = ' '

/-- The white space at the ends is spaces only, so it does not matter once spaces are removed. -/
theorem filter_dropWhile (s : Txt) (h : Plain s) : (s.dropWhile isSp).filter (· ≠ ' ') = s.filter (· ≠ ' ') := by
  induction s with
  | nil => rfl
  | cons c s ih =>
    by_cases hc : isSp c = true
    · have := h c (List.mem_cons_self ..) hc
      rw [List.dropWhile_cons_of_pos hc, ih fun d hd => h d (List.mem_cons_of_mem _ hd)]
      subst this
      rfl
    · rw [List.dropWhile_cons_of_neg hc]

theorem filter_strip (s : Txt) (h : Plain s) : (strip s).filter (· ≠ ' ') = s.filter (· ≠ ' ') := by
  unfold strip
  rw [List.filter_reverse, filter_dropWhile _ ?_, List.filter_reverse, List.reverse_reverse, filter_dropWhile s h]
  intro c hc
  exact h c (List.dropWhile_sublist _ |>.subset (List.mem_reverse.1 hc))

theorem lower_space (c : Char) : c.toLower = ' ' ↔ c = ' ' := by
  unfold Char.toLower
  split
  · rename_i h
    constructor
    · intro e
      have := congrArg Char.toNat e
      have h1 : c.val.toNat ≤ 90 := h.2
      have h0 : 65 ≤ c.val.toNat := h.1
      exfalso
      have e2 : (c.val + 32).toNat = 32 := congrArg (fun d : Char => d.val.toNat) e
      rw [UInt32.toNat_add] at e2
      have : (32 : UInt32).toNat = 32 := rfl
      rw [this] at e2
      omega
    · rintro rfl
      revert h
      decide
  · rfl

theorem filter_lower (s : Txt) : (s.map Char.toLower).filter (· ≠ ' ') = (s.filter (· ≠ ' ')).map Char.toLower := by
  induction s with
  | nil => rfl
  | cons c s ih =>
    have := lower_space c
    by_cases hc : c = ' '
    · subst hc
      simp only [List.map_cons]
      rw [List.filter_cons_of_neg (by decide), List.filter_cons_of_neg (by decide), ih]
    · have h2 : ¬ c.toLower = ' ' := fun h => hc (this.1 h)
      simp only [List.map_cons]
      rw [List.filter_cons_of_pos (by simpa using h2), List.filter_cons_of_pos (by simpa using hc), ih]
      rfl

theorem closeName_eq (s : Txt) (h : Plain s) : closeName s = norm s := by
  unfold closeName plainName norm
  rw [filter_lower, filter_lower, filter_strip s h]

/-- What is needed of a polygon of a file: its name has no white space but spaces, and bounds are "map bounds"; land and lakes are marked as such; bounds and spillable areas have three points. -/
def Tidy (p : Poly) : Prop :=
  Plain p.name ∧ (IsBounds p → plainName p.name = "map bounds".toList) ∧ (¬ IsSpill p → ¬ IsBounds p → p.sname = ['1'] ∨ p.sname = ['2']) ∧
    (IsSpill p ∨ IsBounds p → 3 ≤ p.pts.length)

theorem bounds_of_name (p : Poly) (h : Plain p.name) (e : plainName p.name = "map bounds".toList) : IsBounds p := by
  unfold IsBounds
  rw [← closeName_eq _ h, closeName, e]
  decide

/-- The marks of a tidy polygon. -/
def marks (o : Opts) (p : Poly) : List Mark :=
  if IsBounds p then (if o.bounds then [.bounds p.pts] else []) else if IsSpill p then (if o.spill then [.spill p.pts] else [])
    else if 2 < p.pts.length then (if p.sname = ['2'] then [.lake p.pts] else [.land p.pts]) else []

theorem drawOne_tidy (o : Opts) (p : Poly) (h : Tidy p) : drawOne o (ofPoly p) = .ok (marks o p) := by
  obtain ⟨h1, h2, h3, h4⟩ := h
  unfold drawOne ofPoly marks
  simp only
  by_cases hb : IsBounds p
  · rw [if_pos (h2 hb), if_pos hb]
    have := h4 (Or.inr hb)
    cases o.bounds
    · rfl
    · simp only [if_true, polygon]
      rw [if_neg (by omega)]
  · have hn : ¬ plainName p.name = "map bounds".toList := fun e => hb (bounds_of_name p h1 e)
    rw [if_neg hn, if_neg hb, closeName_eq _ h1]
    by_cases hs : IsSpill p
    · rw [if_pos (show norm p.name = _ from hs), if_pos hs]
      have := h4 (Or.inl hs)
      cases o.spill
      · rfl
      · simp only [if_true, polygon]
        rw [if_neg (by omega)]
    · rw [if_neg (show ¬ norm p.name = _ from hs), if_neg hs]
      unfold tryPolygon
      by_cases hl : 2 < p.pts.length
      · have hl' : ¬ p.pts.length < 3 := by omega
        simp only [hl, hl', if_true, if_false]
        split_ifs <;> rfl
      · have hl' : p.pts.length < 3 := by omega
        simp only [hl, hl', if_true, if_false, ite_self]

/-- Land and spillable areas of the map of a file. -/
theorem fromBNA_parts (ps : List Poly) (m : Map) (h : fromBNA none [] ps = some m) :
    m.land = ps.filter (fun p => ¬ IsSpill p ∧ ¬ IsBounds p ∧ 2 < p.pts.length) ∧ m.spill = (ps.filter fun p => IsSpill p).map Poly.pts := by
  unfold fromBNA at h
  simp only [classify_eq, List.nil_append, if_true, bind, Option.bind, pure] at h
  repeat' split at h
  all_goals first
    | (cases h; done)
    | (simp only [Option.some.injEq] at h; subst h; exact ⟨rfl, rfl⟩)
    | (cases hx : boxOf (((ps.filter fun p => IsSpill p).map Poly.pts).flatten) with
       | none => rw [hx] at h; cases h
       | some b => rw [hx] at h; simp only [Option.map_some, Option.some.injEq] at h; subst h; exact ⟨rfl, rfl⟩)

/-- C320, for files of tidy polygons: the shore is that of the map, and the bounds and spillable areas of the file are shown if asked for. -/
theorem C320_partial (o : Opts) (ps : List Poly) (m : Map) (h : fromBNA none [] ps = some m) (ht : ∀ p ∈ ps, Tidy p) :
    Shows (image o (.file ps)) (paint m.land) (if o.bounds then (ps.filter fun p => IsBounds p).map Poly.pts else []) (if o.spill then m.spill else []) := by
  have hland := fromBNA_parts ps m h
  rw [hland.1, hland.2]
  clear h hland
  unfold image
  simp only [landOf]
  induction ps with
  | nil => exact ⟨[], rfl, rfl, by cases o.bounds <;> rfl, by cases o.spill <;> rfl⟩
  | cons p ps ih =>
    obtain ⟨ms, e, h1, h2, h3⟩ := ih fun q hq => ht q (List.mem_cons_of_mem _ hq)
    have hp := ht p (List.mem_cons_self ..)
    refine ⟨marks o p ++ ms, ?_, ?_⟩
    · simp only [List.map_cons, draw]
      rw [drawOne_tidy o p hp]
      simp only [e]
    · rw [List.filter_append, List.filterMap_append, List.filterMap_append, h1, h2, h3]
      by_cases hb : IsBounds p
      · have hs := spill_not_bounds p hb
        obtain ⟨ob, os⟩ := o; cases ob <;> cases os <;> simp [hb, hs, marks, paint, isShore, boundsOf, spillOf]
      · by_cases hs : IsSpill p
        · obtain ⟨ob, os⟩ := o; cases ob <;> cases os <;> simp [hb, hs, marks, paint, isShore, boundsOf, spillOf]
        · by_cases hl : 2 < p.pts.length
          · obtain ⟨ob, os⟩ := o; rcases hp.2.2.1 hs hb with hk | hk <;> cases ob <;> cases os <;> simp [hb, hs, hl, hk, marks, paint, isShore, boundsOf, spillOf, List.filter_cons, List.filterMap_cons]
          · obtain ⟨ob, os⟩ := o; cases ob <;> cases os <;> simp [hb, hs, hl, marks, paint, boundsOf, spillOf]

/-- The map of such a file shows the same land and lakes, and bounds and spillable areas never. -/
theorem C320_map (o : Opts) (ps : List Poly) (m : Map) (h : fromBNA none [] ps = some m) (ht : ∀ p ∈ ps, Tidy p) :
    Shows (image o (ofMap m)) (paint m.land) [] [] := by
  have hland := (fromBNA_parts ps m h).1
  have hm : ∀ p ∈ m.land, Tidy p ∧ ¬ IsSpill p ∧ ¬ IsBounds p ∧ 2 < p.pts.length := by
    intro p hp
    rw [hland, List.mem_filter] at hp
    exact ⟨ht p hp.1, by simpa using hp.2⟩
  unfold image ofMap
  simp only [landOf]
  clear h hland
  generalize m.land = l at hm ⊢
  induction l with
  | nil => exact ⟨[], rfl, rfl, rfl, rfl⟩
  | cons p l ih =>
    obtain ⟨ms, e, h1, h2, h3⟩ := ih fun q hq => hm q (List.mem_cons_of_mem _ hq)
    obtain ⟨hp, hs, hb, hl⟩ := hm p (List.mem_cons_self ..)
    refine ⟨marks o p ++ ms, ?_, ?_⟩
    · simp only [List.map_cons, draw]
      rw [drawOne_tidy o p hp]
      simp only [e]
    · rw [List.filter_append, List.filterMap_append, List.filterMap_append, h1, h2, h3]
      rcases hp.2.2.1 hs hb with hk | hk <;> simp [hb, hs, hl, hk, marks, paint, isShore, boundsOf, spillOf, List.filter_cons, List.filterMap_cons]

/-- a file with bounds, a spillable area, an island and a lake -/
def fileEx : List Poly :=
  [⟨[(0, 0), (9, 0), (9, 9)], .polygon, " Map Bounds ".toList, ['1']⟩, ⟨[(0, 0), (8, 0), (8, 8)], .polygon, "Spillable Area".toList, ['1']⟩, island,
   ⟨sq, .polygon, "pond".toList, ['2']⟩]

example : (∀ p ∈ fileEx, Tidy p) ∧ (fromBNA none [] fileEx).isSome = true ∧
    image ⟨true, false⟩ (.file fileEx) = .ok [.bounds [(0, 0), (9, 0), (9, 9)], .land sq, .lake sq] := by
  refine ⟨?_, by decide +kernel, by decide +kernel⟩
  intro p hp
  simp only [fileEx, List.mem_cons, List.not_mem_nil, or_false] at hp
  rcases hp with rfl | rfl | rfl | rfl <;> (unfold Tidy Plain IsBounds IsSpill; decide +kernel)

end Verif.Output.LandImg
