import Verif.Canvas.PropVecModel
import Verif.Fields.SeriesProps
import Mathlib.Data.List.TakeWhile
import Mathlib.Tactic.Linarith
import Mathlib.Tactic.NormNum
/-!
# C309, C310: the vectors on an image are those of the time of the image, at the points that have a value
-/
namespace Verif.Canvas.PropVec
open Verif.Fields

/-- The data of a property: at least two times in ascending order, a record for each, all of the same size. -/
structure Data where
  times : List Int
  recs : List (List (Option Pt))
  asc : times.Pairwise (· < ·)
  two : 2 ≤ times.length
  each : recs.length = times.length
  size : ∀ r ∈ recs, ∀ r' ∈ recs, r.length = r'.length

/-- what a point has at a time between two records: on the straight line between the values -/
def Between (s s' t : Int) (v v' w : Option Pt) : Prop :=
  match v, v' with
  | some p, some q => ∃ x : ℝ, w = some (p.1 + x * (q.1 - p.1), p.2 + x * (q.2 - p.2)) ∧ x * ((s' : ℝ) - s) = (t : ℝ) - s
  | _, _ => w = none

/-- the values at time `t`: within the records between the two around it, before and after those of the first and the last -/
def ShownAt (D : Data) (t : Int) (out : List (Option Pt)) : Prop :=
  (∀ i s s' r r', D.times[i]? = some s → D.times[i + 1]? = some s' → D.recs[i]? = some r → D.recs[i + 1]? = some r' → s ≤ t → t ≤ s' →
    out.length = r.length ∧ ∀ (k : Nat) v v' w, r[k]? = some v → r'[k]? = some v' → out[k]? = some w → Between s s' t v v' w) ∧
  (∀ s r, D.times[0]? = some s → D.recs[0]? = some r → t ≤ s → out = r) ∧
  (∀ s r, D.times[D.times.length - 1]? = some s → D.recs[D.times.length - 1]? = some r → s ≤ t → out = r)

/-- The claim: on every image the vectors of its time. -/
def C309_claim : Prop := ∀ (D : Data) (t : Int), ∃ out, frame D.times D.recs t = some out ∧ ShownAt D t out

theorem get_lt {l : List Int} (h : l.Pairwise (· < ·)) {i j : Nat} {a b : Int} (ha : l[i]? = some a) (hb : l[j]? = some b) (hij : i < j) : a < b := by
  obtain ⟨h1, rfl⟩ := List.getElem?_eq_some_iff.1 ha
  obtain ⟨h2, rfl⟩ := List.getElem?_eq_some_iff.1 hb
  exact List.pairwise_iff_getElem.1 h i j h1 h2 hij

theorem index_at {l : List Int} (h : l.Pairwise (· < ·)) {i : Nat} {s s' t : Int} (hs : l[i]? = some s) (hs' : l[i + 1]? = some s') (h1 : s < t) (h2 : t ≤ s') :
    indexOf l t = i + 1 := by
  obtain ⟨hl, rfl⟩ := List.getElem?_eq_some_iff.1 hs'
  unfold indexOf
  refine takeWhile_len _ l (i + 1) (by omega) (fun j hji => ?_) (fun hj => ?_)
  · have hj : j < l.length := by omega
    have : l[j]'hj ≤ s := by
      rcases Nat.lt_or_ge j i with hlt | hge
      · exact le_of_lt (get_lt h (List.getElem?_eq_getElem hj) hs hlt)
      · obtain rfl : j = i := by omega
        rw [List.getElem?_eq_getElem hj] at hs
        exact le_of_eq (Option.some.inj hs)
    simpa using lt_of_le_of_lt this h1
  · simpa using h2

theorem index_first {l : List Int} {s t : Int} (hs : l[0]? = some s) (h : t ≤ s) : indexOf l t = 0 := by
  cases l with
  | nil => exact absurd hs nofun
  | cons a l =>
    obtain rfl : a = s := by simpa using hs
    unfold indexOf
    rw [List.takeWhile_cons_of_neg (by simpa using h)]
    rfl

theorem index_last {l : List Int} {t : Int} (h : ∀ s ∈ l, s < t) : indexOf l t = l.length := by
  unfold indexOf
  rw [List.takeWhile_eq_self_iff.2 fun s hs => by simpa using h s hs]

theorem pyAt_nat {α : Type} (l : List α) (i : Nat) : pyAt l (i : Int) = l[i]? := by
  unfold pyAt
  rw [if_pos (Int.natCast_nonneg i), Int.toNat_natCast]

/-- C309, after the first time and not after the last (what is missing: `C309_first`, `C309_late`). -/
theorem C309_partial (D : Data) (t s0 s1 : Int) (h0 : D.times[0]? = some s0) (h1 : D.times[D.times.length - 1]? = some s1) (ht0 : s0 < t) (ht1 : t ≤ s1) :
    ∃ out, frame D.times D.recs t = some out ∧
      ∀ i s s' r r', D.times[i]? = some s → D.times[i + 1]? = some s' → D.recs[i]? = some r → D.recs[i + 1]? = some r' → s < t → t ≤ s' →
        out.length = r.length ∧ ∀ (k : Nat) v v' w, r[k]? = some v → r'[k]? = some v' → out[k]? = some w → Between s s' t v v' w := by
  have htwo := D.two
  -- the interval of t
  obtain ⟨i, s, s', hs, hs', hl, hu⟩ : ∃ (i : Nat) (s s' : Int), D.times[i]? = some s ∧ D.times[i + 1]? = some s' ∧ s < t ∧ t ≤ s' := by
    by_contra hno
    have : ∀ (i : Nat) (s : Int), D.times[i]? = some s → s < t := by
      intro i
      induction i with
      | zero => intro s hs; rw [h0] at hs; rwa [← Option.some.inj hs]
      | succ i ih =>
        intro s hs
        have hi : i < D.times.length := by have := (List.getElem?_eq_some_iff.1 hs).1; omega
        by_contra hc
        exact hno ⟨i, _, s, List.getElem?_eq_getElem hi, hs, ih _ (List.getElem?_eq_getElem hi), not_lt.1 hc⟩
    exact absurd ht1 (not_le.2 (this _ _ h1))
  have hi : i + 1 < D.times.length := (List.getElem?_eq_some_iff.1 hs').1
  have hix := index_at D.asc hs hs' hl hu
  have hr : i < D.recs.length := by rw [D.each]; omega
  have hr' : i + 1 < D.recs.length := by rw [D.each]; omega
  refine ⟨List.zipWith (mix ((alpha D.times t (i + 1) : ℚ) : ℝ)) D.recs[i] D.recs[i + 1], ?_, ?_⟩
  · unfold frame
    simp only [hix]
    rw [show ((i + 1 : ℕ) : Int) - 1 = (i : Int) by push_cast; ring, pyAt_nat, List.getElem?_eq_getElem hr, Option.bind_some, if_pos (by omega),
      show (i : Int) + 1 = ((i + 1 : ℕ) : Int) by push_cast; rfl, pyAt_nat, List.getElem?_eq_getElem hr', Option.map_some]
  · intro j a a' r r' ha ha' hra hra' hat hta
    have hj : j = i := by
      rcases Nat.lt_trichotomy j i with hlt | heq | hgt
      · exfalso
        have : a' ≤ s := by
          rcases Nat.lt_or_ge (j + 1) i with h | h
          · exact le_of_lt (get_lt D.asc ha' hs h)
          · obtain rfl : j + 1 = i := by omega
            rw [ha'] at hs; exact le_of_eq (Option.some.inj hs)
        omega
      · exact heq
      · exfalso
        have : s' ≤ a := by
          rcases Nat.lt_or_ge (i + 1) j with h | h
          · exact le_of_lt (get_lt D.asc hs' ha h)
          · obtain rfl : i + 1 = j := by omega
            rw [hs'] at ha; exact le_of_eq (Option.some.inj ha)
        omega
    subst hj
    rw [List.getElem?_eq_getElem hr] at hra
    rw [List.getElem?_eq_getElem hr'] at hra'
    obtain rfl := Option.some.inj hra
    obtain rfl := Option.some.inj hra'
    refine ⟨?_, fun k v v' w hv hv' hw => ?_⟩
    · rw [List.length_zipWith, D.size _ (List.getElem_mem hr) _ (List.getElem_mem hr'), Nat.min_self]
    · rw [List.getElem?_zipWith, hv, hv'] at hw
      obtain rfl : mix ((alpha D.times t (j + 1) : ℚ) : ℝ) v v' = w := Option.some.inj hw
      unfold Between
      match v, v' with
      | some p, some q =>
        refine ⟨_, rfl, ?_⟩
        obtain rfl : s = a := Option.some.inj (hs.symm.trans ha)
        obtain rfl : s' = a' := Option.some.inj (hs'.symm.trans ha')
        unfold alpha
        rw [if_neg (by omega), Nat.add_sub_cancel, List.getD_eq_getElem?_getD, List.getD_eq_getElem?_getD, hs, hs']
        simp only [Option.getD_some]
        have hne : ((s' : ℝ) - s) ≠ 0 := by
          have : (s : ℝ) < s' := by exact_mod_cast lt_of_lt_of_le hl hu
          linarith
        push_cast
        exact div_mul_cancel₀ _ hne
      | none, _ => rfl
      | some _, none => rfl

/-- C309. What is shown at and before the first time: the record of the **last** time. -/
theorem C309_first (D : Data) (t s0 : Int) (h0 : D.times[0]? = some s0) (ht : t ≤ s0) (r r' : List (Option Pt)) (hr : D.recs[D.times.length - 1]? = some r)
    (hr' : D.recs[0]? = some r') (hm : none ∉ r') : frame D.times D.recs t = some r := by
  have htwo := D.two
  have heach := D.each
  unfold frame
  simp only [index_first h0 ht]
  have hp : pyAt D.recs ((0 : ℕ) - 1 : Int) = some r := by
    unfold pyAt
    rw [if_neg (by simp), if_pos (by omega), ← hr]
    congr 1
    omega
  rw [hp, Option.bind_some, if_pos (by omega), show ((0 : ℕ) : Int) - 1 + 1 = ((0 : ℕ) : Int) by simp, pyAt_nat, hr', Option.map_some]
  congr 1
  have hlen : r.length = r'.length := D.size _ (List.mem_of_getElem? hr) _ (List.mem_of_getElem? hr')
  refine List.ext_getElem? fun k => ?_
  rw [List.getElem?_zipWith]
  cases hk : r[k]? with
  | none => rfl
  | some v =>
    have hkl : k < r'.length := by rw [← hlen]; exact (List.getElem?_eq_some_iff.1 hk).1
    rw [List.getElem?_eq_getElem hkl]
    have hne : r'[k] ≠ none := fun h => hm (h ▸ List.getElem_mem hkl)
    obtain ⟨q, hq⟩ := Option.ne_none_iff_exists'.1 hne
    rw [hq]
    have ha : ((alpha D.times t 0 : ℚ) : ℝ) = 0 := by unfold alpha; simp
    simp only [ha]
    cases v with
    | none => rfl
    | some p => simp [mix]

/-- C309. After the last time there is no image: the drawing raises. -/
theorem C309_late (D : Data) (t : Int) (h : ∀ s ∈ D.times, s < t) : frame D.times D.recs t = none := by
  have htwo := D.two
  have heach := D.each
  unfold frame
  simp only [index_last h]
  rw [show (D.times.length : Int) - 1 = ((D.times.length - 1 : ℕ) : Int) by omega, pyAt_nat, List.getElem?_eq_getElem (by omega), Option.bind_some, if_pos (by omega),
    show ((D.times.length - 1 : ℕ) : Int) + 1 = ((D.times.length : ℕ) : Int) by omega, pyAt_nat, List.getElem?_eq_none (by omega)]
  rfl

/-- an hour in which the current turns from north to south -/
noncomputable def turning : Data where
  times := [0, 3600]
  recs := [[some (0, 1)], [some (0, -1)]]
  asc := by simp
  two := by simp
  each := rfl
  size := by simp

/-- C309 fails at the very first time. -/
theorem C309_counterexample : ¬ C309_claim := by
  intro h
  obtain ⟨out, h1, h2⟩ := h turning 0
  rw [C309_first turning 0 0 rfl (le_refl _) [some (0, -1)] [some (0, 1)] rfl rfl (by simp)] at h1
  have := h2.2.1 0 [some (0, 1)] rfl rfl (le_refl _)
  rw [← Option.some.inj h1] at this
  simp only [List.cons.injEq, Option.some.injEq, Prod.mk.injEq, true_and, and_true] at this
  norm_num at this

/-- Half way the turning current is at rest. -/
example : frame turning.times turning.recs 1800 = some [some (0, 0)] := by
  obtain ⟨out, h1, h2⟩ := C309_partial turning 1800 0 3600 rfl rfl (by decide) (by decide)
  have h3 := h2 0 0 3600 _ _ rfl rfl rfl rfl (by decide) (by decide)
  rw [h1]
  have hl : out.length = 1 := h3.1
  match out, hl with
  | [w], _ =>
    obtain ⟨x, hw, hx⟩ := h3.2 0 (some (0, 1)) (some (0, -1)) w rfl rfl rfl
    rw [hw]
    have : x = 1 / 2 := by push_cast at hx; linarith
    rw [this]
    norm_num

/-! ## Where -/

/-- the points with a value, with it -/
def valued : List Pt → List (Option Pt) → List (Pt × Pt)
  | p :: ps, some v :: vs => (p, v) :: valued ps vs
  | _ :: ps, none :: vs => valued ps vs
  | _, _ => []

/-- where the tip of the arrow is: the distance of `scale` seconds of the current, over the ground -/
noncomputable def tip (scale : ℝ) (a : Pt × Pt) : Pt :=
  (a.1.1 + a.2.1 * scale * degree / Real.cos (a.1.2 * (Real.pi / 180)), a.1.2 + a.2.2 * scale * degree)

/-- on an image: east of the left edge, west of the right one, north of the lower and south of the upper one -/
def OnImage (b : Pt × Pt) (p : Pt) : Prop := (b.1.1 ≤ p.1 ∧ b.1.2 ≤ p.2) ∧ p.1 ≤ b.2.1 ∧ p.2 ≤ b.2.2

theorem inBox_eq : inBox = OnImage := by
  funext b p
  exact propext ⟨fun ⟨h1, h2, h3, h4⟩ => ⟨⟨h1, h3⟩, h2, h4⟩, fun ⟨⟨h1, h3⟩, h2, h4⟩ => ⟨h1, h2, h3, h4⟩⟩

open Classical in
/-- the arrows that should be on the image -/
noncomputable def wanted (b : Pt × Pt) (scale : ℝ) (pts : List Pt) (d : List (Option Pt)) : List (Pt × Pt) :=
  ((valued pts d).map fun a => (a.1, tip scale a)).filter fun a => decide (OnImage b a.1 ∧ OnImage b a.2)

/-- The claim: one arrow for each point that has a value, if it is within the image; the grid is as before. -/
def C310_claim : Prop := ∀ (g : Grid) (onFaces : Bool) (b : Pt × Pt) (scale : ℝ) (d : List (Option Pt)),
  draw g onFaces b scale d = (wanted b scale (if onFaces then g.faces else g.nodes) d, g)

theorem drawn_off (b : Pt × Pt) (scale : ℝ) (h : ¬ OnImage b (0, 0)) : ∀ pts d, drawn b scale pts d = wanted b scale pts d := by
  intro pts
  induction pts with
  | nil => intro d; cases d <;> simp [drawn, wanted, valued]
  | cons p ps ih =>
    intro d
    cases d with
    | nil => simp [drawn, wanted, valued]
    | cons v vs =>
      have := ih vs
      unfold drawn wanted at this ⊢
      rw [inBox_eq] at this ⊢
      cases v with
      | none =>
        simp only [List.zipWith_cons_cons, arrow, valued]
        rw [List.filter_cons_of_neg (by simp [h]), this]
      | some v =>
        simp only [List.zipWith_cons_cons, arrow, valued, List.map_cons]
        have ht : tip scale (p, v) = (p.1 + v.1 * (scale * degree) / Real.cos (p.2 * (Real.pi / 180)), p.2 + v.2 * (scale * degree)) := by
          simp only [tip, mul_assoc]
        simp only [List.filter_cons, ht, this]

/-- C310, for values at the nodes and an image away from the equator or Greenwich (what is missing: the image with the place 0, 0; values on the faces with a mask). -/
theorem C310_partial (g : Grid) (b : Pt × Pt) (scale : ℝ) (d : List (Option Pt)) (h : ¬ OnImage b (0, 0)) : draw g false b scale d = (wanted b scale g.nodes d, g) := by
  unfold draw
  rw [if_neg (by simp), drawn_off b scale h]

/-- Of three points one is in the image with a value: one arrow, of 1000 m to the east. -/
example : draw ⟨[(10, 0), (10, 1 / 2), (20, 0)], []⟩ false ((9, -1), (11, 1)) 1000 [some (1, 0), none, some (1, 0)] =
    ([((10, 0), (10 + 89992801 / 10 ^ 10, 0))], ⟨[(10, 0), (10, 1 / 2), (20, 0)], []⟩) := by
  rw [C310_partial _ _ _ _ (by simp only [OnImage]; norm_num)]
  simp only [wanted, valued, tip, List.map_cons, List.map_nil, degree, OnImage]
  norm_num [List.filter_cons]

/-- C310, for values without a mask, wherever they are. -/
theorem C310_unmasked (g : Grid) (onFaces : Bool) (b : Pt × Pt) (scale : ℝ) (d : List (Option Pt)) (hm : none ∉ d)
    (hl : d.length = (if onFaces then g.faces else g.nodes).length) : draw g onFaces b scale d = (wanted b scale (if onFaces then g.faces else g.nodes) d, g) := by
  have key : ∀ (pts : List Pt) (d : List (Option Pt)), none ∉ d → d.length = pts.length → drawn b scale pts d = wanted b scale pts d ∧ starts pts d = pts := by
    intro pts
    induction pts with
    | nil =>
      intro d _ hl
      obtain rfl : d = [] := List.length_eq_zero_iff.1 hl
      simp [drawn, wanted, valued, starts]
    | cons p ps ih =>
      intro d hm hl
      match d, hm, hl with
      | some v :: vs, hm, hl =>
        obtain ⟨h1, h2⟩ := ih vs (fun h => hm (List.mem_cons_of_mem _ h)) (by simpa using hl)
        constructor
        · unfold drawn wanted at h1 ⊢
          rw [inBox_eq] at h1 ⊢
          simp only [List.zipWith_cons_cons, arrow, valued, List.map_cons]
          have ht : tip scale (p, v) = (p.1 + v.1 * (scale * degree) / Real.cos (p.2 * (Real.pi / 180)), p.2 + v.2 * (scale * degree)) := by
            simp only [tip, mul_assoc]
          simp only [List.filter_cons, ht, h1]
        · unfold starts at h2 ⊢
          rw [List.zipWith_cons_cons, h2]
      | none :: vs, hm, _ => exact absurd (List.mem_cons_self) hm
  unfold draw
  cases onFaces with
  | false =>
    have hl : d.length = g.nodes.length := hl
    rw [if_neg (by simp), if_neg (by simp), (key _ d hm hl).1]
  | true =>
    have hl : d.length = g.faces.length := hl
    rw [if_pos rfl, if_pos rfl, (key _ d hm hl).1, (key _ d hm hl).2]

/-- C310. What drawing does to the grid: the centres of the faces without a value are at 0, 0 from then on. -/
theorem C310_grid (g : Grid) (b : Pt × Pt) (scale : ℝ) (d : List (Option Pt)) (k : Nat) (p : Pt) (hp : g.faces[k]? = some p) :
    (d[k]? = some none → (draw g true b scale d).2.faces[k]? = some (0, 0)) ∧ (∀ v, d[k]? = some (some v) → (draw g true b scale d).2.faces[k]? = some p) := by
  refine ⟨fun hd => ?_, fun v hd => ?_⟩ <;>
  · unfold draw
    rw [if_pos rfl]
    simp only [starts]
    rw [List.getElem?_zipWith, hp, hd]

/-- C310 fails: after the drawing the grid is another, and there is a dot at 0, 0. -/
theorem C310_counterexample : ¬ C310_claim := by
  intro h
  have h1 := congrArg (fun x => x.2.faces[0]?) (h ⟨[], [(10, 50)]⟩ true ((9, 49), (11, 51)) 1000 [none])
  simp only at h1
  rw [(C310_grid ⟨[], [(10, 50)]⟩ ((9, 49), (11, 51)) 1000 [none] 0 (10, 50) rfl).1 rfl] at h1
  simp only [List.getElem?_cons_zero, Option.some.injEq, Prod.mk.injEq] at h1
  norm_num at h1

/-- C310 fails for nodes too: a masked node far away is a dot at 0, 0 of the image. -/
theorem C310_counterexample_dot : (draw ⟨[(10, 50)], []⟩ false ((-1, -1), (1, 1)) 1000 [none]).1 = [((0, 0), (0, 0))] ∧ wanted ((-1, -1), (1, 1)) 1000 [(10, 50)] [none] = [] := by
  constructor
  · unfold draw drawn
    rw [if_neg (by simp)]
    simp [arrow, inBox]
  · simp [wanted, valued]

end Verif.Canvas.PropVec
