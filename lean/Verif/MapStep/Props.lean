import Verif.MapStep.Lemmas
import Mathlib.Tactic.LinearCombination
/-
C61 (elements are where their status says), C62 (beached elements stay until
they refloat), C63 (the budget is closed), C64 (fate follows the status).
-/
namespace Verif.MapStep
open Verif.Land Verif.Geom

/-! ### C61 -/

theorem placed_new (M : RMap) (hg : ∀ v ∈ M.grid.data, v ≤ 1) (H : M.hl ≠ 0 ∨ ¬ land M.grid (M.pixel .zero)) (n : New) :
    Placed M (mkElem M n) := by
  have hi := landPoint_iff M.grid hg (M.pixel n.pos)
  have hp : (mkElem M n).pos = n.pos := rfl
  have hw : (mkElem M n).lwp = .zero := rfl
  by_cases hl : landPoint M.grid (M.pixel n.pos) = true
  · have hs : (mkElem M n).status = 3 := by unfold mkElem; simp only; rw [if_pos hl]; rfl
    exact ⟨.inr hs, fun _ => by rw [hp]; exact hi.1 hl, fun h => by omega,
      fun h0 _ => by rw [hw]; exact H.resolve_left (fun h => h h0)⟩
  · have hs : (mkElem M n).status = 2 := by unfold mkElem; simp only; rw [if_neg hl]; rfl
    exact ⟨.inl hs, fun h => by omega, fun _ => by rw [hp]; exact fun h => hl (hi.2 h), fun _ h => by omega⟩

theorem weather_mem {loss : Nat → ℚ} {sc : SC} {e : Elem} (h : e ∈ (weather loss sc).els) :
    ∃ e0 ∈ sc.els, e.pos = e0.pos ∧ e.nxt = e0.nxt ∧ e.lwp = e0.lwp ∧ e.status = e0.status ∧ e.fate = e0.fate := by
  unfold weather at h
  simp only at h
  obtain ⟨i, hi, he⟩ := List.mem_mapIdx.1 h
  refine ⟨sc.els[i], List.getElem_mem hi, ?_⟩
  subst he
  split <;> exact ⟨rfl, rfl, rfl, rfl, rfl⟩

theorem placed_congr {M : RMap} {e e0 : Elem} (h : Placed M e0) (h1 : e.pos = e0.pos) (h2 : e.lwp = e0.lwp)
    (h3 : e.status = e0.status) : Placed M e := by
  obtain ⟨a, b, c, d⟩ := h
  exact ⟨by rw [h3]; exact a, by rw [h3, h1]; exact b, by rw [h3, h1]; exact c, by rw [h3, h2]; exact d⟩

theorem step_placed (M : RMap) (hr : ∀ r ∈ M.ratios, 0 < r) (hP : M.proj.Ok) (p : ℚ) (rs : List ℚ)
    (ds : List (Nat → P3)) (loss : Nat → ℚ) (sc : SC) (h : ∀ e ∈ sc.els, Placed M e) :
    ∃ sc', stepR M p rs ds loss sc = some sc' ∧
      ∀ e ∈ sc'.els, Placed M e ∧ onMap M.bounds e.pos = true ∧ 0 ≤ e.pos.z := by
  refine ⟨_, by unfold stepR; rw [moveElements_eq M hr]; rfl, ?_⟩
  intro e he
  unfold remove at he
  simp only at he
  obtain ⟨he, h12⟩ := List.mem_filter.1 he
  have h12 : e.status ≠ 12 := fun h => by simp [h, toBeRemoved] at h12
  obtain ⟨e0, he0, h1, _, h2, h3, _⟩ := weather_mem he
  simp only at he0
  obtain ⟨i, hi, hf⟩ := List.mem_mapIdx.1 he0
  have hR := ready_of_refloat (p := p) (rs := rs) h _ (List.getElem_mem hi)
  obtain ⟨hc, hz⟩ := fin_spec M hr hP ds i _ hR
  rw [hf] at hc hz
  rcases hc with hc | ⟨hc, ho⟩
  · exact absurd (h3.trans hc) h12
  · exact ⟨placed_congr hc h1 h2 h3, by rw [h1]; exact ho, by rw [h1]; exact hz⟩

theorem run_placed (M : RMap) (hr : ∀ r ∈ M.ratios, 0 < r) (hP : M.proj.Ok) (hg : ∀ v ∈ M.grid.data, v ≤ 1)
    (H : M.hl ≠ 0 ∨ ¬ land M.grid (M.pixel .zero)) (ops : List Op) (sc : SC) (h : ∀ e ∈ sc.els, Placed M e) :
    ∃ sc', run M ops sc = some sc' ∧ ∀ e ∈ sc'.els, Placed M e := by
  induction ops generalizing sc with
  | nil => exact ⟨sc, rfl, h⟩
  | cons o os ih =>
    cases o with
    | rel ns =>
      refine ih (release M ns sc) ?_
      intro e he
      unfold release at he
      rcases List.mem_append.1 he with he | he
      · exact h e he
      · obtain ⟨n, _, rfl⟩ := List.mem_map.1 he
        exact placed_new M hg H n
    | step p rs ds loss =>
      obtain ⟨s1, h1, h2⟩ := step_placed M hr hP p rs ds loss sc h
      obtain ⟨s2, h3, h4⟩ := ih s1 (fun e he => (h2 e he).1)
      exact ⟨s2, by simp only [run, exec]; rw [h1]; exact h3, h4⟩

/-- In every run on a raster map, at every moment between steps and releases:
every element is in water or on land, those on land are on a land pixel of the
raster, those in water are not. For a zero half-life: if the place (0, 0),
where elements released on land refloat to, is not land. -/
theorem C61_placed_partial (M : RMap) (hr : ∀ r ∈ M.ratios, 0 < r) (hP : M.proj.Ok) (hg : ∀ v ∈ M.grid.data, v ≤ 1)
    (H : M.hl ≠ 0 ∨ ¬ land M.grid (M.proj.toPixelInt ⟨0, 0⟩)) (ops : List Op) :
    ∃ sc, run M ops SC.empty = some sc ∧ ∀ e ∈ sc.els,
      (e.status = 2 ∨ e.status = 3) ∧
      (e.status = 3 → land M.grid (M.proj.toPixelInt ⟨e.pos.x, e.pos.y⟩)) ∧
      (e.status = 2 → ¬ land M.grid (M.proj.toPixelInt ⟨e.pos.x, e.pos.y⟩)) := by
  obtain ⟨sc, h1, h2⟩ := run_placed M hr hP hg H ops SC.empty (by simp [SC.empty])
  exact ⟨sc, h1, fun e he => ⟨(h2 e he).st, (h2 e he).l3, (h2 e he).l2⟩⟩

/-- After every step of a run, every element is on the map and at the surface
or below. -/
theorem C61_on_map_partial (M : RMap) (hr : ∀ r ∈ M.ratios, 0 < r) (hP : M.proj.Ok) (hg : ∀ v ∈ M.grid.data, v ≤ 1)
    (H : M.hl ≠ 0 ∨ ¬ land M.grid (M.proj.toPixelInt ⟨0, 0⟩)) (ops : List Op) (p : ℚ) (rs : List ℚ)
    (ds : List (Nat → P3)) (loss : Nat → ℚ) :
    ∃ sc, run M (ops ++ [.step p rs ds loss]) SC.empty = some sc ∧ ∀ e ∈ sc.els,
      inPoly M.bounds ⟨e.pos.x, e.pos.y⟩ = true ∧ 0 ≤ e.pos.z := by
  obtain ⟨sc, h1, h2⟩ := run_placed M hr hP hg H ops SC.empty (by simp [SC.empty])
  obtain ⟨sc', h3, h4⟩ := step_placed M hr hP p rs ds loss sc h2
  refine ⟨sc', ?_, fun e he => (h4 e he).2⟩
  have : ∀ (l : List Op) (s t : SC), run M l s = some t →
      run M (l ++ [.step p rs ds loss]) s = stepR M p rs ds loss t := by
    intro l
    induction l with
    | nil =>
      intro s t h
      simp only [run, Option.some.injEq] at h
      subst h
      simp only [List.nil_append, run, exec]
      cases stepR M p rs ds loss s <;> rfl
    | cons o l ih =>
      intro s t h
      simp only [List.cons_append, run] at h ⊢
      cases he : exec M o s with
      | none => rw [he] at h; simp at h
      | some u => rw [he] at h; exact ih u t h
  rw [this ops _ _ h1, h3]

/-- An element is marked for removal exactly if it ends off the map. -/
theorem C61_removed (M : RMap) (hr : ∀ r ∈ M.ratios, 0 < r) (hP : M.proj.Ok) (p : ℚ) (rs : List ℚ)
    (ds : List (Nat → P3)) (sc : SC) (h : ∀ e ∈ sc.els, Placed M e) :
    ∃ sc', moveElements M p rs ds sc = some sc' ∧ sc'.els.length = sc.els.length ∧
      ∀ e ∈ sc'.els, e.status = 12 ↔ inPoly M.bounds ⟨e.pos.x, e.pos.y⟩ = false := by
  refine ⟨_, moveElements_eq M hr p rs ds sc, by simp [refloat_length], ?_⟩
  intro e he
  simp only at he
  obtain ⟨i, hi, hf⟩ := List.mem_mapIdx.1 he
  have hR := ready_of_refloat (p := p) (rs := rs) h _ (List.getElem_mem hi)
  have hc := (fin_spec M hr hP ds i _ hR).1
  subst hf
  constructor
  · intro h12
    cases ho : onMap M.bounds (fin M ds i (refloat M.hl p sc.els rs)[i]).pos with
    | false => exact ho
    | true =>
      exfalso
      revert ho h12
      unfold fin arrive fateOne markOne offOne
      simp only
      split
      · rename_i hh
        split
        · rename_i h7
          obtain ⟨e', he', _, _, _, _, _, _, hcc⟩ := beachOne_spec M hr (move ds i (refloat M.hl p sc.els rs)[i])
          have hb : beachT M (move ds i (refloat M.hl p sc.els rs)[i]) = e' := by unfold beachT; rw [he']; rfl
          rw [hb] at h7
          have h7 : e'.status = 7 := h7
          have hst := hR.st
          have ms : (move ds i (refloat M.hl p sc.els rs)[i]).status = (refloat M.hl p sc.els rs)[i].status := rfl
          have hB : ∀ a b, BeachedAt M a b e' → e'.status = 2 ∨ e'.status = 3 := by
            intro a b hB
            by_cases h0 : M.hl = 0
            · exact .inl (hB.2.2 h0).1
            · exact .inr (hB.2.1 h0).1
          rcases hcc with ⟨_, hB'⟩ | ⟨_, _, _, _, _, _, hB'⟩ | ⟨_, _, hs, _⟩
          · have := hB _ _ hB'; omega
          · have := hB _ _ hB'; omega
          · omega
        · intro h12
          obtain ⟨e', he', _, _, _, _, _, _, hcc⟩ := beachOne_spec M hr (move ds i (refloat M.hl p sc.els rs)[i])
          have hb : beachT M (move ds i (refloat M.hl p sc.els rs)[i]) = e' := by unfold beachT; rw [he']; rfl
          rw [hb] at h12
          have hst := hR.st
          have ms : (move ds i (refloat M.hl p sc.els rs)[i]).status = (refloat M.hl p sc.els rs)[i].status := rfl
          have hB : ∀ a b, BeachedAt M a b e' → e'.status = 2 ∨ e'.status = 3 := by
            intro a b hB
            by_cases h0 : M.hl = 0
            · exact .inl (hB.2.2 h0).1
            · exact .inr (hB.2.1 h0).1
          rcases hcc with ⟨_, hB'⟩ | ⟨_, _, _, _, _, _, hB'⟩ | ⟨_, _, hs, _⟩
          · have := hB _ _ hB'; omega
          · have := hB _ _ hB'; omega
          · omega
      · rename_i hh
        split
        · intro _ ho; exact hh ho
        · rename_i h7; exact absurd rfl h7
  · intro ho
    rcases hc with hc | ⟨_, ho'⟩
    · exact hc
    · exact absurd (ho'.symm.trans ho) (by simp)

/-! A small map for the examples: 3 × 2 pixels of one degree, longitude 0 to 3,
latitude -1 to 1, with land at the pixels (0, 1) and (2, 0). -/

def demoGrid : Grid := ⟨3, 2, [0, 1, 0, 0, 1, 0], rfl⟩
def demoMap (hl : ℚ) : RMap :=
  ⟨demoGrid, [16], ⟨0, 0, 1, -1, 0, 1⟩, [⟨-10, -10⟩, ⟨-10, 10⟩, ⟨10, 10⟩, ⟨10, -10⟩], hl⟩

/-- What one sees of an element. -/
def see (r : Option SC) : Option (List (ℚ × ℚ × ℚ × Nat)) :=
  r.map (fun s => s.els.map (fun e => (e.pos.x, e.pos.y, e.pos.z, e.status)))

example : (demoMap 1).proj.Ok ∧ (∀ v ∈ (demoMap 1).grid.data, v ≤ 1) ∧ (∀ r ∈ (demoMap 1).ratios, 0 < r) := by
  refine ⟨⟨by simp [demoMap], by simp [demoMap]⟩, by decide, by decide⟩

/-- An element in water moves onto land, stays, refloats and leaves the map;
another one is moved above the surface. -/
example : see (run (demoMap 1) [.rel [⟨⟨1/4, 3/4, 5⟩, 10, 2, false⟩, ⟨⟨3/2, 1/4, 0⟩, 10, 2, false⟩],
      .step (1/2) [] [fun i => if i = 0 then ⟨2, 0, 0⟩ else ⟨0, 0, -7⟩] (fun _ => 0)] SC.empty) =
    some [(5/2, 1/2, 5, 3), (3/2, 1/4, 0, 2)] := by decide +kernel
example : see (run (demoMap 1) [.rel [⟨⟨1/4, 3/4, 5⟩, 10, 2, false⟩],
      .step (1/2) [] [fun _ => ⟨2, 0, 0⟩] (fun _ => 0), .step (1/2) [3/4] [fun _ => ⟨2, 0, 0⟩] (fun _ => 0)] SC.empty) =
    some [(5/2, 1/2, 5, 3)] := by decide +kernel
example : see (run (demoMap 1) [.rel [⟨⟨1/4, 3/4, 5⟩, 10, 2, false⟩],
      .step (1/2) [] [fun _ => ⟨2, 0, 0⟩] (fun _ => 0), .step (1/2) [1/4] [fun _ => ⟨0, 20, 0⟩] (fun _ => 0)] SC.empty) =
    some [] := by decide +kernel

/-- With a zero half-life: an element released on land is put to (0, 0), and
if that is land it is in water there. -/
theorem C61_counterexample : ∃ (M : RMap) (ops : List Op) (sc : SC) (e : Elem), M.proj.Ok ∧
    (∀ v ∈ M.grid.data, v ≤ 1) ∧ run M ops SC.empty = some sc ∧ e ∈ sc.els ∧ e.status = 2 ∧
    land M.grid (M.proj.toPixelInt ⟨e.pos.x, e.pos.y⟩) := by
  refine ⟨demoMap 0, [.rel [⟨⟨5/2, 1/2, 0⟩, 10, 2, false⟩], .step 0 [] [] (fun _ => 0)],
    ⟨[⟨⟨1/2, -1/2, 0⟩, ⟨1/2, -1/2, 0⟩, ⟨1/2, -1/2, 0⟩, 2, 10, 2, false⟩], 0, 0, 0, 10⟩,
    ⟨⟨1/2, -1/2, 0⟩, ⟨1/2, -1/2, 0⟩, ⟨1/2, -1/2, 0⟩, 2, 10, 2, false⟩,
    ⟨by simp [demoMap], by simp [demoMap]⟩, by decide, ?_, by simp, rfl, by decide +kernel⟩
  have key : (run (demoMap 0) [.rel [⟨⟨5/2, 1/2, 0⟩, 10, 2, false⟩], .step 0 [] [] (fun _ => 0)] SC.empty).map
      (fun s => (s.els, s.beached, s.offMap, s.lost, s.released)) =
      some ([⟨⟨1/2, -1/2, 0⟩, ⟨1/2, -1/2, 0⟩, ⟨1/2, -1/2, 0⟩, 2, 10, 2, false⟩], 0, 0, 0, 10) := by
    decide +kernel
  cases h : run (demoMap 0) [.rel [⟨⟨5/2, 1/2, 0⟩, 10, 2, false⟩], .step 0 [] [] (fun _ => 0)] SC.empty with
  | none => rw [h] at key; simp at key
  | some s =>
    rw [h] at key
    cases s
    simp only [Option.map_some, Option.some.injEq, Prod.mk.injEq] at key
    obtain ⟨rfl, rfl, rfl, rfl, rfl⟩ := key
    rfl

/-- Three points on a line. -/
def Aligned (p q r : Pt) : Prop := (q.x - p.x) * (r.y - p.y) = (q.y - p.y) * (r.x - p.x)

/-- `ParamMap`, one element: those on land stay as they are; one that would end
on land beaches at the intersection of its path with the shoreline (both
continued beyond their ends), its last water position is on the way there; the
others go where they were to go. -/
theorem C61_param_partial (a b : Pt) (land : List Pt) (e e' : Elem) (h : moveParticle a b land e = some e') :
    e'.mass = e.mass ∧ e'.fate = e.fate ∧ e'.nxt.z = e.nxt.z ∧
    (e.status = 3 → e' = e) ∧
    (e.status ≠ 3 → inPoly land ⟨e.nxt.x, e.nxt.y⟩ = true → e'.status = 3 ∧
      Aligned a b ⟨e'.nxt.x, e'.nxt.y⟩ ∧ Aligned ⟨e.pos.x, e.pos.y⟩ ⟨e.nxt.x, e.nxt.y⟩ ⟨e'.nxt.x, e'.nxt.y⟩ ∧
      10 * (e'.lwp.x - e.pos.x) = e'.nxt.x - e.pos.x ∧ 10 * (e'.lwp.y - e.pos.y) = e'.nxt.y - e.pos.y) ∧
    (e.status ≠ 3 → inPoly land ⟨e.nxt.x, e.nxt.y⟩ = false →
      e'.status = e.status ∧ e'.nxt = e.nxt ∧ e'.lwp = e.lwp) := by
  unfold moveParticle at h
  by_cases h3 : e.status = onLand
  · have h3' : e.status = 3 := h3
    rw [if_pos h3] at h
    obtain rfl := Option.some.inj h
    exact ⟨rfl, rfl, rfl, fun _ => rfl, fun hn => absurd h3' hn, fun hn => absurd h3' hn⟩
  · have h3' : e.status ≠ 3 := h3
    rw [if_neg h3] at h
    cases hp : inPoly land e.nxt.xy with
    | true =>
      rw [hp, if_pos rfl] at h
      simp only at h
      split at h
      · simp at h
      · rename_i hd
        obtain rfl := Option.some.inj h
        have hx : e.nxt.xy = ⟨e.nxt.x, e.nxt.y⟩ := rfl
        refine ⟨rfl, rfl, rfl, fun hh => absurd hh h3', fun _ _ => ⟨rfl, ?_, ?_, ?_, ?_⟩, fun _ hf => ?_⟩
        · unfold Aligned P3.setXY
          simp only
          ring
        · unfold Aligned P3.setXY
          simp only
          have hu := div_mul_cancel₀ ((e.nxt.x - e.pos.x) * (a.y - e.pos.y) - (e.nxt.y - e.pos.y) * (a.x - e.pos.x)) hd
          linear_combination -hu
        · unfold P3.setXY; simp only; ring
        · unfold P3.setXY; simp only; ring
        · rw [← hx, hp] at hf; simp at hf
    | false =>
      rw [hp] at h
      simp only [Bool.false_eq_true, if_false] at h
      obtain rfl := Option.some.inj h
      refine ⟨rfl, rfl, rfl, fun hh => absurd hh h3', fun _ hf => ?_, fun _ _ => ⟨rfl, rfl, rfl⟩⟩
      rw [show (⟨e.nxt.x, e.nxt.y⟩ : Pt) = e.nxt.xy from rfl, hp] at hf
      simp at hf

example : moveParticle ⟨1, -16⟩ ⟨1, 16⟩ [⟨1, -16⟩, ⟨1, 16⟩, ⟨16, 16⟩, ⟨16, -16⟩]
    ⟨⟨0, 0, 0⟩, ⟨2, 2, 0⟩, .zero, 2, 10, 2, false⟩ =
    some ⟨⟨0, 0, 0⟩, ⟨1, 1, 0⟩, ⟨1/10, 1/10, 0⟩, 3, 10, 2, false⟩ := by decide +kernel

/-- An element that comes onto the land from the side is put far away: to the
shoreline continued, behind the place where it came from. Moving parallel to
the shoreline raises. -/
theorem C61_counterexample_param :
    moveParticle ⟨1, -1⟩ ⟨1, 1⟩ [⟨1, -1⟩, ⟨1, 1⟩, ⟨16, 1⟩, ⟨16, -1⟩]
      ⟨⟨5, 3, 0⟩, ⟨6, 0, 0⟩, .zero, 2, 10, 2, false⟩ =
      some ⟨⟨5, 3, 0⟩, ⟨1, 15, 0⟩, ⟨46/10, 42/10, 0⟩, 3, 10, 2, false⟩ ∧
    moveParticle ⟨1, -1⟩ ⟨1, 1⟩ [⟨1, -1⟩, ⟨1, 1⟩, ⟨16, 1⟩, ⟨16, -1⟩]
      ⟨⟨5, 3, 0⟩, ⟨5, 0, 0⟩, .zero, 2, 10, 2, false⟩ = none := by
  constructor <;> decide +kernel

/-! ### C62 -/

theorem refloat_getElem (hl p : ℚ) (es : List Elem) (rs : List ℚ) (i : Nat) (e : Elem) (h : es[i]? = some e) :
    (refloat hl p es rs)[i]? = some (if e.status = 3 ∧
      refloats hl p (rs.getD ((es.take i).filter (fun x => x.status = 3)).length 1) = true then float e else e) := by
  induction es generalizing rs i with
  | nil => simp at h
  | cons a es ih =>
    cases i with
    | zero =>
      simp only [List.getElem?_cons_zero, Option.some.injEq] at h
      subst h
      simp only [refloat]
      have hd : rs.getD ([] : List Elem).length 1 = rs.headD 1 := by cases rs <;> rfl
      by_cases h3 : a.status = 3
      · rw [if_pos (show a.status = onLand from h3)]
        have hd' : rs.getD (((a :: es).take 0).filter (fun x => decide (x.status = 3))).length 1 = rs.headD 1 := hd
        simp only [List.getElem?_cons_zero, hd', h3, true_and]
      · rw [if_neg (show ¬ a.status = onLand from h3)]
        simp [h3]
    | succ i =>
      simp only [List.getElem?_cons_succ] at h
      simp only [refloat]
      by_cases h3 : a.status = 3
      · rw [if_pos (show a.status = onLand from h3), List.getElem?_cons_succ, ih _ _ h]
        have : rs.tail.getD ((es.take i).filter (fun x => x.status = 3)).length 1 =
            rs.getD (((a :: es).take (i + 1)).filter (fun x => x.status = 3)).length 1 := by
          rw [List.take_succ_cons, List.filter_cons_of_pos (by simpa using h3), List.length_cons]
          cases rs <;> simp
        rw [this]
      · rw [if_neg (show ¬ a.status = onLand from h3), List.getElem?_cons_succ, ih _ _ h]
        rw [List.take_succ_cons, List.filter_cons_of_neg (by simpa using h3)]

/-- Whether the element of index `i` refloats: a never, always, or random
decision with the random number of its rank among the elements on land. -/
def Refloats (M : RMap) (p : ℚ) (rs : List ℚ) (es : List Elem) (i : Nat) : Prop :=
  0 = M.hl ∨ (0 < M.hl ∧ rs.getD ((es.take i).filter (fun x => x.status = 3)).length 1 ≤ p)

theorem refloats_iff (M : RMap) (p : ℚ) (rs : List ℚ) (es : List Elem) (i : Nat) :
    refloats M.hl p (rs.getD ((es.take i).filter (fun x => x.status = 3)).length 1) = true ↔ Refloats M p rs es i := by
  unfold refloats Refloats
  rcases lt_trichotomy M.hl 0 with h | h | h
  · rw [if_neg (not_lt.2 h.le), if_pos h]
    constructor
    · simp
    · rintro (h' | h')
      · exact absurd h'.symm h.ne
      · exact absurd h'.1 (not_lt.2 h.le)
  · rw [h]; simp
  · rw [if_pos h]
    constructor
    · exact fun hd => .inr ⟨h, by simpa using hd⟩
    · rintro (h' | h')
      · exact absurd h' h.ne
      · simpa using h'.2

/-- Elements on land after a step are in the middle of their pixel, and so are
their last water positions. -/
structure Settled (M : RMap) (e : Elem) : Prop where
  pos : e.pos.xy = M.proj.toLonLatInt (M.pixel e.pos).1 (M.pixel e.pos).2
  lwp : e.lwp.xy = M.proj.toLonLatInt (M.pixel e.lwp).1 (M.pixel e.lwp).2
  map : onMap M.bounds e.pos = true
  z : 0 ≤ e.pos.z

theorem fin_pos (M : RMap) (ds : List (Nat → P3)) (i : Nat) (e e' : Elem) (hb : beachT M (move ds i e) = e') :
    (fin M ds i e).pos = e'.nxt ∧ (fin M ds i e).lwp = e'.lwp ∧ (fin M ds i e).mass = e'.mass := by
  unfold fin arrive fateOne markOne offOne; rw [hb]; simp only
  split <;> split <;> exact ⟨rfl, rfl, rfl⟩

theorem fin_settled (M : RMap) (hr : ∀ r ∈ M.ratios, 0 < r) (hP : M.proj.Ok) (ds : List (Nat → P3)) (i : Nat)
    (e : Elem) (h3 : (fin M ds i e).status = 3) : Settled M (fin M ds i e) := by
  obtain ⟨e', he, _, _, _, _, hz, _, hc⟩ := beachOne_spec M hr (move ds i e)
  have hb : beachT M (move ds i e) = e' := by unfold beachT; rw [he]; rfl
  obtain ⟨hp, hl, _⟩ := fin_pos M ds i e e' hb
  have hmap : onMap M.bounds e'.nxt = true ∧ e'.status = 3 := by
    revert h3
    unfold fin arrive fateOne markOne offOne
    rw [hb]
    simp only
    split
    · rename_i ho
      split
      · intro h; exact absurd h (show ¬ (12 : Nat) = 3 by decide)
      · exact fun h => ⟨ho, h⟩
    · split
      · intro h; exact absurd h (show ¬ (12 : Nat) = 3 by decide)
      · intro h; exact absurd h (show ¬ (7 : Nat) = 3 by decide)
  have mk : ∀ a b : Int × Int, BeachedAt M a b e' → Settled M (fin M ds i e) := by
    intro a b hB
    have h0 : M.hl ≠ 0 := fun h => by have := (hB.2.2 h).1; omega
    have h1 := hB.1
    have h2 := (hB.2.1 h0).2
    refine ⟨?_, ?_, by rw [hp]; exact hmap.1, by rw [hp, hz]; exact le_max_right _ _⟩
    · rw [hp, pixel_centre M hP _ _ h2]; exact h2
    · rw [hl, pixel_centre M hP _ _ h1]; exact h1
  rcases hc with ⟨_, hB⟩ | ⟨_, _, _, _, _, _, hB⟩ | ⟨hne, _, hs, _⟩
  · exact mk _ _ hB
  · exact mk _ _ hB
  · rw [hs] at hmap; exact absurd hmap.2 hne

theorem step_settled (M : RMap) (hr : ∀ r ∈ M.ratios, 0 < r) (hP : M.proj.Ok) (p : ℚ) (rs : List ℚ)
    (ds : List (Nat → P3)) (loss : Nat → ℚ) (sc sc' : SC) (h : stepR M p rs ds loss sc = some sc') :
    ∀ e ∈ sc'.els, e.status = 3 → Settled M e := by
  unfold stepR at h
  rw [moveElements_eq M hr, Option.map_some, Option.some.injEq] at h
  subst h
  intro e he h3
  obtain ⟨he, _⟩ := List.mem_filter.1 he
  obtain ⟨e0, he0, h1, _, h2, hs, _⟩ := weather_mem he
  obtain ⟨i, hi, hf⟩ := List.mem_mapIdx.1 he0
  have := fin_settled M hr hP ds i (refloat M.hl p sc.els rs)[i] (by rw [hf, ← hs]; exact h3)
  rw [hf] at this
  exact ⟨by rw [h1]; exact this.pos, by rw [h2]; exact this.lwp, by rw [h1]; exact this.map, by rw [h1]; exact this.z⟩

/-- A beached element that does not refloat stays exactly where it is: after
any step, whatever the container before, the next move leaves position, last
water position, status and mass of every element on land that does not refloat
as they are, whatever the movers do. -/
theorem C62_stays (M : RMap) (hr : ∀ r ∈ M.ratios, 0 < r) (hP : M.proj.Ok) (sc0 sc : SC)
    (p0 : ℚ) (rs0 : List ℚ) (ds0 : List (Nat → P3)) (loss0 : Nat → ℚ) (h0 : stepR M p0 rs0 ds0 loss0 sc0 = some sc)
    (p : ℚ) (rs : List ℚ) (ds : List (Nat → P3)) :
    ∃ sc', moveElements M p rs ds sc = some sc' ∧ ∀ (i : Nat) (e : Elem), sc.els[i]? = some e → e.status = 3 →
      ¬ Refloats M p rs sc.els i →
      ∃ e', sc'.els[i]? = some e' ∧ e'.pos = e.pos ∧ e'.lwp = e.lwp ∧ e'.status = 3 ∧ e'.mass = e.mass := by
  refine ⟨_, moveElements_eq M hr p rs ds sc, ?_⟩
  intro i e hi h3 hn
  have hS := step_settled M hr hP p0 rs0 ds0 loss0 sc0 sc h0 e (List.mem_of_getElem? hi) h3
  have hg := refloat_getElem M.hl p sc.els rs i e hi
  rw [if_neg (fun hh => hn ((refloats_iff M p rs sc.els i).1 hh.2))] at hg
  refine ⟨fin M ds i e, by simp only [List.getElem?_mapIdx, hg, Option.map_some], ?_⟩
  obtain ⟨e', he, _, hm, _, _, hz, hlz, hc⟩ := beachOne_spec M hr (move ds i e)
  have hb : beachT M (move ds i e) = e' := by unfold beachT; rw [he]; rfl
  obtain ⟨hp, hl, hmm⟩ := fin_pos M ds i e e' hb
  have ms : (move ds i e).status = 3 := h3
  have mn : (move ds i e).nxt = e.pos := move_still ds i e (by omega)
  have ml : (move ds i e).lwp = e.lwp := rfl
  have hne : M.hl ≠ 0 := fun h => hn (.inl h.symm)
  rcases hc with ⟨_, hB⟩ | ⟨hx, _⟩ | ⟨hx, _⟩
  · obtain ⟨hs3, hx⟩ := hB.2.1 hne
    have hw := hB.1
    rw [mn, ← hS.pos] at hx
    rw [ml, ← hS.lwp] at hw
    rw [mn, max_eq_left hS.z] at hz
    rw [ml] at hlz
    have x1 : e'.nxt = e.pos := by
      cases he1 : e'.nxt; cases he2 : e.pos
      rw [he1] at hx hz; rw [he2] at hx hz
      simp only [P3.xy, Pt.mk.injEq] at hx hz
      simp [hx.1, hx.2, hz]
    have x2 : e'.lwp = e.lwp := by
      cases he1 : e'.lwp; cases he2 : e.lwp
      rw [he1] at hw hlz; rw [he2] at hw hlz
      simp only [P3.xy, Pt.mk.injEq] at hw hlz
      simp [hw.1, hw.2, hlz]
    refine ⟨by rw [hp, x1], by rw [hl, x2], ?_, by rw [hmm, hm]; rfl⟩
    unfold fin arrive fateOne markOne offOne
    rw [hb, if_pos (show onMap M.bounds e'.nxt = true by rw [x1]; exact hS.map)]
    simp only
    rw [if_neg (show ¬ e'.status = offMaps by rw [hs3]; decide)]
    exact hs3
  · exact absurd ms hx
  · exact absurd ms hx

/-- An element that refloats starts from its last water position: it moves by
the sum of the movers' displacements from there, if nothing stops it and it
stays on the map. -/
theorem C62_refloats_partial (M : RMap) (hr : ∀ r ∈ M.ratios, 0 < r) (sc : SC)
    (p : ℚ) (rs : List ℚ) (ds : List (Nat → P3)) (i : Nat) (e : Elem) (hi : sc.els[i]? = some e) (h3 : e.status = 3)
    (hf : Refloats M p rs sc.els i) (tgt : P3) (ht : tgt = ds.foldl (fun a d => a.add (d i)) e.lwp)
    (hw : ∀ k ≤ steps (M.pixel e.lwp) (M.pixel tgt), stop M.grid (M.pixel e.lwp) (M.pixel tgt) k = none)
    (hm : onMap M.bounds tgt = true) :
    ∃ sc' e', moveElements M p rs ds sc = some sc' ∧ sc'.els[i]? = some e' ∧ e'.status = 2 ∧
      e'.pos = ⟨tgt.x, tgt.y, max tgt.z 0⟩ ∧ e'.mass = e.mass := by
  refine ⟨_, fin M ds i (float e), moveElements_eq M hr p rs ds sc, ?_, ?_⟩
  · simp only [List.getElem?_mapIdx, refloat_getElem M.hl p sc.els rs i e hi]
    rw [if_pos ⟨h3, (refloats_iff M p rs sc.els i).2 hf⟩]
    rfl
  · have ms : (move ds i (float e)).status = 2 := rfl
    have mp : (move ds i (float e)).pos = e.lwp := rfl
    have mn : (move ds i (float e)).nxt = tgt := by
      rw [ht]; unfold move float; simp only; rfl
    obtain ⟨e', he, _, hma, _, _, hz, _, hc⟩ := beachOne_spec M hr (move ds i (float e))
    have hb : beachT M (move ds i (float e)) = e' := by unfold beachT; rw [he]; rfl
    obtain ⟨hp, _, hmm⟩ := fin_pos M ds i (float e) e' hb
    rcases hc with ⟨hx, _⟩ | ⟨_, k, hk, w, hs, _⟩ | ⟨_, _, hst, hnx, _⟩
    · rw [ms] at hx; omega
    · rw [mp, mn] at hs hk
      rw [hw k hk] at hs; simp at hs
    · rw [mn] at hnx hz
      have x1 : e'.nxt = ⟨tgt.x, tgt.y, max tgt.z 0⟩ := by
        cases he1 : e'.nxt
        rw [he1] at hnx hz
        simp only [P3.xy, Pt.mk.injEq] at hnx hz
        simp [hnx.1, hnx.2, hz]
      refine ⟨?_, by rw [hp, x1], by rw [hmm, hma]; rfl⟩
      unfold fin arrive fateOne markOne offOne
      rw [hb, if_pos (show onMap M.bounds e'.nxt = true by
        unfold onMap at hm ⊢; rw [x1]; exact hm)]
      simp only
      rw [if_neg (show ¬ e'.status = offMaps by rw [hst, ms]; decide)]
      rw [hst, ms]

/-- The land pixel that stops a path is a neighbour of the pixel before. -/
theorem stop_adjacent {g : Grid} {p q h : Int × Int} {k : Nat} (hk : k ≤ steps p q) (hs : stop g p q k = some h) :
    (h.1 - (pix p q (k - 1)).1).natAbs ≤ 1 ∧ (h.2 - (pix p q (k - 1)).2).natAbs ≤ 1 := by
  cases k with
  | zero =>
    unfold stop at hs
    simp at hs
    obtain ⟨-, hs⟩ := hs
    subst hs; simp
  | succ k =>
    have hsh := (C32_path_shape p q).2.2.2.1 k (by omega)
    simp only [Nat.add_sub_cancel]
    unfold stop at hs
    split at hs
    · simp at hs; subst hs; exact ⟨hsh.1, hsh.2.1⟩
    · split at hs
      · simp at hs; subst hs; simp [hsh.1]
      · simp at hs

/-- An element in water that beaches: its last water position is the middle of
a pixel of its path that is not land, next to the land pixel in whose middle it
now is. -/
theorem C62_last_water (M : RMap) (hr : ∀ r ∈ M.ratios, 0 < r) (hP : M.proj.Ok) (sc : SC)
    (p : ℚ) (rs : List ℚ) (ds : List (Nat → P3)) (i : Nat) (e : Elem) (hi : sc.els[i]? = some e)
    (h2 : e.status = 2) (hw : ¬ land M.grid (M.pixel e.pos)) :
    ∃ sc' e', moveElements M p rs ds sc = some sc' ∧ sc'.els[i]? = some e' ∧ (e'.status = 3 →
      land M.grid (M.pixel e'.pos) ∧ ¬ land M.grid (M.pixel e'.lwp) ∧
      e'.pos.xy = M.proj.toLonLatInt (M.pixel e'.pos).1 (M.pixel e'.pos).2 ∧
      e'.lwp.xy = M.proj.toLonLatInt (M.pixel e'.lwp).1 (M.pixel e'.lwp).2 ∧
      (∃ k, M.pixel e'.lwp = pix (M.pixel e.pos) (M.pixel (ds.foldl (fun a d => a.add (d i)) e.pos)) k) ∧
      ((M.pixel e'.pos).1 - (M.pixel e'.lwp).1).natAbs ≤ 1 ∧ ((M.pixel e'.pos).2 - (M.pixel e'.lwp).2).natAbs ≤ 1) := by
  refine ⟨_, fin M ds i e, moveElements_eq M hr p rs ds sc, ?_, ?_⟩
  · simp only [List.getElem?_mapIdx, refloat_getElem M.hl p sc.els rs i e hi]
    rw [if_neg (fun h => by omega)]
    rfl
  · intro hf3
    have hS := fin_settled M hr hP ds i e hf3
    have ms : (move ds i e).status = 2 := h2
    have mp : (move ds i e).pos = e.pos := rfl
    have mn : (move ds i e).nxt = ds.foldl (fun a d => a.add (d i)) e.pos := by
      have h2' : e.status = inWater := h2
      unfold move; simp only [if_pos h2']
    obtain ⟨e', he, _, _, _, _, _, _, hc⟩ := beachOne_spec M hr (move ds i e)
    have hb : beachT M (move ds i e) = e' := by unfold beachT; rw [he]; rfl
    obtain ⟨hp, hl, _⟩ := fin_pos M ds i e e' hb
    rcases hc with ⟨hx, _⟩ | ⟨_, k, hk, w, hs, hn, hB⟩ | ⟨_, _, hst, _, _⟩
    · omega
    · have hlw := pixel_centre M hP _ _ hB.1
      have hs3 : e'.status = 3 ∨ e'.status = 2 := by
        by_cases h0 : M.hl = 0
        · exact .inr (hB.2.2 h0).1
        · exact .inl (hB.2.1 h0).1
      by_cases h0 : M.hl = 0
      · exfalso
        revert hf3
        unfold fin arrive fateOne markOne offOne
        rw [hb]
        simp only
        have := (hB.2.2 h0).1
        split
        · split
          · intro h; exact absurd h (show ¬ (12 : Nat) = 3 by decide)
          · intro h; omega
        · split
          · intro h; exact absurd h (show ¬ (12 : Nat) = 3 by decide)
          · intro h; exact absurd h (show ¬ (7 : Nat) = 3 by decide)
      · have hpx := pixel_centre M hP _ _ (hB.2.1 h0).2
        rw [mp, mn] at hs hk hn hlw
        refine ⟨?_, ?_, hS.pos, hS.lwp, ⟨k - 1, ?_⟩, ?_⟩
        · rw [hp, hpx]; exact stop_land hs
        · rw [hl, hlw]; exact before_stop hw hs hn
        · rw [hl, hlw]
        · rw [hp, hl, hpx, hlw]; exact stop_adjacent hk hs
    · exfalso
      revert hf3
      unfold fin arrive fateOne markOne offOne
      rw [hb]
      simp only
      split
      · split
        · intro h; exact absurd h (show ¬ (12 : Nat) = 3 by decide)
        · intro h; omega
      · split
        · intro h; exact absurd h (show ¬ (12 : Nat) = 3 by decide)
        · intro h; exact absurd h (show ¬ (7 : Nat) = 3 by decide)

/-- The depth of the last water position is never recorded: in every run it is
zero for every element. So refloating puts every element to the surface. -/
theorem C62_depth_lost (M : RMap) (hr : ∀ r ∈ M.ratios, 0 < r) (ops : List Op) (sc sc' : SC)
    (h : ∀ e ∈ sc.els, e.lwp.z = 0) (hrun : run M ops sc = some sc') : ∀ e ∈ sc'.els, e.lwp.z = 0 := by
  induction ops generalizing sc with
  | nil => simp only [run, Option.some.injEq] at hrun; subst hrun; exact h
  | cons o os ih =>
    cases o with
    | rel ns =>
      refine ih (release M ns sc) ?_ hrun
      intro e he
      unfold release at he
      rcases List.mem_append.1 he with he | he
      · exact h e he
      · obtain ⟨n, _, rfl⟩ := List.mem_map.1 he; rfl
    | step p rs ds loss =>
      simp only [run, exec, stepR, moveElements_eq M hr, Option.map_some, Option.bind_some] at hrun
      refine ih _ ?_ hrun
      intro e he
      obtain ⟨he, _⟩ := List.mem_filter.1 he
      obtain ⟨e0, he0, _, _, h2, _, _⟩ := weather_mem he
      obtain ⟨i, hi, hf⟩ := List.mem_mapIdx.1 he0
      rw [h2, ← hf]
      obtain ⟨e', he', _, _, _, _, _, hlz, _⟩ := beachOne_spec M hr (move ds i (refloat M.hl p sc.els rs)[i])
      have hb : beachT M (move ds i (refloat M.hl p sc.els rs)[i]) = e' := by unfold beachT; rw [he']; rfl
      rw [(fin_pos M ds i _ e' hb).2.1, hlz]
      obtain ⟨e1, he1, ⟨hh, _⟩ | ⟨_, hh⟩⟩ := refloat_mem (List.getElem_mem hi)
      · show ((refloat M.hl p sc.els rs)[i]).lwp.z = 0
        rw [hh]; exact h e1 he1
      · show ((refloat M.hl p sc.els rs)[i]).lwp.z = 0
        rw [hh]; exact h e1 he1

/-- An element that beached at depth 5 refloats at the surface. -/
theorem C62_counterexample_depth :
    see (run (demoMap 1) [.rel [⟨⟨1/4, 3/4, 5⟩, 10, 2, false⟩],
      .step (1/2) [] [fun _ => ⟨2, 0, 0⟩] (fun _ => 0)] SC.empty) = some [(5/2, 1/2, 5, 3)] ∧
    see (run (demoMap 1) [.rel [⟨⟨1/4, 3/4, 5⟩, 10, 2, false⟩],
      .step (1/2) [] [fun _ => ⟨2, 0, 0⟩] (fun _ => 0), .step (1/2) [1/4] [] (fun _ => 0)] SC.empty) =
      some [(3/2, 1/2, 0, 2)] := by decide +kernel

/-- The same map with all water but for one pixel, (2, 0). -/
def demoMap2 (hl : ℚ) : RMap := { demoMap hl with grid := ⟨3, 2, [0, 0, 0, 0, 1, 0], rfl⟩ }

/-- An element released on land refloats to longitude 0, latitude 0. -/
theorem C62_counterexample_released :
    see (run (demoMap2 1) [.rel [⟨⟨5/2, 1/2, 0⟩, 10, 2, false⟩]] SC.empty) = some [(5/2, 1/2, 0, 3)] ∧
    see (run (demoMap2 1) [.rel [⟨⟨5/2, 1/2, 0⟩, 10, 2, false⟩], .step (1/2) [1/4] [] (fun _ => 0)] SC.empty) =
      some [(0, 0, 0, 2)] := by decide +kernel

/-! ### C63 -/

/-- All the mass there is: in the elements, gone off the map, lost to weathering. -/
def total (sc : SC) : ℚ := (sc.els.map Elem.mass).sum + sc.offMap + sc.lost

theorem sum_mapIdx_add {α : Type} (l : List α) (f g : Nat → α → ℚ) :
    (l.mapIdx (fun i a => f i a + g i a)).sum = (l.mapIdx f).sum + (l.mapIdx g).sum := by
  induction l generalizing f g with
  | nil => simp
  | cons a l ih => simp only [List.mapIdx_cons, List.sum_cons, ih]; ring

theorem massOf_eq (st : Nat) (es : List Elem) :
    massOf st es = (es.map (fun e => if e.status = st then e.mass else 0)).sum := by
  unfold massOf
  induction es with
  | nil => rfl
  | cons e es ih =>
    by_cases h : e.status = st
    · rw [List.filter_cons_of_pos (by simpa using h)]
      simp [ih, h]
    · rw [List.filter_cons_of_neg (by simpa using h)]
      simp [ih, h]

theorem sum_filter (es : List Elem) (q : Elem → Bool) :
    ((es.filter q).map Elem.mass).sum + (es.map (fun e => if q e then 0 else e.mass)).sum = (es.map Elem.mass).sum := by
  induction es with
  | nil => simp
  | cons e es ih =>
    by_cases h : q e = true
    · rw [List.filter_cons_of_pos h]; simp only [List.map_cons, List.sum_cons, h, if_true]; linarith
    · rw [List.filter_cons_of_neg h]; simp only [List.map_cons, List.sum_cons, h]; simp; linarith

/-- What the elements of a container that are marked for removal lose to weathering. -/
def leavingLoss (loss : Nat → ℚ) (es : List Elem) : ℚ :=
  (es.mapIdx (fun i e => if e.status = 12 ∧ e.fate &&& 2 = 2 ∧ 0 < e.mass then loss i else 0)).sum

theorem refloat_mass (hl p : ℚ) (es : List Elem) (rs : List ℚ) :
    (refloat hl p es rs).map Elem.mass = es.map Elem.mass := by
  induction es generalizing rs with
  | nil => rfl
  | cons e es ih =>
    simp only [refloat]
    split
    · split <;> simp [ih, float]
    · simp [ih]

theorem fin_mass (M : RMap) (hr : ∀ r ∈ M.ratios, 0 < r) (ds : List (Nat → P3)) (i : Nat) (e : Elem) :
    (fin M ds i e).mass = e.mass := by
  obtain ⟨e', he, _, hm, _⟩ := beachOne_spec M hr (move ds i e)
  have hb : beachT M (move ds i e) = e' := by unfold beachT; rw [he]; rfl
  rw [(fin_pos M ds i e e' hb).2.2, hm]; rfl

theorem off_fields (b : List Pt) (e : Elem) : (offOne b e).mass = e.mass ∧ (offOne b e).nxt = e.nxt := by
  unfold offOne; split <;> exact ⟨rfl, rfl⟩

theorem mark_status (e : Elem) (h : e.status ≠ 12) : ((arrive (fateOne (markOne e))).status = 12 ↔ e.status = 7) ∧
    ((arrive (fateOne (markOne e))).status = 3 ↔ e.status = 3) := by
  have : (arrive (fateOne (markOne e))).status = (markOne e).status := rfl
  rw [this]
  unfold markOne
  by_cases h7 : e.status = offMaps
  · rw [if_pos h7]
    have : e.status = 7 := h7
    exact ⟨⟨fun _ => this, fun _ => rfl⟩, ⟨fun h => absurd h (show ¬ (12 : Nat) = 3 by decide), fun h => by omega⟩⟩
  · rw [if_neg h7]
    exact ⟨⟨fun hh => absurd hh h, fun h => absurd h h7⟩, Iff.rfl⟩

theorem beach_status (M : RMap) (hr : ∀ r ∈ M.ratios, 0 < r) (ds : List (Nat → P3)) (i : Nat) (e : Elem)
    (h : e.status = 2 ∨ e.status = 3) : (offOne M.bounds (beachT M (move ds i e))).status ≠ 12 := by
  obtain ⟨e', he, _, _, _, _, _, _, hc⟩ := beachOne_spec M hr (move ds i e)
  have hb : beachT M (move ds i e) = e' := by unfold beachT; rw [he]; rfl
  rw [hb]
  have ms : (move ds i e).status = e.status := rfl
  have hB : ∀ a b, BeachedAt M a b e' → e'.status ≠ 12 := by
    intro a b hB
    by_cases h0 : M.hl = 0
    · have := (hB.2.2 h0).1; omega
    · have := (hB.2.1 h0).1; omega
  have h12 : e'.status ≠ 12 := by
    rcases hc with ⟨_, h'⟩ | ⟨_, _, _, _, _, _, h'⟩ | ⟨_, _, hs, _⟩
    · exact hB _ _ h'
    · exact hB _ _ h'
    · omega
  unfold offOne
  split
  · exact h12
  · exact show (7 : Nat) ≠ 12 by decide

theorem massOf_mapIdx (st st' : Nat) (l : List Elem) (f g : Nat → Elem → Elem)
    (h : ∀ (i : Nat) (hi : i < l.length), (f i l[i]).mass = (g i l[i]).mass ∧
      ((f i l[i]).status = st ↔ (g i l[i]).status = st')) :
    massOf st (l.mapIdx f) = massOf st' (l.mapIdx g) := by
  rw [massOf_eq, massOf_eq, map_mapIdx, map_mapIdx]
  congr 1
  apply List.ext_getElem
  · simp
  · intro i h1 h2
    have hi : i < l.length := by simpa using h1
    have := h i hi
    simp only [List.getElem_mapIdx]
    rw [this.1]
    simp only [this.2]

theorem refloat_status {hl p : ℚ} {es : List Elem} {rs : List ℚ} (hst : ∀ e ∈ es, e.status = 2 ∨ e.status = 3) :
    ∀ e ∈ refloat hl p es rs, e.status = 2 ∨ e.status = 3 := by
  intro e he
  obtain ⟨e1, h1, ⟨hh, _⟩ | ⟨_, hh⟩⟩ := refloat_mem he
  · rw [hh]; exact hst e1 h1
  · rw [hh]; exact .inl rfl

/-- Moving: nothing is lost or gained in the elements; what leaves the map, and
only that, is added to 'off_maps'; 'beached' is the mass on land. -/
theorem C63_move (M : RMap) (hr : ∀ r ∈ M.ratios, 0 < r) (p : ℚ) (rs : List ℚ) (ds : List (Nat → P3)) (sc : SC)
    (hst : ∀ e ∈ sc.els, e.status = 2 ∨ e.status = 3) :
    ∃ sc', moveElements M p rs ds sc = some sc' ∧ sc'.els.map Elem.mass = sc.els.map Elem.mass ∧
      sc'.beached = massOf 3 sc'.els ∧ sc'.offMap = sc.offMap + massOf 12 sc'.els ∧
      sc'.lost = sc.lost ∧ sc'.released = sc.released := by
  refine ⟨_, moveElements_eq M hr p rs ds sc, ?_, ?_, ?_, rfl, rfl⟩
  · simp only
    rw [← refloat_mass M.hl p sc.els rs, map_mapIdx]
    apply List.ext_getElem?
    intro n
    simp only [List.getElem?_mapIdx, List.getElem?_map, fin_mass M hr]
  · simp only
    refine massOf_mapIdx 3 3 _ _ _ (fun i hi => ?_)
    have hs := beach_status M hr ds i _ (refloat_status hst _ (List.getElem_mem hi))
    refine ⟨?_, (mark_status _ hs).2.symm⟩
    rw [fin_mass M hr, (off_fields _ _).1]
    have := fin_mass M hr ds i (refloat M.hl p sc.els rs)[i]
    obtain ⟨e', he, _, hm, _⟩ := beachOne_spec M hr (move ds i (refloat M.hl p sc.els rs)[i])
    have hb : beachT M (move ds i (refloat M.hl p sc.els rs)[i]) = e' := by unfold beachT; rw [he]; rfl
    rw [hb, hm]; rfl
  · simp only
    congr 1
    refine massOf_mapIdx 7 12 _ _ _ (fun i hi => ?_)
    have hs := beach_status M hr ds i _ (refloat_status hst _ (List.getElem_mem hi))
    refine ⟨?_, (mark_status _ hs).1.symm⟩
    rw [fin_mass M hr, (off_fields _ _).1]
    obtain ⟨e', he, _, hm, _⟩ := beachOne_spec M hr (move ds i (refloat M.hl p sc.els rs)[i])
    have hb : beachT M (move ds i (refloat M.hl p sc.els rs)[i]) = e' := by unfold beachT; rw [he]; rfl
    rw [hb, hm]; rfl

theorem weathers_iff (e : Elem) : weathers e = true ↔ (e.fate &&& 2 = 2 ∧ 0 < e.mass) := by
  unfold weathers surfaceWeather; simp

/-- Weathering and removal, in terms of the state between. -/
theorem weather_remove_total (loss : Nat → ℚ) (s : SC) :
    total (remove (weather loss s)) + massOf 12 s.els = total s + leavingLoss loss s.els := by
  have h1 := sum_filter (weather loss s).els (fun e => decide (e.status ≠ toBeRemoved))
  have h2 : ((weather loss s).els.map Elem.mass).sum + (weather loss s).lost = (s.els.map Elem.mass).sum + s.lost := by
    unfold weather
    simp only
    rw [map_mapIdx]
    have e1 : s.els.map Elem.mass = s.els.mapIdx (fun i e =>
        (if weathers e then { e with mass := e.mass - loss i } else e : Elem).mass + (if weathers e then loss i else 0)) := by
      apply List.ext_getElem?
      intro n
      simp only [List.getElem?_mapIdx, List.getElem?_map]
      congr 1
      funext e
      split <;> simp
    rw [e1, sum_mapIdx_add]
    ring
  have h3 : ((weather loss s).els.map (fun e => if decide (e.status ≠ toBeRemoved) then 0 else e.mass)).sum +
      leavingLoss loss s.els = massOf 12 s.els := by
    rw [massOf_eq]
    unfold weather leavingLoss
    simp only
    rw [map_mapIdx, ← sum_mapIdx_add]
    congr 1
    apply List.ext_getElem?
    intro n
    simp only [List.getElem?_mapIdx, List.getElem?_map]
    congr 1
    funext e
    by_cases hw : weathers e = true
    · have := (weathers_iff e).1 hw
      by_cases h12 : e.status = 12
      · simp [hw, h12, toBeRemoved, this.1, this.2]
      · simp [hw, h12, toBeRemoved]
    · have : ¬ (e.fate &&& 2 = 2 ∧ 0 < e.mass) := fun h => hw ((weathers_iff e).2 h)
      by_cases h12 : e.status = 12
      · simp [hw, h12, toBeRemoved]
        intro a b; exact absurd ⟨a, b⟩ this
      · simp [hw, h12, toBeRemoved]
  have e2 : (remove (weather loss s)).els = (weather loss s).els.filter (fun e => decide (e.status ≠ toBeRemoved)) := rfl
  have e3 : (remove (weather loss s)).lost = (weather loss s).lost := rfl
  have e4 : (remove (weather loss s)).offMap = s.offMap := rfl
  unfold total
  rw [e2, e3, e4]
  linarith

/-- One step: the total grows by exactly what the elements that leave the map
in this step lose to weathering in it; they are counted twice. -/
theorem C63_step (M : RMap) (hr : ∀ r ∈ M.ratios, 0 < r) (p : ℚ) (rs : List ℚ) (ds : List (Nat → P3))
    (loss : Nat → ℚ) (sc : SC) (hst : ∀ e ∈ sc.els, e.status = 2 ∨ e.status = 3) :
    ∃ s sc', moveElements M p rs ds sc = some s ∧ stepR M p rs ds loss sc = some sc' ∧
      total sc' = total sc + leavingLoss loss s.els ∧ sc'.released = sc.released := by
  obtain ⟨s, h1, h2, _, h4, h5, h6⟩ := C63_move M hr p rs ds sc hst
  refine ⟨s, remove (weather loss s), h1, by unfold stepR; rw [h1]; rfl, ?_, h6⟩
  have := weather_remove_total loss s
  have ht : total s = total sc + massOf 12 s.els := by
    unfold total; rw [h2, h4, h5]; ring
  linarith

/-- No element leaves the map and loses mass to weathering in the same step. -/
def Clean (M : RMap) : List Op → SC → Prop
  | [], _ => True
  | .rel ns :: os, sc => Clean M os (release M ns sc)
  | .step p rs ds loss :: os, sc => ∀ s sc', moveElements M p rs ds sc = some s →
      stepR M p rs ds loss sc = some sc' → leavingLoss loss s.els = 0 ∧ Clean M os sc'

theorem clean_total (M : RMap) (hr : ∀ r ∈ M.ratios, 0 < r) (hP : M.proj.Ok) (hg : ∀ v ∈ M.grid.data, v ≤ 1)
    (H : M.hl ≠ 0 ∨ ¬ land M.grid (M.pixel .zero)) (ops : List Op) (sc : SC) (hpl : ∀ e ∈ sc.els, Placed M e)
    (ht : total sc = sc.released) (hc : Clean M ops sc) :
    ∃ sc', run M ops sc = some sc' ∧ total sc' = sc'.released := by
  induction ops generalizing sc with
  | nil => exact ⟨sc, rfl, ht⟩
  | cons o os ih =>
    cases o with
    | rel ns =>
      refine ih (release M ns sc) ?_ ?_ hc
      · intro e he
        unfold release at he
        rcases List.mem_append.1 he with he | he
        · exact hpl e he
        · obtain ⟨n, _, rfl⟩ := List.mem_map.1 he
          exact placed_new M hg H n
      · unfold total release at *
        simp only [List.map_append, List.map_map, List.sum_append]
        have : ns.map (Elem.mass ∘ mkElem M) = ns.map New.mass := rfl
        rw [this]
        linarith
    | step p rs ds loss =>
      obtain ⟨s, sc', h1, h2, h3, h4⟩ := C63_step M hr p rs ds loss sc (fun e he => (hpl e he).st)
      obtain ⟨h5, h6⟩ := hc s sc' h1 h2
      obtain ⟨s1, h7, h8⟩ := step_placed M hr hP p rs ds loss sc hpl
      have : s1 = sc' := by rw [h2] at h7; exact (Option.some.inj h7).symm
      subst this
      obtain ⟨s2, h9, h10⟩ := ih s1 (fun e he => (h8 e he).1) (by rw [h3, h4, h5, ht]; ring) h6
      exact ⟨s2, by simp only [run, exec]; rw [h2]; exact h9, h10⟩

/-- In every run in which no element leaves the map and weathers in the same
step, the mass released is the mass in the elements, plus that gone off the
map, plus that weathered. -/
theorem C63_closed_partial (M : RMap) (hr : ∀ r ∈ M.ratios, 0 < r) (hP : M.proj.Ok) (hg : ∀ v ∈ M.grid.data, v ≤ 1)
    (H : M.hl ≠ 0 ∨ ¬ land M.grid (M.proj.toPixelInt ⟨0, 0⟩)) (ops : List Op) (hc : Clean M ops SC.empty) :
    ∃ sc, run M ops SC.empty = some sc ∧ (sc.els.map Elem.mass).sum + sc.offMap + sc.lost = sc.released :=
  clean_total M hr hP hg H ops SC.empty (by simp [SC.empty]) (by simp [total, SC.empty]) hc

/-- An element that evaporates by 3 of 10 and leaves the map in the same step:
13 are accounted for. -/
theorem C63_counterexample : (run (demoMap 1) [.rel [⟨⟨3/2, 1/2, 0⟩, 10, 2, false⟩],
      .step (1/2) [] [fun _ => ⟨0, 30, 0⟩] (fun _ => 3)] SC.empty).map
        (fun s => (s.els.length, s.offMap, s.lost, s.released)) = some (0, 10, 3, 10) := by decide +kernel

/-- A run with weathering, beaching and leaving for which the partial theorem applies. -/
example : (run (demoMap 1) [.rel [⟨⟨3/2, 1/2, 0⟩, 10, 2, false⟩, ⟨⟨1/4, 3/4, 0⟩, 10, 2, false⟩, ⟨⟨1/4, 1/2, 0⟩, 10, 2, false⟩],
      .step (1/2) [] [fun i => if i = 0 then ⟨0, 30, 0⟩ else if i = 1 then ⟨2, 0, 0⟩ else .zero]
        (fun i => if i = 2 then 3 else 0)] SC.empty).map
        (fun s => (s.els.map Elem.mass, s.beached, s.offMap, s.lost, s.released)) =
    some ([10, 7], 10, 10, 3, 30) := by decide +kernel

/-- That run meets the hypothesis of the theorem. -/
example : Clean (demoMap 1) [.rel [⟨⟨3/2, 1/2, 0⟩, 10, 2, false⟩, ⟨⟨1/4, 3/4, 0⟩, 10, 2, false⟩, ⟨⟨1/4, 1/2, 0⟩, 10, 2, false⟩],
      .step (1/2) [] [fun i => if i = 0 then ⟨0, 30, 0⟩ else if i = 1 then ⟨2, 0, 0⟩ else .zero]
        (fun i => if i = 2 then 3 else 0)] SC.empty := by
  intro s sc' h1 _
  have key : (moveElements (demoMap 1) (1/2) [] [fun i => if i = 0 then ⟨0, 30, 0⟩ else if i = 1 then ⟨2, 0, 0⟩ else .zero]
      (release (demoMap 1) [⟨⟨3/2, 1/2, 0⟩, 10, 2, false⟩, ⟨⟨1/4, 3/4, 0⟩, 10, 2, false⟩, ⟨⟨1/4, 1/2, 0⟩, 10, 2, false⟩]
        SC.empty)).map (fun s => leavingLoss (fun i => if i = 2 then 3 else 0) s.els) = some 0 := by decide +kernel
  rw [h1] at key
  exact ⟨by simpa using key, trivial⟩

/-- On a map without land the same holds of the move. -/
theorem C63_gnome (b : List Pt) (ds : List (Nat → P3)) (sc : SC) (hst : ∀ e ∈ sc.els, e.status = 2 ∨ e.status = 3) :
    (moveGnome b ds sc).els.map Elem.mass = sc.els.map Elem.mass ∧
    (moveGnome b ds sc).offMap = sc.offMap + massOf 12 (moveGnome b ds sc).els := by
  have h1 : ∀ (i : Nat) (e : Elem), (arrive (fateOne (markOne (offOne b (resurface (move ds i e)))))).mass = e.mass := by
    intro i e
    unfold arrive fateOne markOne offOne
    simp only
    split <;> split <;> rfl
  have h2 : ∀ (i : Nat) (e : Elem), (offOne b (resurface (move ds i e))).mass = e.mass := by
    intro i e; rw [(off_fields _ _).1]; rfl
  unfold moveGnome gnomeBeach setOff
  simp only [map_mapIdx]
  constructor
  · apply List.ext_getElem?
    intro n
    simp only [List.getElem?_mapIdx, List.getElem?_map, h1]
  · congr 1
    refine massOf_mapIdx 7 12 _ _ _ (fun i hi => ⟨by rw [h1, h2], ?_⟩)
    refine (mark_status _ ?_).1.symm
    have := hst _ (List.getElem_mem hi)
    unfold offOne
    split
    · show (sc.els[i]).status ≠ 12
      omega
    · exact show (7 : Nat) ≠ 12 by decide

/-- On a `ParamMap` the mass that leaves the map is counted three times. -/
theorem C63_counterexample_param : ∃ (a b : Pt) (land bounds : List Pt) (sc sc' : SC),
    (∀ e ∈ sc.els, e.status = 2) ∧ paramBeach a b land bounds sc = some sc' ∧
    massOf 7 sc'.els = 10 ∧ sc'.offMap = sc.offMap + 30 := by
  refine ⟨⟨1, -16⟩, ⟨1, 16⟩, [⟨1, -16⟩, ⟨1, 16⟩, ⟨16, 16⟩, ⟨16, -16⟩], [⟨-16, -16⟩, ⟨-16, 16⟩, ⟨16, 16⟩, ⟨16, -16⟩],
    ⟨[⟨⟨0, 0, 0⟩, ⟨-20, 0, 0⟩, ⟨0, 0, 0⟩, 2, 10, 2, false⟩], 0, 0, 0, 10⟩,
    ⟨[⟨⟨-20, 0, 0⟩, ⟨-20, 0, 0⟩, ⟨0, 0, 0⟩, 7, 10, 2, false⟩], 0, 30, 0, 10⟩, by simp, ?_, by decide +kernel, by norm_num⟩
  have key : (paramBeach ⟨1, -16⟩ ⟨1, 16⟩ [⟨1, -16⟩, ⟨1, 16⟩, ⟨16, 16⟩, ⟨16, -16⟩]
      [⟨-16, -16⟩, ⟨-16, 16⟩, ⟨16, 16⟩, ⟨16, -16⟩]
      ⟨[⟨⟨0, 0, 0⟩, ⟨-20, 0, 0⟩, ⟨0, 0, 0⟩, 2, 10, 2, false⟩], 0, 0, 0, 10⟩).map
      (fun s => (s.els, s.beached, s.offMap, s.lost, s.released)) =
      some ([⟨⟨-20, 0, 0⟩, ⟨-20, 0, 0⟩, ⟨0, 0, 0⟩, 7, 10, 2, false⟩], 0, 30, 0, 10) := by
    decide +kernel
  cases h : paramBeach ⟨1, -16⟩ ⟨1, 16⟩ [⟨1, -16⟩, ⟨1, 16⟩, ⟨16, 16⟩, ⟨16, -16⟩]
      [⟨-16, -16⟩, ⟨-16, 16⟩, ⟨16, 16⟩, ⟨16, -16⟩]
      ⟨[⟨⟨0, 0, 0⟩, ⟨-20, 0, 0⟩, ⟨0, 0, 0⟩, 2, 10, 2, false⟩], 0, 0, 0, 10⟩ with
  | none => rw [h] at key; simp at key
  | some s =>
    rw [h] at key
    cases s
    simp only [Option.map_some, Option.some.injEq, Prod.mk.injEq] at key
    obtain ⟨rfl, rfl, rfl, rfl, rfl⟩ := key
    rfl

/-! ### C64 -/

/-- The fate after a move: non-weathering substances and elements on land do not
weather; elements in water not marked for a response weather at or below the
surface according to their depth *before* the move; others keep their fate. -/
theorem C64_fate_partial (M : RMap) (hr : ∀ r ∈ M.ratios, 0 < r) (p : ℚ) (rs : List ℚ) (ds : List (Nat → P3)) (sc : SC)
    (i : Nat) (e : Elem) (hi : (refloat M.hl p sc.els rs)[i]? = some e) :
    ∃ sc' e', moveElements M p rs ds sc = some sc' ∧ sc'.els[i]? = some e' ∧
      (e.nw = true → e'.fate = 1) ∧
      (e.nw = false → e'.status = 3 → e'.fate = 1) ∧
      (e.nw = false → e'.status = 2 → e.fate &&& 8 ≠ 8 → e.fate &&& 16 ≠ 16 → e.fate &&& 32 ≠ 32 →
        (e.pos.z = 0 → e'.fate = 2) ∧ (e.pos.z > 0 → e'.fate = 4)) ∧
      (e.nw = false → e'.status = 2 → (e.fate &&& 8 = 8 ∨ e.fate &&& 16 = 16 ∨ e.fate &&& 32 = 32) → e'.fate = e.fate) ∧
      (e.nw = false → e'.status ≠ 2 → e'.status ≠ 3 → e'.fate = e.fate) := by
  refine ⟨_, fin M ds i e, moveElements_eq M hr p rs ds sc, by simp only [List.getElem?_mapIdx, hi, Option.map_some], ?_⟩
  obtain ⟨e', he, hpos, _, hfa, hnw, _, _, _⟩ := beachOne_spec M hr (move ds i e)
  have hb : beachT M (move ds i e) = e' := by unfold beachT; rw [he]; rfl
  obtain ⟨m, hm⟩ : ∃ m, markOne (offOne M.bounds (beachT M (move ds i e))) = m := ⟨_, rfl⟩
  have m1 : m.pos = e.pos ∧ m.fate = e.fate ∧ m.nw = e.nw := by
    rw [← hm, hb]
    unfold markOne offOne
    split <;> split <;> exact ⟨hpos, hfa, hnw⟩
  have hf : fin M ds i e = arrive (fateOne m) := by unfold fin; rw [hm]
  have hs : (fin M ds i e).status = m.status := by rw [hf]; rfl
  have hff : (fin M ds i e).fate = (fateOne m).fate := by rw [hf]; rfl
  rw [hs, hff]
  unfold fateOne
  simp only [m1.1, m1.2.1, m1.2.2, onLand, inWater, nonWeather, surfaceWeather, subsurfWeather]
  refine ⟨fun h => by simp [h], fun h h3 => by simp [h, h3], fun h h2 a b c => ⟨fun z => ?_, fun z => ?_⟩, fun h h2 hor => ?_, fun h h2 h3 => by simp [h, h2, h3]⟩
  · simp [h, h2, a, b, c, z]
  · simp [h, h2, a, b, c, z]
  · have : ¬ (¬ (e.fate &&& 8 = 8) ∧ ¬ (e.fate &&& 16 = 16) ∧ ¬ (e.fate &&& 32 = 32)) := by
      rintro ⟨a, b, c⟩
      rcases hor with h | h | h
      · exact a h
      · exact b h
      · exact c h
    simp [h, h2]
    have h32 : ¬ (2 : Nat) = 3 := by decide
    rw [if_neg (fun hh => this ⟨hh.1.1, hh.1.2.1, hh.1.2.2⟩), if_neg (fun hh => this ⟨hh.1.1, hh.1.2.1, hh.1.2.2⟩)]

/-- An element that rises to the surface weathers as a submerged one in that
step, one that sinks as a floating one. -/
theorem C64_counterexample :
    (run (demoMap 1) [.rel [⟨⟨3/2, 1/2, 5⟩, 10, 4, false⟩, ⟨⟨3/2, 1/2, 0⟩, 10, 2, false⟩],
      .step (1/2) [] [fun i => if i = 0 then ⟨0, 0, -5⟩ else ⟨0, 0, 5⟩] (fun _ => 0)] SC.empty).map
        (fun s => s.els.map (fun e => (e.pos.z, e.status, e.fate))) = some [(0, 2, 4), (5, 2, 2)] := by decide +kernel

end Verif.MapStep
