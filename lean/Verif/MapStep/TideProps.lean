import Verif.MapStep.Tide
import Verif.MapStep.Props
/-
C68: with a tide flat, after every step an element is on the tide flat exactly
if it is at a place that is dry, and it stays there until it is flooded.
-/
namespace Verif.MapStep
open Verif.Land Verif.Geom

/-- The move of one element after refloating. -/
def finT (M : RMap) (dry : P3 → Bool) (ds : List (Nat → P3)) (i : Nat) (e : Elem) : Elem :=
  arrive (fateOne (markOne (tideOne dry (offOne M.bounds (beachT M (move ds i e))))))

theorem moveT_eq (M : RMap) (hr : ∀ r ∈ M.ratios, 0 < r) (dry : P3 → Bool) (p : ℚ) (rs : List ℚ) (ds : List (Nat → P3))
    (sc : SC) : ∃ s, moveT M dry p rs ds sc = some s ∧
      s.els = (refloat M.hl p (sc.els.map (wetOne dry)) rs).mapIdx (finT M dry ds) := by
  unfold moveT tideBeach rasterBeach
  simp only
  rw [mapM_total _ _ (beachOne_some M hr)]
  refine ⟨_, rfl, ?_⟩
  simp only [setOff, map_mapIdx]
  rfl

/-- The tide flat changes only the status, and the fate. -/
theorem finT_fields (M : RMap) (dry : P3 → Bool) (ds : List (Nat → P3)) (i : Nat) (e : Elem) :
    (finT M dry ds i e).pos = (fin M ds i e).pos ∧ (finT M dry ds i e).nxt = (fin M ds i e).pos ∧
    (finT M dry ds i e).lwp = (fin M ds i e).lwp ∧
    (finT M dry ds i e).status =
      if (fin M ds i e).status = 2 ∧ dry (fin M ds i e).pos = true then 32 else (fin M ds i e).status := by
  unfold finT fin
  generalize offOne M.bounds (beachT M (move ds i e)) = o
  have e1 : ∀ x : Elem, (markOne x).nxt = x.nxt ∧ (markOne x).lwp = x.lwp := by
    intro x; unfold markOne; split <;> exact ⟨rfl, rfl⟩
  have e2 : (tideOne dry o).nxt = o.nxt ∧ (tideOne dry o).lwp = o.lwp := by
    unfold tideOne; split <;> exact ⟨rfl, rfl⟩
  refine ⟨?_, ?_, ?_, ?_⟩
  · show (markOne (tideOne dry o)).nxt = (markOne o).nxt
    rw [(e1 _).1, (e1 _).1, e2.1]
  · show (markOne (tideOne dry o)).nxt = (markOne o).nxt
    rw [(e1 _).1, (e1 _).1, e2.1]
  · show (markOne (tideOne dry o)).lwp = (markOne o).lwp
    rw [(e1 _).2, (e1 _).2, e2.2]
  · show (markOne (tideOne dry o)).status =
      if (markOne o).status = 2 ∧ dry (markOne o).nxt = true then 32 else (markOne o).status
    rw [(e1 o).1]
    by_cases h2 : o.status = 2
    · have h2' : o.status = inWater := h2
      have hm : markOne o = o := by unfold markOne; rw [if_neg (show ¬ o.status = offMaps by rw [h2]; decide)]
      rw [hm]
      by_cases hd : dry o.nxt = true
      · have : tideOne dry o = { o with status := 32 } := by unfold tideOne; rw [if_pos ⟨h2', hd⟩]; rfl
        rw [this, if_pos ⟨h2, hd⟩]; rfl
      · have : tideOne dry o = o := by
          unfold tideOne; rw [if_neg (show ¬ (o.status = inWater ∧ dry o.nxt = true) from fun h => hd h.2)]
        rw [this, hm, if_neg (show ¬ (o.status = 2 ∧ dry o.nxt = true) from fun h => hd h.2)]
    · have : tideOne dry o = o := by
        unfold tideOne; rw [if_neg (show ¬ (o.status = inWater ∧ dry o.nxt = true) from fun h => h2 h.1)]
      rw [this, if_neg]
      rintro ⟨h, _⟩
      unfold markOne at h
      split at h
      · exact absurd h (show ¬ (12 : Nat) = 2 by decide)
      · exact h2 h

/-- What holds of every element of a run between the steps. -/
structure PlacedT (M : RMap) (e : Elem) : Prop where
  st : e.status = 2 ∨ e.status = 3 ∨ e.status = 32
  l3 : e.status = 3 → land M.grid (M.pixel e.pos)
  l2 : e.status ≠ 3 → ¬ land M.grid (M.pixel e.pos)
  w3 : M.hl = 0 → e.status = 3 → ¬ land M.grid (M.pixel e.lwp)
  still : e.status = 32 → e.nxt = e.pos ∧ 0 ≤ e.pos.z ∧ onMap M.bounds e.pos = true

/-- An element on the flat does not move. -/
theorem fin_flat (M : RMap) (hr : ∀ r ∈ M.ratios, 0 < r) (ds : List (Nat → P3)) (i : Nat) (e : Elem)
    (h : e.status = 32) (hp : PlacedT M e) :
    (fin M ds i e).pos = e.pos ∧ (fin M ds i e).lwp = e.lwp ∧ (fin M ds i e).status = 32 := by
  obtain ⟨e', he, hpos, _, _, _, hz, _, hc⟩ := beachOne_spec M hr (move ds i e)
  have hb : beachT M (move ds i e) = e' := by unfold beachT; rw [he]; rfl
  have ms : (move ds i e).status = e.status := rfl
  have mp : (move ds i e).pos = e.pos := rfl
  have mn : (move ds i e).nxt = e.pos := move_still ds i e (by omega)
  have hl := hp.l2 (by omega)
  obtain ⟨hs1, hs2, hs3⟩ := hp.still h
  rcases hc with ⟨h3, _⟩ | ⟨_, k, hk, w, hs, hn, _⟩ | ⟨_, _, hst, hnx, hlw⟩
  · omega
  · exfalso
    rw [mn, mp] at hk hs
    have : steps (M.pixel e.pos) (M.pixel e.pos) = 0 := by simp [steps]
    have hk0 : k = 0 := by omega
    rw [hk0, stop_zero hl] at hs
    simp at hs
  · have hnxt : e'.nxt = e.pos := by
      have h1 : e'.nxt.xy = e.pos.xy := by rw [hnx, mn]
      have h2 : e'.nxt.z = e.pos.z := by rw [hz, mn]; exact max_eq_left hs2
      unfold P3.xy at h1
      simp only [Pt.mk.injEq] at h1
      cases hq : e'.nxt; cases hq2 : e.pos
      rw [hq, hq2] at h1 h2
      simp only at h1 h2
      rw [h1.1, h1.2, h2]
    have hfs : e'.status = 32 := by rw [hst, ms, h]
    have : fin M ds i e = arrive (fateOne e') := by
      have ho : offOne M.bounds e' = e' := by unfold offOne; rw [if_pos (by rw [hnxt]; exact hs3)]
      have hm : markOne e' = e' := by unfold markOne; rw [if_neg (show ¬ e'.status = offMaps by rw [hfs]; decide)]
      unfold fin
      rw [hb, ho, hm]
    rw [this]
    exact ⟨hnxt, hlw, hfs⟩

theorem wetOne_fields (dry : P3 → Bool) (e : Elem) : (wetOne dry e).pos = e.pos ∧ (wetOne dry e).lwp = e.lwp ∧
    (wetOne dry e).nxt = e.nxt ∧
    (wetOne dry e).status = if e.status = 32 ∧ dry e.nxt = false then 2 else e.status := by
  unfold wetOne
  by_cases h : e.status = onTideflat ∧ dry e.nxt = false
  · rw [if_pos h, if_pos (show e.status = 32 ∧ dry e.nxt = false from h)]; exact ⟨rfl, rfl, rfl, rfl⟩
  · rw [if_neg h, if_neg (show ¬ (e.status = 32 ∧ dry e.nxt = false) from h)]; exact ⟨rfl, rfl, rfl, rfl⟩

/-- After flooding and refloating: as in `Ready`, or dry on the flat. -/
theorem readyT {M : RMap} {dry : P3 → Bool} {p : ℚ} {es : List Elem} {rs : List ℚ} (h : ∀ e ∈ es, PlacedT M e) :
    ∀ e ∈ refloat M.hl p (es.map (wetOne dry)) rs,
      Ready M e ∨ (e.status = 32 ∧ PlacedT M e ∧ dry e.pos = true) := by
  intro e' he'
  obtain ⟨e1, he1, hh⟩ := refloat_mem he'
  obtain ⟨e, he, rfl⟩ := List.mem_map.1 he1
  obtain ⟨w1, w2, w3, w4⟩ := wetOne_fields dry e
  have hp := h e he
  rcases hh with ⟨rfl, hz⟩ | ⟨h3, rfl⟩
  · by_cases hf : e.status = 32 ∧ dry e.nxt = false
    · left
      rw [if_pos hf] at w4
      exact ⟨.inl w4, fun h => by omega, fun _ => ⟨w4, by rw [w1]; exact hp.l2 (by omega)⟩⟩
    · rw [if_neg hf] at w4
      by_cases h32 : e.status = 32
      · right
        refine ⟨w4.trans h32, ⟨?_, ?_, ?_, ?_, ?_⟩, ?_⟩
        · rw [w4]; exact hp.st
        · rw [w4, w1]; exact hp.l3
        · rw [w4, w1]; exact hp.l2
        · rw [w4, w2]; exact hp.w3
        · rw [w4, w1, w3]; exact hp.still
        · rw [w1, ← (hp.still h32).1]
          by_contra hd
          exact hf ⟨h32, by simpa using hd⟩
      · left
        have hs := hp.st
        refine ⟨by omega, by rw [w4, w1]; exact hp.l3, fun h0 => ?_⟩
        have h3 : e.status ≠ 3 := fun h3 => hz (by omega) h0
        exact ⟨by omega, by rw [w1]; exact hp.l2 h3⟩
  · left
    have h3' : e.status = 3 := by
      by_cases hf : e.status = 32 ∧ dry e.nxt = false
      · rw [if_pos hf] at w4; omega
      · rw [if_neg hf] at w4; omega
    refine ⟨.inl rfl, fun h => absurd h (show ¬ (2 : Nat) = 3 by decide), fun h0 => ⟨rfl, ?_⟩⟩
    show ¬ land M.grid (M.pixel (wetOne dry e).lwp)
    rw [w2]; exact hp.w3 h0 h3'

/-- The result of moving one element. -/
theorem finT_spec (M : RMap) (hr : ∀ r ∈ M.ratios, 0 < r) (hP : M.proj.Ok) (dry : P3 → Bool) (ds : List (Nat → P3))
    (i : Nat) (e : Elem) (h : Ready M e ∨ (e.status = 32 ∧ PlacedT M e ∧ dry e.pos = true)) :
    (finT M dry ds i e).status = 12 ∨ (PlacedT M (finT M dry ds i e) ∧
      ((finT M dry ds i e).status = 32 → dry (finT M dry ds i e).pos = true) ∧
      ((finT M dry ds i e).status = 2 → dry (finT M dry ds i e).pos = false)) := by
  obtain ⟨f1, f2, f3, f4⟩ := finT_fields M dry ds i e
  rcases h with h | ⟨h32, hp, hd⟩
  · obtain ⟨hc, hz⟩ := fin_spec M hr hP ds i e h
    rcases hc with hc | ⟨hc, ho⟩
    · left
      rw [f4, if_neg (by omega)]; exact hc
    · right
      by_cases ht : (fin M ds i e).status = 2 ∧ dry (fin M ds i e).pos = true
      · rw [if_pos ht] at f4
        refine ⟨⟨.inr (.inr f4), fun h => by omega, fun _ => by rw [f1]; exact hc.l2 ht.1, fun _ h => by omega,
          fun _ => ⟨f2.trans f1.symm, by rw [f1]; exact hz, by rw [f1]; exact ho⟩⟩, fun _ => by rw [f1]; exact ht.2,
          fun h => by omega⟩
      · rw [if_neg ht] at f4
        have hst := hc.st
        refine ⟨⟨by omega, by rw [f4, f1]; exact hc.l3, fun h3 => by rw [f1]; exact hc.l2 (by omega),
          by rw [f4, f3]; exact hc.w3, fun h => by omega⟩, fun h => by omega, fun h => ?_⟩
        rw [f1]
        by_contra hd
        exact ht ⟨by omega, by simpa using hd⟩
  · right
    obtain ⟨g1, g2, g3⟩ := fin_flat M hr ds i e h32 hp
    rw [g3, if_neg (by omega)] at f4
    rw [g1] at f1 f2
    rw [g2] at f3
    refine ⟨⟨.inr (.inr f4), fun h => by omega, fun _ => by rw [f1]; exact hp.l2 (by omega), fun _ h => by omega,
      fun _ => ⟨f2.trans f1.symm, by rw [f1]; exact (hp.still h32).2.1, by rw [f1]; exact (hp.still h32).2.2⟩⟩,
      fun _ => by rw [f1]; exact hd, fun h => by omega⟩

theorem placedT_new (M : RMap) (hg : ∀ v ∈ M.grid.data, v ≤ 1) (H : M.hl ≠ 0 ∨ ¬ land M.grid (M.pixel .zero)) (n : New) :
    PlacedT M (mkElem M n) := by
  have h := placed_new M hg H n
  have hs := h.st
  exact ⟨by omega, h.l3, fun h3 => h.l2 (by omega), h.w3, fun h32 => by omega⟩

theorem stepT_spec (M : RMap) (hr : ∀ r ∈ M.ratios, 0 < r) (hP : M.proj.Ok) (dry : P3 → Bool) (p : ℚ) (rs : List ℚ)
    (ds : List (Nat → P3)) (loss : Nat → ℚ) (sc : SC) (h : ∀ e ∈ sc.els, PlacedT M e) :
    ∃ sc', execT M (.step dry p rs ds loss) sc = some sc' ∧ ∀ e ∈ sc'.els, PlacedT M e ∧
      (e.status = 32 → dry e.pos = true) ∧ (e.status = 2 → dry e.pos = false) := by
  obtain ⟨s, h1, h2⟩ := moveT_eq M hr dry p rs ds sc
  refine ⟨remove (weather loss s), by simp only [execT, h1, Option.map_some], ?_⟩
  intro e he
  unfold remove at he
  simp only at he
  obtain ⟨he, h12⟩ := List.mem_filter.1 he
  have h12 : e.status ≠ 12 := fun h => by simp [h, toBeRemoved] at h12
  obtain ⟨e0, he0, w1, w2, w3, w4, _⟩ := weather_mem he
  rw [h2] at he0
  obtain ⟨i, hi, hf⟩ := List.mem_mapIdx.1 he0
  have hR := readyT (dry := dry) (p := p) (rs := rs) h _ (List.getElem_mem hi)
  have hc := finT_spec M hr hP dry ds i _ hR
  rw [hf] at hc
  rcases hc with hc | ⟨hc, hd, hw⟩
  · exact absurd (w4.trans hc) h12
  · exact ⟨⟨by rw [w4]; exact hc.st, by rw [w4, w1]; exact hc.l3, by rw [w4, w1]; exact hc.l2,
      by rw [w4, w3]; exact hc.w3, by rw [w4, w1, w2]; exact hc.still⟩, by rw [w4, w1]; exact hd, by rw [w4, w1]; exact hw⟩

theorem runT_placed (M : RMap) (hr : ∀ r ∈ M.ratios, 0 < r) (hP : M.proj.Ok) (hg : ∀ v ∈ M.grid.data, v ≤ 1)
    (H : M.hl ≠ 0 ∨ ¬ land M.grid (M.pixel .zero)) (ops : List OpT) (sc : SC) (h : ∀ e ∈ sc.els, PlacedT M e) :
    ∃ sc', runT M ops sc = some sc' ∧ ∀ e ∈ sc'.els, PlacedT M e := by
  induction ops generalizing sc with
  | nil => exact ⟨sc, rfl, h⟩
  | cons o os ih =>
    cases o with
    | rel ns =>
      refine ih (release M ns sc) ?_
      intro e he
      unfold release at he
      rcases List.mem_append.1 he with he | he
      · exact h e he
      · obtain ⟨n, _, rfl⟩ := List.mem_map.1 he
        exact placedT_new M hg H n
    | step dry p rs ds loss =>
      obtain ⟨s1, h1, h2⟩ := stepT_spec M hr hP dry p rs ds loss sc h
      obtain ⟨s2, h3, h4⟩ := ih s1 (fun e he => (h2 e he).1)
      exact ⟨s2, by simp only [runT]; rw [h1]; exact h3, h4⟩

theorem runT_append (M : RMap) (l : List OpT) (o : OpT) (s t : SC) (h : runT M l s = some t) :
    runT M (l ++ [o]) s = execT M o t := by
  induction l generalizing s with
  | nil =>
    simp only [runT, Option.some.injEq] at h
    subst h
    simp only [List.nil_append, runT]
    cases execT M o s <;> rfl
  | cons a l ih =>
    simp only [List.cons_append, runT] at h ⊢
    cases he : execT M a s with
    | none => rw [he] at h; simp at h
    | some u => rw [he] at h; exact ih u h

/-- After every step of every run: an element that is not on land is on the
tide flat if and only if its place is dry at the time of the step. -/
theorem C68_dry (M : RMap) (hr : ∀ r ∈ M.ratios, 0 < r) (hP : M.proj.Ok) (hg : ∀ v ∈ M.grid.data, v ≤ 1)
    (H : M.hl ≠ 0 ∨ ¬ land M.grid (M.proj.toPixelInt ⟨0, 0⟩)) (ops : List OpT) (dry : P3 → Bool) (p : ℚ) (rs : List ℚ)
    (ds : List (Nat → P3)) (loss : Nat → ℚ) :
    ∃ sc, runT M (ops ++ [.step dry p rs ds loss]) SC.empty = some sc ∧ ∀ e ∈ sc.els,
      (e.status = 2 ∨ e.status = 3 ∨ e.status = 32) ∧
      (e.status ≠ 3 → (e.status = 32 ↔ dry e.pos = true) ∧ ¬ land M.grid (M.proj.toPixelInt ⟨e.pos.x, e.pos.y⟩)) ∧
      (e.status = 3 → land M.grid (M.proj.toPixelInt ⟨e.pos.x, e.pos.y⟩)) := by
  obtain ⟨sc, h1, h2⟩ := runT_placed M hr hP hg H ops SC.empty (by simp [SC.empty])
  obtain ⟨sc', h3, h4⟩ := stepT_spec M hr hP dry p rs ds loss sc h2
  refine ⟨sc', by rw [runT_append M ops _ _ _ h1, h3], fun e he => ?_⟩
  obtain ⟨a, b, c⟩ := h4 e he
  refine ⟨a.st, fun h3 => ⟨⟨b, fun hd => ?_⟩, a.l2 h3⟩, a.l3⟩
  rcases a.st with h | h | h
  · exact absurd ((c h).symm.trans hd) (by simp)
  · exact absurd h h3
  · exact h

theorem refloat_getElem_ne (hl p : ℚ) (es : List Elem) (rs : List ℚ) (i : Nat) (e : Elem) (h : es[i]? = some e)
    (h3 : e.status ≠ 3) : (refloat hl p es rs)[i]? = some e := by
  induction es generalizing rs i with
  | nil => simp at h
  | cons a es ih =>
    cases i with
    | zero =>
      simp only [List.getElem?_cons_zero, Option.some.injEq] at h
      subst h
      simp only [refloat]
      rw [if_neg (show ¬ a.status = onLand from h3)]
      rfl
    | succ i =>
      simp only [List.getElem?_cons_succ] at h
      simp only [refloat]
      split <;> simp only [List.getElem?_cons_succ] <;> exact ih _ i h

/-- An element on the tide flat stays where it is as long as that is dry, and
when it is flooded it moves in the same step like one that was in water. -/
theorem C68_stays (M : RMap) (hr : ∀ r ∈ M.ratios, 0 < r) (hP : M.proj.Ok) (hg : ∀ v ∈ M.grid.data, v ≤ 1)
    (H : M.hl ≠ 0 ∨ ¬ land M.grid (M.proj.toPixelInt ⟨0, 0⟩)) (ops : List OpT) (sc : SC)
    (hrun : runT M ops SC.empty = some sc) (dry : P3 → Bool) (p : ℚ) (rs : List ℚ) (ds : List (Nat → P3)) (i : Nat)
    (e : Elem) (hi : sc.els[i]? = some e) (h32 : e.status = 32) :
    ∃ sc' e', moveT M dry p rs ds sc = some sc' ∧ sc'.els[i]? = some e' ∧
      (dry e.pos = true → e'.status = 32 ∧ e'.pos = e.pos) ∧
      (dry e.pos = false → ∀ sc1 sc2, sc1.els[i]? = some { e with status := 2 } → moveT M dry p rs ds sc1 = some sc2 →
        sc2.els[i]? = some e') := by
  obtain ⟨sc0, h1, h2⟩ := runT_placed M hr hP hg H ops SC.empty (by simp [SC.empty])
  have : sc0 = sc := by rw [hrun] at h1; exact (Option.some.inj h1).symm
  subst this
  have hp := h2 e (List.mem_of_getElem? hi)
  obtain ⟨s, m1, m2⟩ := moveT_eq M hr dry p rs ds sc0
  obtain ⟨w1, w2, w3, w4⟩ := wetOne_fields dry e
  have hst := hp.still h32
  have hw3 : (wetOne dry e).status ≠ 3 := by rw [w4]; split <;> omega
  have hg1 := refloat_getElem_ne M.hl p (sc0.els.map (wetOne dry)) rs i (wetOne dry e)
    (by rw [List.getElem?_map, hi]; rfl) hw3
  refine ⟨s, finT M dry ds i (wetOne dry e), m1, by rw [m2, List.getElem?_mapIdx, hg1]; rfl, fun hd => ?_, fun hd => ?_⟩
  · have hwe : wetOne dry e = e := by
      unfold wetOne
      rw [if_neg]
      rintro ⟨_, h⟩
      rw [hst.1, hd] at h
      simp at h
    rw [hwe]
    obtain ⟨f1, f2, f3, f4⟩ := finT_fields M dry ds i e
    obtain ⟨g1, g2, g3⟩ := fin_flat M hr ds i e h32 hp
    rw [g3, if_neg (by omega)] at f4
    exact ⟨f4, f1.trans g1⟩
  · intro sc1 sc2 hs1 hm
    obtain ⟨s', n1, n2⟩ := moveT_eq M hr dry p rs ds sc1
    rw [hm] at n1
    have : sc2 = s' := Option.some.inj n1
    subst this
    have hwe : wetOne dry e = { e with status := 2 } := by
      unfold wetOne
      rw [if_pos (show e.status = onTideflat ∧ dry e.nxt = false from ⟨h32, by rw [hst.1]; exact hd⟩)]
      rfl
    have hwe2 : wetOne dry { e with status := 2 } = { e with status := 2 } := by
      unfold wetOne
      rw [if_neg]
      rintro ⟨h, _⟩
      exact absurd h (show ¬ (2 : Nat) = 32 by decide)
    have hg2 := refloat_getElem_ne M.hl p (sc1.els.map (wetOne dry)) rs i { e with status := 2 }
      (by rw [List.getElem?_map, hs1, Option.map_some, hwe2]) (show ¬ (2 : Nat) = 3 by decide)
    rw [n2, List.getElem?_mapIdx, hg2, hwe]
    rfl

/-- Runs onto the flat, stays while it is dry, is moved when flooded. -/
example : see (runT (demoMap 1) [.rel [⟨⟨1/4, 3/4, 0⟩, 10, 2, false⟩],
      .step (simpleDry [⟨-1, -1⟩, ⟨-1, 1⟩, ⟨1, 1⟩, ⟨1, -1⟩] 10 20 15) (1/2) [] [fun _ => ⟨1/8, 0, 0⟩] (fun _ => 0)] SC.empty) =
    some [(3/8, 3/4, 0, 32)] := by decide +kernel
example : see (runT (demoMap 1) [.rel [⟨⟨1/4, 3/4, 0⟩, 10, 2, false⟩],
      .step (simpleDry [⟨-1, -1⟩, ⟨-1, 1⟩, ⟨1, 1⟩, ⟨1, -1⟩] 10 20 15) (1/2) [] [fun _ => ⟨1/8, 0, 0⟩] (fun _ => 0),
      .step (simpleDry [⟨-1, -1⟩, ⟨-1, 1⟩, ⟨1, 1⟩, ⟨1, -1⟩] 10 20 20) (1/2) [] [fun _ => ⟨1/8, 0, 0⟩] (fun _ => 0),
      .step (simpleDry [⟨-1, -1⟩, ⟨-1, 1⟩, ⟨1, 1⟩, ⟨1, -1⟩] 10 20 25) (1/2) [] [fun _ => ⟨1/8, 0, 0⟩] (fun _ => 0)] SC.empty) =
    some [(1/2, 3/4, 0, 2)] := by decide +kernel

end Verif.MapStep
