import Verif.Shio.FloodModel
import Verif.Shio.PeaksProps

/-!
# C357: slack water, floods and ebbs of a tidal current station are those of its curve
-/

namespace Verif.Shio.Flood
open Verif.Shio (sampleTime mono_steps)

/-! ## What is to be found -/

inductive Kind where
  | high | low | toFlood | toEbb
  deriving DecidableEq, Repr

/-- An event that there should be: its kind, its label and the sample after which it is found. -/
structure Want where
  kind : Kind
  label : Nat
  i : Nat
  deriving DecidableEq, Repr

/-- The current at sample `i`. -/
def samp (c : Int → ℚ) (b : Int) (i : Nat) : ℚ := c (sampleTime b i)

/-- A turning point at sample `i`, told by the sample after it: strongest flood (1) when the water flows in, strongest ebb (3) when it
flows out. -/
def wantTurn (c : Int → ℚ) (b : Int) (i : Nat) : List Want :=
  if i < 2 then []
  else if samp c b (i - 2) < samp c b (i - 1) ∧ samp c b i < samp c b (i - 1) then [⟨.high, if 0 < samp c b (i - 1) then 1 else 3, i⟩]
  else if samp c b (i - 1) < samp c b (i - 2) ∧ samp c b (i - 1) < samp c b i then [⟨.low, if 0 < samp c b (i - 1) then 1 else 3, i⟩]
  else []

/-- Slack water between two samples. -/
def wantSlack (c : Int → ℚ) (b : Int) (i : Nat) : List Want :=
  if i < 1 then []
  else if samp c b (i - 1) < 0 ∧ 0 < samp c b i then [⟨.toFlood, 0, i⟩]
  else if 0 < samp c b (i - 1) ∧ samp c b i < 0 then [⟨.toEbb, 2, i⟩]
  else []

/-- All events of the first `n` samples, in order. -/
def want (c : Int → ℚ) (b : Int) : Nat → List Want
  | 0 => []
  | n + 1 => want c b n ++ (wantTurn c b n ++ wantSlack c b n)

/-- An event is as it should be: its label, its time in the twenty minutes before the sample, and what the current does at that minute. -/
structure Meets (c : Int → ℚ) (b : Int) (e : Event) (w : Want) : Prop where
  label : e.label = w.label
  after : sampleTime b (w.i - 2) ≤ e.time
  before : e.time < sampleTime b w.i
  curve : match w.kind with
    | .high => e.value = c e.time ∧ c (e.time + 1) ≤ c e.time ∧ ∀ s, sampleTime b (w.i - 2) ≤ s → s < e.time → c s < c (s + 1)
    | .low => e.value = c e.time ∧ c e.time ≤ c (e.time + 1) ∧ ∀ s, sampleTime b (w.i - 2) ≤ s → s < e.time → c (s + 1) < c s
    | .toFlood => e.value = 0 ∧ c e.time < 0 ∧ 0 < c (e.time + 1)
    | .toEbb => e.value = 0 ∧ 0 < c e.time ∧ c (e.time + 1) < 0

/-- The claim: the events that are reported are those of the curve, as many as there is room for. -/
def C357_claim : Prop :=
  ∀ (c rot : Int → ℚ) (b : Int) (maxPeaks n : Nat), ∃ st, scan c rot maxPeaks b n = some st ∧
    List.Forall₂ (Meets c b) st.evs ((want c b n).take (maxPeaks - 1))

/-! ## The search by minutes -/

theorem findLoop_some (c : Int → ℚ) (kind : Nat) (t0 t : Int) (n : Nat) (hf : findLoop c kind t0 n = some t) :
    t0 ≤ t ∧ t < t0 + n ∧ hit kind (c t) (c (t + 1)) = true ∧ ∀ s, t0 ≤ s → s < t → hit kind (c s) (c (s + 1)) = false := by
  induction n generalizing t0 with
  | zero => simp [findLoop] at hf
  | succ n ih =>
    simp only [findLoop] at hf
    split at hf
    · rename_i hh
      cases hf
      exact ⟨le_refl _, by push_cast; omega, hh, fun s h1 h2 => by omega⟩
    · rename_i hh
      obtain ⟨h1, h2, h3, h4⟩ := ih (t0 + 1) hf
      refine ⟨by omega, by push_cast; omega, h3, fun s hs1 hs2 => ?_⟩
      by_cases hs : s = t0
      · rw [hs]; simpa using hh
      · exact h4 s (by omega) hs2

theorem findLoop_none (c : Int → ℚ) (kind : Nat) (t0 : Int) (n : Nat) (hf : findLoop c kind t0 n = none) :
    ∀ s, t0 ≤ s → s < t0 + n → hit kind (c s) (c (s + 1)) = false := by
  induction n generalizing t0 with
  | zero => intro s h1 h2; simp at h2; omega
  | succ n ih =>
    simp only [findLoop] at hf
    split at hf
    · cases hf
    · rename_i hh
      intro s h1 h2
      by_cases hs : s = t0
      · rw [hs]; simpa using hh
      · exact ih (t0 + 1) hf s (by omega) (by push_cast at h2; omega)

/-- When there is something to be found, it is found. -/
theorem find_spec (c : Int → ℚ) (kind : Nat) (t0 t2 : Int) (h : 4 ≤ t2 - t0) (s : Int) (h1 : t0 ≤ s) (h2 : s < t2)
    (hs : hit kind (c s) (c (s + 1)) = true) : ∃ t, find c t0 t2 kind = (c t, t) ∧ t0 ≤ t ∧ t < t2 ∧ hit kind (c t) (c (t + 1)) = true ∧
      ∀ s, t0 ≤ s → s < t → hit kind (c s) (c (s + 1)) = false := by
  unfold find
  simp only
  rw [if_neg (by omega)]
  cases hf : findLoop c kind t0 (t2 - t0).toNat with
  | none =>
    have := findLoop_none c kind t0 _ hf s h1 (by omega)
    rw [hs] at this; cases this
  | some t =>
    obtain ⟨e1, e2, e3, e4⟩ := findLoop_some c kind t0 t _ hf
    exact ⟨t, rfl, e1, by omega, e3, e4⟩

theorem hit_flood (x y : ℚ) : hit maxFlood x y = decide (y ≤ x) := rfl
theorem hit_ebb (x y : ℚ) : hit maxEbb x y = decide (y ≥ x) := rfl
theorem hit_toEbb (x y : ℚ) : hit minBeforeEbb x y = (decide (x > 0) && decide (y < 0)) := rfl
theorem hit_toFlood (x y : ℚ) : hit minBeforeFlood x y = (decide (x < 0) && decide (y > 0)) := rfl

/-- A curve that does not have the value 0 goes from below to above between two minutes. -/
theorem crossing (c : Int → ℚ) (a : Int) (n : Nat) (h0 : c a < 0) (h1 : 0 < c (a + n)) (hz : ∀ s, a ≤ s → s ≤ a + n → c s ≠ 0) :
    ∃ s, a ≤ s ∧ s < a + n ∧ c s < 0 ∧ 0 < c (s + 1) := by
  induction n with
  | zero => simp at h1; linarith
  | succ n ih =>
    have e : a + ((n + 1 : Nat) : Int) = a + n + 1 := by push_cast; ring
    rcases lt_or_gt_of_ne (hz (a + n) (by omega) (by push_cast; omega)) with h | h
    · exact ⟨a + n, by omega, by push_cast; omega, h, by rw [← e]; exact h1⟩
    · obtain ⟨s, a1, a2, a3, a4⟩ := ih h (fun s h1 h2 => hz s h1 (by push_cast; omega))
      exact ⟨s, a1, by push_cast; omega, a3, a4⟩

/-- A curve that comes down stops rising somewhere. -/
theorem stops (c : Int → ℚ) (a : Int) (n : Nat) (h : c (a + n) < c a) : ∃ s, a ≤ s ∧ s < a + n ∧ c (s + 1) ≤ c s := by
  by_contra hh
  push Not at hh
  have := mono_steps c a n (fun s h1 h2 => (hh s h1 h2).le)
  linarith

/-! ## The loop -/

/-- No two successive samples are equal, and none is zero; the current is not exactly zero at a minute. -/
structure Plain (c : Int → ℚ) (b : Int) (n : Nat) : Prop where
  flat : ∀ i, i + 1 < n → samp c b i ≠ samp c b (i + 1)
  zero : ∀ s, b ≤ s → s ≤ sampleTime b (n - 1) → c s ≠ 0

/-- The first event is one of its kind: a turning point before any slack water is a strongest flood of water that flows in or a strongest
ebb of water that flows out. -/
def Begins (l : List Want) : Prop := ∀ w, l.head? = some w → (w.kind = .high → w.label = 1) ∧ (w.kind = .low → w.label = 3)

theorem Begins.mono {l r : List Want} (h : Begins (l ++ r)) : Begins l := by
  intro w hw
  cases l with
  | nil => cases hw
  | cons a l => exact h w hw

/-- What the last label says about the current and its slope at sample `i`. -/
def LastOk (c : Int → ℚ) (b : Int) (i : Nat) (l : List Want) : Prop :=
  match l.getLast? with
  | none => True
  | some w =>
    (w.label = 0 ∧ 0 < samp c b i ∧ samp c b (i - 1) < samp c b i) ∨ (w.label = 2 ∧ samp c b i < 0 ∧ samp c b i < samp c b (i - 1)) ∨
    (w.label = 1 ∧ 0 < samp c b i) ∨ (w.label = 3 ∧ samp c b i < 0)

/-- The variables after the first `i + 1` steps. -/
structure Vars (c : Int → ℚ) (b : Int) (i : Nat) (st : Scan) : Prop where
  old : st.old = samp c b i
  s2 : 1 ≤ i → st.s2 = samp c b i - samp c b (i - 1)
  s1 : i = 1 → st.s1 = st.s2
  t0 : i ≤ 1 → st.t0 = b
  t0' : 2 ≤ i → st.t0 = sampleTime b (i - 2)
  t1 : 1 ≤ i → st.t1 = sampleTime b (if i = 1 then 1 else i - 1)
  t2 : 1 ≤ i → st.t2 = sampleTime b i

theorem push_meets {c : Int → ℚ} {b : Int} {m : Nat} {l : List Event} {ws : List Want} {e : Event} {w : Want}
    (h : List.Forall₂ (Meets c b) l (ws.take (m - 1))) (hm : l.length + 1 < m → Meets c b e w) :
    List.Forall₂ (Meets c b) (push m l e) ((ws ++ [w]).take (m - 1)) := by
  have hl := h.length_eq
  rw [List.length_take] at hl
  unfold push
  split
  · rename_i hlt
    have hw : ws.length ≤ m - 1 := by omega
    have hw' : (ws ++ [w]).length ≤ m - 1 := by simp; omega
    rw [List.take_of_length_le hw] at h
    rw [List.take_of_length_le hw']
    exact List.rel_append h (.cons (hm hlt) .nil)
  · rename_i hge
    have hw : m - 1 ≤ ws.length := by omega
    rw [List.take_append_of_le_length hw]
    exact h

theorem label_ok {c : Int → ℚ} {b : Int} {m : Nat} {l : List Event} {ws : List Want} {kind sl : Nat} (h : List.Forall₂ (Meets c b) l (ws.take (m - 1)))
    (hr : l.length + 1 < m) : labelOf kind sl l = match ws.getLast? with
      | none => kind
      | some w => if w.label = sl then kind else w.label := by
  have hl := h.length_eq
  rw [List.length_take] at hl
  rw [List.take_of_length_le (by omega)] at h
  unfold labelOf
  rcases List.eq_nil_or_concat l with rfl | ⟨l', e, rfl⟩
  · cases h; rfl
  · rcases List.eq_nil_or_concat ws with rfl | ⟨ws', w, rfl⟩
    · exact absurd h.length_eq (by simp)
    · simp only [List.concat_eq_append] at h ⊢
      have hlen : l'.length = ws'.length := by have := h.length_eq; simpa using this
      have hd := List.forall₂_drop l'.length h
      rw [List.drop_left, hlen, List.drop_left] at hd
      simp only [List.getLast?_append, List.getLast?_singleton, Option.some_or]
      cases hd with
      | cons hm _ => rw [hm.label]

/-- Slopes and times of a step, as values of the samples. -/
theorem slopes_vars {c : Int → ℚ} {b : Int} {n : Nat} {st : Scan} (h : Vars c b n st) :
    let st' := slopes c (n + 1) (sampleTime b (n + 1)) st
    st'.old = samp c b n ∧ st'.evs = st.evs ∧ st'.s2 = samp c b (n + 1) - samp c b n ∧ st'.t0 = sampleTime b (n + 1 - 2) ∧
      st'.s1 = (if n = 0 then st'.s2 else samp c b n - samp c b (n - 1)) ∧ st'.t1 = sampleTime b (if n = 0 then 1 else n) ∧
      st'.t2 = sampleTime b (n + 1) := by
  simp only [slopes]
  by_cases h0 : n = 0
  · subst h0
    simp only [zero_add, if_true, h.old, samp]
    exact ⟨trivial, trivial, trivial, by rw [h.t0 (by omega)]; simp [sampleTime], trivial, trivial, trivial⟩
  · rw [if_neg (by omega)]
    by_cases h1 : n = 1
    · subst h1
      simp only [Nat.reduceAdd, if_true, h.old]
      refine ⟨trivial, trivial, rfl, ?_, ?_, ?_, trivial⟩
      · rw [h.t0 (by omega)]; simp [sampleTime]
      · rw [h.s1 rfl, h.s2 (le_refl _)]; simp
      · rw [h.t1 (le_refl _)]; simp
    · rw [if_neg (by omega)]
      refine ⟨h.old, rfl, by rw [h.old]; rfl, ?_, ?_, ?_, rfl⟩
      · simp only
        rw [h.t1 (by omega), if_neg h1]; congr 1
      · simp only
        rw [h.s2 (by omega), if_neg h0]
      · simp only
        rw [h.t2 (by omega), if_neg h0]

theorem vars_next {c : Int → ℚ} {b : Int} {n : Nat} {st : Scan} (h : Vars c b n st) (l : List Event) :
    Vars c b (n + 1) { slopes c (n + 1) (sampleTime b (n + 1)) st with evs := l, old := c (sampleTime b (n + 1)) } := by
  obtain ⟨_, _, e3, e4, e5, e6, e7⟩ := slopes_vars h
  refine ⟨rfl, fun _ => e3, fun hn => ?_, fun hn => ?_, fun _ => e4, fun _ => ?_, fun _ => e7⟩
  · have : n = 0 := by omega
    subst this
    simpa using e5
  · have : n = 0 := by omega
    subst this
    have := e4
    simp only [sampleTime] at this ⊢
    rw [this]; simp
  · simp only
    rw [e6]
    congr 1
    by_cases h0 : n = 0 <;> simp [h0]

/-- Turning points of a step. -/
theorem turning_ok {c rot : Int → ℚ} {b : Int} {m n : Nat} {st : Scan} {ws : List Want} (hv : Vars c b n st) (hp : Plain c b (n + 2))
    (hb : Begins (ws ++ wantTurn c b (n + 1))) (hm : List.Forall₂ (Meets c b) st.evs (ws.take (m - 1))) (hl : LastOk c b n ws) :
    ∃ l, turning c rot m (sampleTime b (n + 1)) (slopes c (n + 1) (sampleTime b (n + 1)) st) = some l ∧
      List.Forall₂ (Meets c b) l ((ws ++ wantTurn c b (n + 1)).take (m - 1)) := by
  obtain ⟨_, e2, e3, e4, e5, _, _⟩ := slopes_vars hv
  have f1 := hp.flat n (by omega)
  have f1' : samp c b (n + 1) - samp c b n ≠ 0 := fun h => f1 (by linarith)
  unfold turning
  simp only
  rw [e2, e3, e4]
  by_cases h0 : n = 0
  · subst h0
    rw [if_pos rfl, e3] at e5
    rw [e5, if_neg f1', if_neg f1', if_neg (by rintro ⟨a, b⟩; linarith), if_neg (by rintro ⟨a, b⟩; linarith)]
    refine ⟨_, rfl, ?_⟩
    have : wantTurn c b (0 + 1) = [] := by simp [wantTurn]
    rw [this, List.append_nil]
    exact hm
  · rw [if_neg h0] at e5
    have f0 : samp c b (n - 1) ≠ samp c b n := by
      have := hp.flat (n - 1) (by omega)
      rwa [Nat.sub_add_cancel (by omega)] at this
    have f0' : samp c b n - samp c b (n - 1) ≠ 0 := fun h => f0 (by linarith)
    have zn : samp c b n ≠ 0 := hp.zero _ (by simp [sampleTime]) (by simp only [sampleTime]; push_cast; omega)
    have et : wantTurn c b (n + 1) = if samp c b (n - 1) < samp c b n ∧ samp c b (n + 1) < samp c b n then
          [⟨.high, if 0 < samp c b n then 1 else 3, n + 1⟩]
        else if samp c b n < samp c b (n - 1) ∧ samp c b n < samp c b (n + 1) then [⟨.low, if 0 < samp c b n then 1 else 3, n + 1⟩]
        else [] := by
      have a1 : n + 1 - 2 = n - 1 := by omega
      simp only [wantTurn, if_neg (show ¬ n + 1 < 2 by omega), Nat.add_sub_cancel, a1]
    have hw : sampleTime b (n + 1) = sampleTime b n + (10 : Nat) := by simp only [sampleTime]; push_cast; ring
    have hw0 : sampleTime b (n + 1 - 2) = sampleTime b n - 10 := by
      have a1 : ((n + 1 - 2 : Nat) : Int) = n - 1 := by omega
      simp only [sampleTime, a1]; ring
    rw [e5, if_neg f0', if_neg f1']
    by_cases hlow : samp c b n < samp c b (n - 1) ∧ samp c b n < samp c b (n + 1)
    · have hno : ¬ (samp c b (n - 1) < samp c b n ∧ samp c b (n + 1) < samp c b n) := by rintro ⟨a, _⟩; linarith [hlow.1]
      rw [if_neg hno, if_pos hlow] at et
      rw [et] at hb ⊢
      rw [if_pos ⟨by linarith [hlow.1], by linarith [hlow.2]⟩]
      refine ⟨_, rfl, push_meets hm fun hr => ?_⟩
      obtain ⟨s, a1, a2, a3⟩ := stops (fun t => -c t) (sampleTime b n) 10 (by rw [← hw]; have := hlow.2; simp only [samp] at this; linarith)
      obtain ⟨t, b1, b2, b3, b4, b5⟩ := find_spec c maxEbb (sampleTime b (n + 1 - 2)) (sampleTime b (n + 1)) (by rw [hw0, hw]; push_cast; omega) s
        (by rw [hw0]; omega) (by rw [hw]; exact a2) (by rw [hit_ebb]; simpa using a3)
      rw [b1]
      refine ⟨?_, b2, b3, rfl, by rw [hit_ebb] at b4; simpa using b4, fun s h1 h2 => by have := b5 s h1 h2; rw [hit_ebb] at this; simpa using this⟩
      simp only
      rw [label_ok hm hr]
      unfold LastOk at hl
      cases hg : ws.getLast? with
      | none =>
        rw [List.getLast?_eq_none_iff] at hg
        subst hg
        exact ((hb _ rfl).2 rfl).symm
      | some w =>
        rw [hg] at hl
        simp only at hl ⊢
        rcases hl with ⟨d1, d2, d3⟩ | ⟨d1, d2, d3⟩ | ⟨d1, d2⟩ | ⟨d1, d2⟩
        · linarith [hlow.1]
        · rw [d1, if_pos (show (2 : Nat) = minBeforeEbb from rfl), if_neg (by linarith)]; rfl
        · rw [d1, if_neg (by decide), if_pos d2]
        · rw [d1, if_neg (by decide), if_neg (by linarith)]
    · by_cases hhigh : samp c b (n - 1) < samp c b n ∧ samp c b (n + 1) < samp c b n
      · rw [if_pos hhigh] at et
        rw [et] at hb ⊢
        rw [if_neg (by rintro ⟨a, _⟩; linarith [hhigh.1]), if_pos ⟨by linarith [hhigh.1], by linarith [hhigh.2]⟩]
        refine ⟨_, rfl, push_meets hm fun hr => ?_⟩
        obtain ⟨s, a1, a2, a3⟩ := stops c (sampleTime b n) 10 (by rw [← hw]; exact hhigh.2)
        obtain ⟨t, b1, b2, b3, b4, b5⟩ := find_spec c maxFlood (sampleTime b (n + 1 - 2)) (sampleTime b (n + 1)) (by rw [hw0, hw]; push_cast; omega) s
          (by rw [hw0]; omega) (by rw [hw]; exact a2) (by rw [hit_flood]; simpa using a3)
        rw [b1]
        refine ⟨?_, b2, b3, rfl, by rw [hit_flood] at b4; simpa using b4, fun s h1 h2 => by have := b5 s h1 h2; rw [hit_flood] at this; simpa using this⟩
        simp only
        rw [label_ok hm hr]
        unfold LastOk at hl
        cases hg : ws.getLast? with
        | none =>
          rw [List.getLast?_eq_none_iff] at hg
          subst hg
          exact ((hb _ rfl).1 rfl).symm
        | some w =>
          rw [hg] at hl
          simp only at hl ⊢
          rcases hl with ⟨d1, d2, d3⟩ | ⟨d1, d2, d3⟩ | ⟨d1, d2⟩ | ⟨d1, d2⟩
          · rw [d1, if_pos (show (0 : Nat) = minBeforeFlood from rfl), if_pos d2]; rfl
          · linarith [hhigh.1]
          · rw [d1, if_neg (by decide), if_pos d2]
          · rw [d1, if_neg (by decide), if_neg (by linarith)]
      · rw [if_neg hhigh, if_neg hlow] at et
        rw [et, List.append_nil]
        rw [if_neg (fun h => hlow ⟨by linarith [h.1], by linarith [h.2]⟩), if_neg (fun h => hhigh ⟨by linarith [h.1], by linarith [h.2]⟩)]
        exact ⟨_, rfl, hm⟩

/-- Slack water of a step. -/
theorem slack_ok {c : Int → ℚ} {b : Int} {m n : Nat} {st : Scan} {ws : List Want} {l : List Event} (hv : Vars c b n st) (hp : Plain c b (n + 2))
    (hm : List.Forall₂ (Meets c b) l (ws.take (m - 1))) :
    List.Forall₂ (Meets c b) (slack c m (sampleTime b (n + 1)) (slopes c (n + 1) (sampleTime b (n + 1)) st) l)
      ((ws ++ wantSlack c b (n + 1)).take (m - 1)) := by
  obtain ⟨e1, _, _, e4, _, _, _⟩ := slopes_vars hv
  have zn : samp c b n ≠ 0 := hp.zero _ (by simp [sampleTime]) (by simp only [sampleTime]; push_cast; omega)
  have hw : sampleTime b (n + 1) = sampleTime b n + (10 : Nat) := by simp only [sampleTime]; push_cast; ring
  have hw0 : sampleTime b (n + 1 - 2) ≤ sampleTime b n := by
    simp only [sampleTime]; omega
  have hz : ∀ s, sampleTime b n ≤ s → s ≤ sampleTime b n + (10 : Nat) → c s ≠ 0 := by
    intro s h1 h2
    refine hp.zero s ?_ (by rw [← hw] at h2; exact h2)
    simp only [sampleTime] at h1; omega
  have ec : c (sampleTime b (n + 1)) = samp c b (n + 1) := rfl
  unfold slack wantSlack
  rw [e1, e4, ec, if_neg (show ¬ n + 1 < 1 by omega), Nat.add_sub_cancel, if_neg zn]
  by_cases h1 : samp c b n < 0 ∧ 0 < samp c b (n + 1)
  · rw [if_pos ⟨h1.2, h1.1⟩, if_pos h1]
    refine push_meets hm fun _ => ?_
    obtain ⟨s, a1, a2, a3, a4⟩ := crossing c (sampleTime b n) 10 h1.1 (by rw [← hw]; exact h1.2) hz
    obtain ⟨t, b1, b2, b3, b4, b5⟩ := find_spec c minBeforeFlood (sampleTime b (n + 1 - 2)) (sampleTime b (n + 1)) (by rw [hw]; omega) s
      (by omega) (by rw [hw]; exact a2) (by rw [hit_toFlood]; simp [a3, a4])
    rw [b1]
    rw [hit_toFlood] at b4
    simp at b4
    exact ⟨rfl, b2, b3, rfl, b4.1, b4.2⟩
  · rw [if_neg (fun h => h1 ⟨h.2, h.1⟩), if_neg h1]
    by_cases h2 : 0 < samp c b n ∧ samp c b (n + 1) < 0
    · rw [if_pos ⟨h2.2, h2.1⟩, if_pos h2]
      refine push_meets hm fun _ => ?_
      obtain ⟨s, a1, a2, a3, a4⟩ := crossing (fun t => -c t) (sampleTime b n) 10 (by have := h2.1; simp only [samp] at this; linarith)
        (by rw [← hw]; have := h2.2; simp only [samp] at this; linarith) (fun s h1 h2 => neg_ne_zero.2 (hz s h1 h2))
      obtain ⟨t, b1, b2, b3, b4, b5⟩ := find_spec c minBeforeEbb (sampleTime b (n + 1 - 2)) (sampleTime b (n + 1)) (by rw [hw]; omega) s
        (by omega) (by rw [hw]; exact a2) (by rw [hit_toEbb]; simp at a3 a4; simp [a3, a4])
      rw [b1]
      rw [hit_toEbb] at b4
      simp at b4
      exact ⟨rfl, b2, b3, rfl, b4.1, b4.2⟩
    · rw [if_neg (fun h => h2 ⟨h.2, h.1⟩), if_neg h2, List.append_nil]
      exact hm

/-- The last label after a step. -/
theorem last_ok {c : Int → ℚ} {b : Int} {n : Nat} {ws : List Want} (hp : Plain c b (n + 2)) (h0 : n = 0 → ws = []) (hl : LastOk c b n ws) :
    LastOk c b (n + 1) (ws ++ (wantTurn c b (n + 1) ++ wantSlack c b (n + 1))) := by
  have zn : samp c b n ≠ 0 := hp.zero _ (by simp [sampleTime]) (by simp only [sampleTime]; push_cast; omega)
  have zn1 : samp c b (n + 1) ≠ 0 := hp.zero _ (by simp [sampleTime]; omega) (by simp only [sampleTime]; push_cast; omega)
  have f1 := hp.flat n (by omega)
  have es : wantSlack c b (n + 1) = if samp c b n < 0 ∧ 0 < samp c b (n + 1) then [⟨.toFlood, 0, n + 1⟩]
      else if 0 < samp c b n ∧ samp c b (n + 1) < 0 then [⟨.toEbb, 2, n + 1⟩] else [] := by
    simp only [wantSlack, if_neg (show ¬ n + 1 < 1 by omega), Nat.add_sub_cancel]
  rw [es]
  unfold LastOk
  by_cases h1 : samp c b n < 0 ∧ 0 < samp c b (n + 1)
  · rw [if_pos h1]
    simp only [List.getLast?_append, List.getLast?_singleton, Option.some_or, Nat.add_sub_cancel]
    exact .inl ⟨trivial, h1.2, by linarith [h1.1, h1.2]⟩
  · rw [if_neg h1]
    by_cases h2 : 0 < samp c b n ∧ samp c b (n + 1) < 0
    · rw [if_pos h2]
      simp only [List.getLast?_append, List.getLast?_singleton, Option.some_or, Nat.add_sub_cancel]
      exact .inr (.inl ⟨trivial, h2.2, by linarith [h2.1, h2.2]⟩)
    · rw [if_neg h2, List.append_nil]
      have hpos : 0 < samp c b n → 0 < samp c b (n + 1) := fun h => (lt_or_gt_of_ne zn1).resolve_left fun h' => h2 ⟨h, h'⟩
      have hneg : samp c b n < 0 → samp c b (n + 1) < 0 := fun h => (lt_or_gt_of_ne zn1).resolve_right fun h' => h1 ⟨h, h'⟩
      by_cases hn : n = 0
      · subst hn
        rw [h0 rfl]
        simp [wantTurn]
      · have et : wantTurn c b (n + 1) = if samp c b (n - 1) < samp c b n ∧ samp c b (n + 1) < samp c b n then
              [⟨.high, if 0 < samp c b n then 1 else 3, n + 1⟩]
            else if samp c b n < samp c b (n - 1) ∧ samp c b n < samp c b (n + 1) then [⟨.low, if 0 < samp c b n then 1 else 3, n + 1⟩]
            else [] := by
          have a1 : n + 1 - 2 = n - 1 := by omega
          simp only [wantTurn, if_neg (show ¬ n + 1 < 2 by omega), Nat.add_sub_cancel, a1]
        rw [et]
        have lab : ∀ k : Kind, ∀ w : Want, w = ⟨k, if 0 < samp c b n then 1 else 3, n + 1⟩ →
            (w.label = 1 ∧ 0 < samp c b (n + 1)) ∨ (w.label = 3 ∧ samp c b (n + 1) < 0) := by
          rintro k w rfl
          by_cases hs : 0 < samp c b n
          · exact .inl ⟨by simp [hs], hpos hs⟩
          · exact .inr ⟨by simp [hs], hneg ((lt_or_gt_of_ne zn).resolve_right hs)⟩
        by_cases hhigh : samp c b (n - 1) < samp c b n ∧ samp c b (n + 1) < samp c b n
        · rw [if_pos hhigh]
          simp only [List.getLast?_append, List.getLast?_singleton, Option.some_or]
          exact .inr (.inr (lab .high _ rfl))
        · rw [if_neg hhigh]
          by_cases hlow : samp c b n < samp c b (n - 1) ∧ samp c b n < samp c b (n + 1)
          · rw [if_pos hlow]
            simp only [List.getLast?_append, List.getLast?_singleton, Option.some_or]
            exact .inr (.inr (lab .low _ rfl))
          · rw [if_neg hlow, List.append_nil]
            unfold LastOk at hl
            cases hg : ws.getLast? with
            | none => trivial
            | some w =>
              rw [hg] at hl
              simp only [Nat.add_sub_cancel] at hl ⊢
              rcases hl with ⟨d1, d2, d3⟩ | ⟨d1, d2, d3⟩ | ⟨d1, d2⟩ | ⟨d1, d2⟩
              · exact .inl ⟨d1, hpos d2, (lt_or_gt_of_ne f1).resolve_right fun h => hhigh ⟨d3, h⟩⟩
              · exact .inr (.inl ⟨d1, hneg d2, (lt_or_gt_of_ne f1).resolve_left fun h => hlow ⟨d3, h⟩⟩)
              · exact .inr (.inr (.inl ⟨d1, hpos d2⟩))
              · exact .inr (.inr (.inr ⟨d1, hneg d2⟩))

theorem scan_ok (c rot : Int → ℚ) (b : Int) (m n : Nat) (hp : Plain c b (n + 1)) (hb : Begins (want c b (n + 1))) :
    ∃ st, scan c rot m b (n + 1) = some st ∧ Vars c b n st ∧ List.Forall₂ (Meets c b) st.evs ((want c b (n + 1)).take (m - 1)) ∧
      LastOk c b n (want c b (n + 1)) := by
  induction n with
  | zero =>
    refine ⟨{ scan0 b with old := c (sampleTime b 0) }, rfl, ?_, ?_, ?_⟩
    · exact ⟨rfl, by omega, by omega, fun _ => rfl, by omega, by omega, by omega⟩
    · simp [want, wantTurn, wantSlack, scan0]
    · simp [want, wantTurn, wantSlack, LastOk]
  | succ n ih =>
    have hp' : Plain c b (n + 1) := ⟨fun i hi => hp.flat i (by omega), fun s h1 h2 => hp.zero s h1 (by
      simp only [sampleTime, Nat.add_sub_cancel] at h2 ⊢; push_cast; omega)⟩
    have e : want c b (n + 1 + 1) = want c b (n + 1) ++ (wantTurn c b (n + 1) ++ wantSlack c b (n + 1)) := rfl
    rw [e] at hb
    obtain ⟨st, i1, i2, i3, i4⟩ := ih hp' hb.mono
    obtain ⟨l, t1, t2⟩ := turning_ok (rot := rot) i2 hp (by rw [← List.append_assoc] at hb; exact hb.mono) i3 i4
    refine ⟨_, ?_, vars_next i2 (slack c m (sampleTime b (n + 1)) (slopes c (n + 1) (sampleTime b (n + 1)) st) l), ?_, ?_⟩
    · rw [scan, i1, Option.bind_some, step, if_neg (by omega)]
      simp only [t1]
    · rw [e, ← List.append_assoc]
      exact slack_ok i2 hp t2
    · rw [e]
      exact last_ok hp (by rintro rfl; simp [want, wantTurn, wantSlack]) i4

/-- **C357 (partial)** for a station whose current is never exactly zero at a minute and never the same at two successive samples, and whose
first event is a flood of water flowing in, an ebb of water flowing out or slack water: the events that are reported are, in order and as
many as there is room for, the turning points and the changes of sign of the samples; each has the label of the direction of the water, and
its time is a minute at which the current stops rising or falling or changes its sign. -/
theorem C357_partial (c rot : Int → ℚ) (b : Int) (m n : Nat) (hp : Plain c b n) (hb : Begins (want c b n)) :
    ∃ st, scan c rot m b n = some st ∧ List.Forall₂ (Meets c b) st.evs ((want c b n).take (m - 1)) := by
  cases n with
  | zero => exact ⟨scan0 b, rfl, by simp [want, scan0]⟩
  | succ n =>
    obtain ⟨st, h1, _, h3, _⟩ := scan_ok c rot b m n hp hb
    exact ⟨st, h1, h3⟩

/-- **C357** all events are reported when there is room for them. -/
theorem C357_all (c rot : Int → ℚ) (b : Int) (m n : Nat) (hp : Plain c b n) (hb : Begins (want c b n)) (hm : (want c b n).length < m) :
    ∃ st, scan c rot m b n = some st ∧ st.evs.map (·.label) = (want c b n).map (·.label) := by
  obtain ⟨st, h1, h2⟩ := C357_partial c rot b m n hp hb
  rw [List.take_of_length_le (by omega)] at h2
  refine ⟨st, h1, ?_⟩
  have : ∀ (l : List Event) (w : List Want), List.Forall₂ (Meets c b) l w → l.map (·.label) = w.map (·.label) := by
    intro l w h
    induction h with
    | nil => rfl
    | cons h _ ih => simp [h.label, ih]
  exact this _ _ h2

/-- A current for the cases below, by minutes: it rises for 23 minutes, falls for an hour and rises again. -/
def wave (a : ℚ) (t : Int) : ℚ := if t ≤ 23 then a + t else if t ≤ 83 then a + 46 - t else a - 120 + t

/-- The case of `C357_partial`: a curve that floods from the beginning, turns, ebbs and turns again. -/
example : (scan (wave (1 / 2)) (fun _ => 0) 20 0 13).map (·.evs) =
    some [⟨23, 1, 47 / 2⟩, ⟨46, 2, 0⟩, ⟨83, 3, -73 / 2⟩, ⟨119, 0, 0⟩] := by decide +kernel

example : want (wave (1 / 2)) 0 13 = [⟨.high, 1, 3⟩, ⟨.toEbb, 2, 5⟩, ⟨.low, 3, 9⟩, ⟨.toFlood, 0, 12⟩] := by decide +kernel

/-- With room for two events only the first two are kept. -/
example : (scan (wave (1 / 2)) (fun _ => 0) 3 0 13).map (·.evs) = some [⟨23, 1, 47 / 2⟩, ⟨46, 2, 0⟩] := by decide +kernel

theorem wave_ne (a : ℚ) (ha : ∀ k : Int, a ≠ k) (t : Int) : wave a t ≠ 0 := by
  unfold wave
  split
  · intro h; exact ha (-t) (by push_cast; linarith)
  · split
    · intro h; exact ha (t - 46) (by push_cast; linarith)
    · intro h; exact ha (120 - t) (by push_cast; linarith)

theorem half_ne (k : Int) : (1 / 2 : ℚ) ≠ k := by
  intro h
  have h2 : ((1 : Int) : ℚ) = ((2 * k : Int) : ℚ) := by push_cast; linarith
  have := Int.cast_injective h2
  omega

/-- The hypotheses of `C357_partial` hold for this curve. -/
example : Plain (wave (1 / 2)) 0 13 ∧ Begins (want (wave (1 / 2)) 0 13) := by
  refine ⟨⟨?_, fun s _ _ => wave_ne _ half_ne s⟩, ?_⟩
  · have : ∀ i ∈ List.range 12, samp (wave (1 / 2)) 0 i ≠ samp (wave (1 / 2)) 0 (i + 1) := by decide +kernel
    intro i hi
    exact this i (List.mem_range.2 (by omega))
  · have e : want (wave (1 / 2)) 0 13 = [⟨.high, 1, 3⟩, ⟨.toEbb, 2, 5⟩, ⟨.low, 3, 9⟩, ⟨.toFlood, 0, 12⟩] := by decide +kernel
    rw [e]
    intro w hw
    cases hw
    exact ⟨fun _ => rfl, fun h => by cases h⟩

/-! ## Where the claim is not true -/

/-- **C357** a station whose water flows out at the beginning and whose ebb is weakest in between (a turning point with a current of −5.5):
it is reported as the strongest flood, and so is the strongest ebb after it. -/
theorem C357_counterexample_ebb : (scan (wave (-57 / 2)) (fun _ => 0) 20 0 13).map (·.evs) =
      some [⟨23, 1, -11 / 2⟩, ⟨83, 1, -131 / 2⟩] ∧ (want (wave (-57 / 2)) 0 13).map (·.label) = [3, 3] ∧ ¬ C357_claim := by
  have h1 : (scan (wave (-57 / 2)) (fun _ => 0) 20 0 13).map (·.evs) = some [⟨23, 1, -11 / 2⟩, ⟨83, 1, -131 / 2⟩] := by decide +kernel
  have h2 : want (wave (-57 / 2)) 0 13 = [⟨.high, 3, 3⟩, ⟨.low, 3, 9⟩] := by decide +kernel
  refine ⟨h1, by rw [h2]; rfl, fun h => ?_⟩
  obtain ⟨st, e, hm⟩ := h (wave (-57 / 2)) (fun _ => 0) 0 20 13
  rw [e] at h1
  simp only [Option.map_some, Option.some.injEq] at h1
  rw [h1, h2] at hm
  cases hm with
  | cons hm _ => exact absurd hm.label (by decide)

/-- **C357** a current that is exactly zero at a minute: slack water is reported in the middle of the twenty minutes, here nine minutes before
the current is zero. -/
theorem C357_counterexample_zero : (scan (fun t => (t : ℚ) - 19) (fun _ => 0) 20 0 3).map (·.evs) = some [⟨10, 0, 0⟩] ∧
    want (fun t => (t : ℚ) - 19) 0 3 = [⟨.toFlood, 0, 2⟩] ∧ ((10 : Int) : ℚ) - 19 ≠ 0 ∧ ((10 : Int) : ℚ) + 1 - 19 < 0 := by
  refine ⟨by decide +kernel, by decide +kernel, by norm_num, by norm_num⟩

/-- **C357** a current that is zero at a sample and then flows out: slack water is reported as a strongest flood of strength 0. -/
theorem C357_counterexample_sample : (scan (fun t => 20 - (t : ℚ)) (fun _ => 0) 20 0 4).map (·.evs) = some [⟨20, 1, 0⟩] := by decide +kernel

/-- **C357** two equal samples: the current is asked as that of a rotary station, and when it is not above the one before, the whole
prediction is an error (16). -/
theorem C357_counterexample_flat : scan (fun t => if t < 20 then (t : ℚ) + 1 else 20) (fun _ => 20) 20 0 6 = none := by
  have : (scan (fun t => if t < 20 then (t : ℚ) + 1 else 20) (fun _ => 20) 20 0 6).isNone = true := by decide +kernel
  simpa using this

end Verif.Shio.Flood
