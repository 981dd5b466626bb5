import Verif.Persist.TypesModel
import Mathlib.Algebra.Order.Field.Rat
import Mathlib.Data.List.Nodup

namespace Verif.Persist.Types

/-! ## Times -/

/-- The instant of a time in microseconds of UTC, where times without a zone are in a zone `z` microseconds ahead of UTC. -/
def instant (z : Int) : Time → Option Int
  | .naive t => some (t - z)
  | .aware t off => some (t - off)
  | _ => none

/-- The instant of a text. -/
def textInstant (z : Int) : Text → Option Int
  | .naive t => some (t - z)
  | .aware t off => some (t - off)
  | _ => none

/-- C239 in full: a saved time comes back as the same instant, and a text is read as its instant. -/
def C239_claim : Prop := ∀ z : Int, (∀ t, (loadTime (saveTime t)).bind (instant z) = instant z t) ∧ ∀ x t, loadTime x = some t → instant z t = textInstant z x

/-- C239 fails: the zone is thrown away. -/
theorem C239_counterexample : ¬ C239_claim := by
  intro h
  have := (h 0).1 (.aware 0 3600000000)
  exact absurd this (by decide)

theorem C239_counterexample_text : ¬ ∀ (z : Int) x t, loadTime x = some t → instant z t = textInstant z x := by
  intro h
  have := h 0 (.aware 0 3600000000) (.naive 0) rfl
  exact absurd this (by decide)

/-- C239, what holds: times without a zone, and those without end, come back as they are; a time with a zone comes back exactly when its zone is the local one. -/
theorem C239_partial (z : Int) (t : Time) :
    ((∀ us off, t ≠ .aware us off) → loadTime (saveTime t) = some t) ∧
    (∀ us off, t = .aware us off → ((loadTime (saveTime t)).bind (instant z) = instant z t ↔ off = z)) := by
  constructor
  · intro h
    rcases t with _ | ⟨us, off⟩ | _ | _
    · rfl
    · exact absurd rfl (h us off)
    · rfl
    · rfl
  · rintro us off rfl
    simp only [saveTime, loadTime, Option.bind_some, instant, Option.some.injEq]
    omega

/-- C239, also: the text written is the wall clock without a zone, so as a text it stands for the instant exactly when the zone is the local one. -/
theorem C239_written (z : Int) (t : Time) :
    (∀ us off, saveTime t ≠ .aware us off) ∧ (∀ us off, t = .aware us off → (textInstant z (saveTime t) = instant z t ↔ off = z)) ∧
    ((∀ us off, t ≠ .aware us off) → textInstant z (saveTime t) = instant z t) := by
  refine ⟨?_, ?_, ?_⟩
  · intro us off
    cases t <;> simp [saveTime]
  · rintro us off rfl
    simp only [saveTime, textInstant, instant, Option.some.injEq]
    omega
  · intro h
    cases t with
    | aware us off => exact absurd rfl (h us off)
    | _ => rfl

/-- C239, also: saving twice changes nothing more. -/
theorem C239_again (t u : Time) (h : loadTime (saveTime t) = some u) : loadTime (saveTime u) = some u := by
  rcases t with _ | _ | _ | _ <;> (injection h with h; subst h; rfl)

example : loadTime (saveTime (.naive 5)) = some (.naive 5) ∧ loadTime (saveTime (.aware 5 3)) = some (.naive 5) ∧ loadTime (saveTime .inf) = some .inf := by decide

/-! ## Series -/

theorem noDuplicates_iff (ts : List Int) : noDuplicates ts = true ↔ ts.Nodup := by
  unfold noDuplicates
  rw [decide_eq_true_eq]
  constructor
  · intro h
    rw [← (List.dedup_sublist ts).eq_of_length h]
    exact List.nodup_dedup ts
  · intro h
    rw [List.Nodup.dedup h]

theorem ascending_iff (ts : List Int) : ascending ts = true ↔ ts.Pairwise (· ≤ ·) := by
  unfold ascending
  rw [decide_eq_true_eq]
  constructor
  · intro h
    rw [← h]
    have := List.pairwise_mergeSort (le := fun a b : Int => decide (a ≤ b)) (by simp only [decide_eq_true_eq]; omega)
      (by simp only [Bool.or_eq_true, decide_eq_true_eq]; omega) ts
    exact this.imp (by simp only [decide_eq_true_eq, imp_self, implies_true])
  · intro h
    exact List.mergeSort_of_pairwise (h.imp (by simp only [decide_eq_true_eq, imp_self, implies_true]))

/-- Both checks together: strictly ascending. -/
theorem checks_iff (ts : List Int) : (noDuplicates ts && ascending ts) = true ↔ ts.Pairwise (· < ·) := by
  rw [Bool.and_eq_true, noDuplicates_iff, ascending_iff]
  constructor
  · rintro ⟨h1, h2⟩
    exact (h1.and h2).imp (by rintro a b ⟨h1, h2⟩; omega)
  · intro h
    exact ⟨h.imp (by intro a b h; omega), h.imp (by intro a b h; omega)⟩

/-- An entry that is good: its time is a text for a time with an end that can be converted, its value is accepted. -/
def Good {V : Type} (mk : Int → Bool) (ok : V → Bool) (e : Entry V) (p : Int × V) : Prop :=
  ∃ us, (e = .pair (.naive us) p.2 ∨ ∃ off, e = .pair (.aware us off) p.2) ∧ mk us = true ∧ ok p.2 = true ∧ p.1 = us / 1000000

theorem loadEntry_iff {V : Type} (mk : Int → Bool) (ok : V → Bool) (e : Entry V) (p : Int × V) : loadEntry mk ok e = some p ↔ Good mk ok e p := by
  obtain ⟨s, v⟩ := p
  rcases e with ⟨t, w⟩ | _
  · rcases t with us | ⟨us, off⟩ | _ | _ | _
    · have e : loadEntry mk ok (.pair (.naive us) w) = if (mk us && ok w) = true then some (us / 1000000, w) else none := rfl
      rw [e]
      constructor
      · intro h
        split at h
        · rename_i hc
          rw [Bool.and_eq_true] at hc
          injection h with h
          injection h with h1 h2
          subst h2
          exact ⟨us, .inl rfl, hc.1, hc.2, h1.symm⟩
        · cases h
      · rintro ⟨us', h, h1, h2, h3⟩
        rcases h with h | ⟨off, h⟩
        · injection h with h4 h5
          injection h4 with h4
          subst h4 h5
          simp only at h2 h3
          rw [h1, h2, h3]; rfl
        · injection h with h4 h5
          cases h4
    · have e : loadEntry mk ok (.pair (.aware us off) w) = if (mk us && ok w) = true then some (us / 1000000, w) else none := rfl
      rw [e]
      constructor
      · intro h
        split at h
        · rename_i hc
          rw [Bool.and_eq_true] at hc
          injection h with h
          injection h with h1 h2
          subst h2
          exact ⟨us, .inr ⟨off, rfl⟩, hc.1, hc.2, h1.symm⟩
        · cases h
      · rintro ⟨us', h, h1, h2, h3⟩
        rcases h with h | ⟨off', h⟩
        · injection h with h4 h5
          cases h4
        · injection h with h4 h5
          injection h4 with h4 h6
          subst h4 h5
          simp only at h2 h3
          rw [h1, h2, h3]; rfl
    all_goals
      constructor
      · intro h
        simp [loadEntry, loadTime, seconds] at h
      · rintro ⟨us', h, _⟩
        rcases h with h | ⟨off', h⟩ <;> (injection h with h4 h5; cases h4)
  · constructor
    · intro h; cases h
    · rintro ⟨us', h, _⟩
      rcases h with h | ⟨off', h⟩ <;> cases h

theorem mapM_iff {A B : Type} (f : A → Option B) (l : List A) (r : List B) : l.mapM f = some r ↔ List.Forall₂ (fun a b => f a = some b) l r := by
  induction l generalizing r with
  | nil =>
    rw [List.mapM_nil]
    constructor
    · intro h
      injection h with h
      subst h
      exact .nil
    · intro h
      cases h
      rfl
  | cons a l ih =>
    rw [List.mapM_cons]
    simp only [Option.bind_eq_bind, Option.pure_def, Option.bind_eq_some_iff]
    constructor
    · rintro ⟨b, h1, s, h2, h3⟩
      injection h3 with h3
      subst h3
      exact .cons h1 ((ih s).mp h2)
    · intro h
      rcases h with _ | ⟨h1, h2⟩
      rename_i b s
      exact ⟨b, h1, s, (ih s).mpr h2, rfl⟩

/-- C240: a series is loaded exactly when each of its entries is good and the times, in whole seconds, go up strictly. -/
theorem C240_iff {V : Type} (mk : Int → Bool) (ok : V → Bool) (es : List (Entry V)) (s : List (Int × V)) :
    loadSeries mk ok es = some s ↔ List.Forall₂ (Good mk ok) es s ∧ (s.map Prod.fst).Pairwise (· < ·) := by
  unfold loadSeries
  rw [Option.bind_eq_some_iff]
  have hf : ∀ s', es.mapM (loadEntry mk ok) = some s' ↔ List.Forall₂ (Good mk ok) es s' := by
    intro s'
    rw [mapM_iff]
    constructor <;> intro h
    · exact h.imp fun a b hab => (loadEntry_iff mk ok a b).mp hab
    · exact h.imp fun a b hab => (loadEntry_iff mk ok a b).mpr hab
  constructor
  · rintro ⟨s', h1, h2⟩
    split at h2
    · rename_i hc
      injection h2 with h2
      subst h2
      exact ⟨(hf _).mp h1, (checks_iff _).mp hc⟩
    · cases h2
  · rintro ⟨h1, h2⟩
    exact ⟨s, (hf s).mpr h1, by rw [if_pos ((checks_iff _).mpr h2)]⟩

/-- C240, saved and loaded: a series with times that go up strictly and values that are accepted comes back as it was. -/
theorem C240_roundtrip {V : Type} (mk : Int → Bool) (ok : V → Bool) (s : List (Int × V)) (hup : (s.map Prod.fst).Pairwise (· < ·))
    (hok : ∀ p ∈ s, mk (p.1 * 1000000) = true ∧ ok p.2 = true) : loadSeries mk ok (saveSeries s) = some s := by
  rw [C240_iff]
  refine ⟨?_, hup⟩
  clear hup
  induction s with
  | nil => exact .nil
  | cons p s ih =>
    refine .cons ⟨p.1 * 1000000, .inl rfl, (hok p (List.mem_cons_self ..)).1, (hok p (List.mem_cons_self ..)).2, by omega⟩
      (ih fun q hq => hok q (List.mem_cons_of_mem _ hq))

example : loadSeries (fun _ => true) windOk (saveSeries [(0, .fin 3, .fin 350), (60, .fin 0, .fin 0)]) = some [(0, .fin 3, .fin 350), (60, .fin 0, .fin 0)] :=
  C240_roundtrip _ _ _ (by simp) (by decide)

/-- C241 in full: each speed of a wind that is loaded is at least 0 and each direction is from 0 to 360. -/
def C241_claim : Prop := ∀ (mk : Int → Bool) (es : List (Entry (F × F))) (s : List (Int × F × F)), loadSeries mk windOk es = some s →
  ∀ p ∈ s, (p.2.1 = .pinf ∨ ∃ q, p.2.1 = .fin q ∧ 0 ≤ q) ∧ ∃ d, p.2.2 = .fin d ∧ 0 ≤ d ∧ d ≤ 360

/-- C241 fails: NaN is in every range. -/
theorem C241_counterexample : ¬ C241_claim := by
  intro h
  have := h (fun _ => true) (saveSeries [(0, .nan, .nan)]) [(0, .nan, .nan)] (C240_roundtrip _ _ _ (by simp) (by decide)) _ (List.mem_cons_self ..)
  rcases this.1 with h | ⟨q, h, _⟩ <;> cases h

theorem forall2_right {A B : Type} {R : A → B → Prop} {l : List A} {r : List B} (h : List.Forall₂ R l r) : ∀ b ∈ r, ∃ a, R a b := by
  induction h with
  | nil => intro b hb; cases hb
  | cons h1 h2 ih =>
    intro b hb
    rcases List.mem_cons.mp hb with rfl | hb
    · exact ⟨_, h1⟩
    · exact ih b hb

theorem inRange_fin (lo hi : Option ℚ) (q : ℚ) : inRange lo hi (.fin q) = true ↔ (∀ m, lo = some m → m ≤ q) ∧ ∀ m, hi = some m → q ≤ m := by
  rcases lo with _ | lo <;> rcases hi with _ | hi <;> simp [inRange, F.lt]

/-- C241, what holds: of numbers that are not NaN only those in the range are loaded. -/
theorem C241_partial (mk : Int → Bool) (es : List (Entry (F × F))) (s : List (Int × F × F)) (h : loadSeries mk windOk es = some s) (p : Int × F × F) (hp : p ∈ s)
    (h1 : p.2.1 ≠ .nan) (h2 : p.2.2 ≠ .nan) : (p.2.1 = .pinf ∨ ∃ q, p.2.1 = .fin q ∧ 0 ≤ q) ∧ ∃ d, p.2.2 = .fin d ∧ 0 ≤ d ∧ d ≤ 360 := by
  obtain ⟨_, us, _, _, hok, _⟩ := forall2_right ((C240_iff ..).mp h).1 p hp
  unfold windOk at hok
  rw [Bool.and_eq_true] at hok
  obtain ⟨e1, e2⟩ := hok
  constructor
  · rcases hx : p.2.1 with _ | _ | _ | q
    · exact absurd hx h1
    · rw [hx] at e1; exact absurd e1 (by decide)
    · exact .inl rfl
    · rw [hx, inRange_fin] at e1
      exact .inr ⟨q, rfl, e1.1 0 rfl⟩
  · rcases hx : p.2.2 with _ | _ | _ | q
    · exact absurd hx h2
    · rw [hx] at e2; exact absurd e2 (by decide)
    · rw [hx] at e2; exact absurd e2 (by decide)
    · rw [hx, inRange_fin] at e2
      exact ⟨q, rfl, e2.1 0 rfl, e2.2 360 rfl⟩

/-- C241, the other way: numbers in the ranges are accepted. -/
theorem C241_accepts (q d : ℚ) (hq : 0 ≤ q) (hd : 0 ≤ d ∧ d ≤ 360) : windOk (.fin q, .fin d) = true ∧ amountOk (.fin q) = true := by
  have h1 : inRange (some 0) none (.fin q) = true := (inRange_fin ..).mpr ⟨by rintro m ⟨⟩; exact hq, by rintro m ⟨⟩⟩
  refine ⟨?_, h1⟩
  unfold windOk
  rw [h1, (inRange_fin (some 0) (some 360) d).mpr ⟨by rintro m ⟨⟩; exact hd.1, by rintro m ⟨⟩; exact hd.2⟩]
  rfl

/-! ## Vectors and files -/

/-- C242 in full: a point or a velocity that is loaded has as many parts as one that is saved. -/
def C242_claim : Prop := ∀ (n : Nat) (v w : List F), loadFixed n v = some w → w.length = n

/-- C242 fails: the number of parts is checked on saving only. -/
theorem C242_counterexample : ¬ C242_claim := by
  intro h
  exact absurd (h 3 [.fin 1, .fin 2] _ rfl) (by decide)

/-- C242, what holds: what can be saved comes back as it was, and only vectors of the right length are saved. -/
theorem C242_partial (n : Nat) (v : List F) : (v.length = n → (saveFixed n v).bind (loadFixed n) = some v) ∧ (∀ w, saveFixed n v = some w → w = v ∧ w.length = n) := by
  constructor
  · intro h
    rw [saveFixed, if_pos h]; rfl
  · intro w h
    unfold saveFixed at h
    split at h
    · injection h with h
      subst h
      rename_i h'
      exact ⟨rfl, h'⟩
    · cases h

/-- The names in a setting for files. -/
def names : Files → List String
  | .one f => [f]
  | .many l => l

/-- C243: the names of files come back in their order, whole or, in an archive, their last parts; a list of one name comes back as the name. -/
theorem C243_names (base : String → String) (raw : Bool) (f : Files) :
    names (loadFiles (saveFiles base raw f)) = (if raw then names f else (names f).map base) ∧
      (∀ a, loadFiles (saveFiles base raw f) ≠ .many [a]) := by
  have key : ∀ l : List String, names (single l) = l ∧ ∀ a, single l ≠ .many [a] := by
    intro l
    rcases l with _ | ⟨a, _ | ⟨b, l⟩⟩ <;> simp [names, single]
  have hn : ∀ g : Files, g.list = names g := by
    intro g
    rcases g <;> rfl
  unfold loadFiles saveFiles
  simp only [hn]
  exact ⟨by rw [(key _).1, (key _).1], (key _).2⟩

/-- C243, in full for one name or several: they come back as they were. -/
theorem C243_same (f : Files) (h : ∀ a, f ≠ .many [a]) (base : String → String) : loadFiles (saveFiles base true f) = f := by
  rcases f with f | l
  · rfl
  · rcases l with _ | ⟨a, _ | ⟨b, l⟩⟩
    · rfl
    · exact absurd rfl (h a)
    · rfl

example : loadFiles (saveFiles (fun _ => "x.nc") false (.many ["d/x.nc"])) = .one "x.nc" := by decide

end Verif.Persist.Types
