import Verif.Shio.FileModel

/-!
# C167: tide station files
-/

namespace Verif.Shio.File

/-- Every expected line is there, with its key and, for a value, a number; the values are those of the lines. -/
def Complete (parse : String → Option ℚ) (f : List Line) : Nat → List Item → List (String × ℚ) → Prop
  | _, [], r => r = []
  | n, .header k :: l, r => (∃ x, f[n]? = some x ∧ x.key = k) ∧ Complete parse f (n + 1) l r
  | n, .value k :: l, r => ∃ x v r', f[n]? = some x ∧ x.key = k ∧ parse x.text = some v ∧ r = (k, v) :: r' ∧ Complete parse f (n + 1) l r'

/-- **C167, as stated**: a file of a station of heights is accepted only if it is complete, with the datum lines or
without them, and then the values are those of its lines. -/
def C167_claim : Prop :=
  ∀ (parse : String → Option ℚ) (f : List Line) (r : List (String × ℚ)),
    readHeights parse f = some r ↔ (Complete parse f 0 (heightHead ++ datumLines ++ heightTail) r ∨ Complete parse f 0 (heightHead ++ heightTail) r)

theorem read_complete (parse : String → Option ℚ) (f : List Line) (items : List Item) (n : Nat) (r : List (String × ℚ))
    (h : Complete parse f n items r) : readItems parse f n items = some r := by
  induction items generalizing n r with
  | nil => simp only [Complete] at h; rw [h]; rfl
  | cons i l ih =>
    cases i with
    | header k =>
      obtain ⟨⟨x, h1, h2⟩, h3⟩ := h
      simp [readItems, keyedLine, h1, h2, ih _ _ h3]
    | value k =>
      obtain ⟨x, v, r', h1, h2, h3, h4, h5⟩ := h
      simp [readItems, keyedValue, keyedLine, h1, h2, h3, h4, ih _ _ h5]

/-- **C167 (partial)**: a complete file with the datum lines is read, with the values of its lines. -/
theorem C167_partial (parse : String → Option ℚ) (f : List Line) (r : List (String × ℚ))
    (h : Complete parse f 0 (heightHead ++ datumLines ++ heightTail) r) : readHeights parse f = some r := by
  unfold readHeights
  have : ¬ (keyedValue parse f "DatumControls.datum=" 6).1 > 0 := by
    unfold keyedValue
    split
    · decide
    · split <;> simp
  rw [if_neg this]
  exact read_complete parse f _ 0 r h

/-- A file that is accepted has its section headers. -/
theorem C167_headers (parse : String → Option ℚ) (f : List Line) (items : List Item) (n : Nat) (r : List (String × ℚ))
    (h : readItems parse f n items = some r) (i : Nat) (k : String) (hi : items[i]? = some (.header k)) :
    ∃ x, f[n + i]? = some x ∧ x.key = k := by
  induction items generalizing n r i with
  | nil => simp at hi
  | cons a l ih =>
    cases i with
    | zero =>
      simp at hi
      subst hi
      simp only [readItems] at h
      split at h
      · cases h
      · rename_i s hs
        unfold keyedLine at hs
        split at hs
        · rename_i x hx
          split at hs
          · rename_i hk; exact ⟨x, by simpa using hx, hk⟩
          · cases hs
        · cases hs
    | succ i =>
      have hi' : l[i]? = some (.header k) := by simpa using hi
      have e : n + (i + 1) = n + 1 + i := by omega
      rw [e]
      cases a with
      | header k' =>
        simp only [readItems] at h
        split at h
        · cases h
        · exact ih (n + 1) r h i hi'
      | value k' =>
        simp only [readItems] at h
        split at h
        · cases h
        · cases hr : readItems parse f (n + 1) l with
          | none => rw [hr] at h; cases h
          | some r' => exact ih (n + 1) r' hr i hi'

/-- What happens to a line of a value that has another key or no number: the value is 0, no error. -/
theorem C167_ignored (parse : String → Option ℚ) (f : List Line) (n : Nat) (k : String) (items : List Item) (r : List (String × ℚ))
    (hbad : ∀ x, f[n]? = some x → x.key = k → parse x.text = none) (h : readItems parse f (n + 1) items = some r) :
    readItems parse f n (.value k :: items) = some ((k, 0) :: r) := by
  have : keyedValue parse f k n = (-1, 0) := by
    unfold keyedValue keyedLine
    cases hf : f[n]? with
    | none => rfl
    | some x =>
      simp only
      by_cases hk : x.key = k
      · rw [if_pos hk]
        simp only [hbad x hf hk]
      · rw [if_neg hk]
  simp [readItems, this, h]

/-- **C167 fails**: a file without the datum lines, which the code means to accept, is refused. -/
theorem C167_counterexample_short (parse : String → Option ℚ) (f : List Line) (r : List (String × ℚ))
    (h : Complete parse f 0 (heightHead ++ heightTail) r) : readHeights parse f = none := by
  have hn : (keyedValue parse f "DatumControls.datum=" 6).1 = -1 := by
    obtain ⟨_, _, _, h⟩ := h
    obtain ⟨x, v, r', _, _, _, _, h⟩ := h
    obtain ⟨x, v, r', _, _, _, _, h⟩ := h
    obtain ⟨_, h⟩ := h
    obtain ⟨x, v, r', h1, h2, _, _, h⟩ := h
    have hne : ¬ x.key = "DatumControls.datum=" := by rw [h2]; decide
    simp at h1
    simp [keyedValue, keyedLine, h1, hne]
  unfold readHeights
  rw [if_neg (by rw [hn]; decide)]
  cases hr : readItems parse f 0 (heightHead ++ datumLines ++ heightTail) with
  | none => rfl
  | some r0 =>
    exfalso
    obtain ⟨x, hx1, hx2⟩ := C167_headers parse f _ 0 r0 hr 14 "[Offset]" (by decide)
    obtain ⟨_, _, _, h⟩ := h
    obtain ⟨_, _, _, _, _, _, _, h⟩ := h
    obtain ⟨_, _, _, _, _, _, _, h⟩ := h
    obtain ⟨_, h⟩ := h
    obtain ⟨_, _, _, _, _, _, _, h⟩ := h
    obtain ⟨_, _, _, _, _, _, _, h⟩ := h
    obtain ⟨_, h⟩ := h
    obtain ⟨_, _, _, _, _, _, _, h⟩ := h
    obtain ⟨_, _, _, _, _, _, _, h⟩ := h
    obtain ⟨_, _, _, _, _, _, _, h⟩ := h
    obtain ⟨_, _, _, _, _, _, _, h⟩ := h
    obtain ⟨_, _, _, _, _, _, _, h⟩ := h
    obtain ⟨y, _, _, hy1, hy2, _⟩ := h
    simp at hy1 hx1
    rw [hy1] at hx1
    cases hx1
    rw [hy2] at hx2
    exact absurd hx2 (by decide)

/-- A complete file, every value 1. -/
def good : List Line := (heightHead ++ datumLines ++ heightTail).map fun i =>
  match i with
  | .header k => ⟨k, ""⟩
  | .value k => ⟨k, "1"⟩

/-- **C167 fails**: with a misspelt key, the high tide comes without its offset of one hour, and no error. -/
theorem C167_counterexample_typo :
    let parse : String → Option ℚ := fun s => if s = "1" then some 1 else none
    ∃ r, readHeights parse (good.set 15 ⟨"HighTme=", "1"⟩) = some r ∧ r.lookup "HighTime=" = some 0
      ∧ ∃ r', readHeights parse good = some r' ∧ r'.lookup "HighTime=" = some 1 := by
  refine ⟨_, rfl, ?_, _, rfl, ?_⟩ <;> rfl

theorem C167_counterexample : ¬ C167_claim := by
  intro h
  obtain ⟨r, h1, _⟩ := C167_counterexample_typo
  rcases (h _ _ r).1 h1 with hc | hc
  · have hc' := read_complete _ _ _ 0 r hc
    obtain ⟨_, _, _, hc⟩ := hc
    obtain ⟨_, _, _, _, _, _, _, hc⟩ := hc
    obtain ⟨_, _, _, _, _, _, _, hc⟩ := hc
    obtain ⟨_, hc⟩ := hc
    obtain ⟨_, _, _, _, _, _, _, hc⟩ := hc
    obtain ⟨_, _, _, _, _, _, _, hc⟩ := hc
    obtain ⟨_, _, _, _, _, _, _, hc⟩ := hc
    obtain ⟨_, _, _, _, _, _, _, hc⟩ := hc
    obtain ⟨_, _, _, _, _, _, _, hc⟩ := hc
    obtain ⟨_, _, _, _, _, _, _, hc⟩ := hc
    obtain ⟨_, _, _, _, _, _, _, hc⟩ := hc
    obtain ⟨_, _, _, _, _, _, _, hc⟩ := hc
    obtain ⟨_, hc⟩ := hc
    obtain ⟨x, _, _, hx, hk, _⟩ := hc
    simp [good, heightHead, datumLines, heightTail] at hx
    subst hx
    exact absurd hk (by decide)
  · have := C167_counterexample_short _ _ r hc
    rw [h1] at this
    cases this

/-- Non-trivial case of the partial claim. -/
example : readHeights (fun s => if s = "1" then some 1 else none) good
    = some (((heightHead ++ datumLines ++ heightTail).filterMap fun i => match i with | .value k => some k | .header _ => none).map fun k => (k, 1)) := by
  rfl

end Verif.Shio.File
