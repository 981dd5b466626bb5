import Verif.TSeries.TideFileModel
import Mathlib.Algebra.Order.Field.Rat
import Mathlib.Data.Rat.Floor
import Mathlib.Data.List.Forall2
import Mathlib.Data.List.TakeWhile
import Mathlib.Data.List.Induction
import Mathlib.Tactic.Linarith
import Mathlib.Tactic.NormNum

namespace Verif.TSeries.TideFile

open Verif.Dates

/-! ## Characters -/

theorem digit_not_space (c : Char) (h : c.isDigit = true) : isSpace c = false := by
  by_contra hc
  simp only [isSpace, Bool.not_eq_false, Bool.or_eq_true, decide_eq_true_eq] at hc
  rcases hc with ((((hc | hc) | hc) | hc) | hc) | hc <;> subst hc <;> revert h <;> decide

theorem digit_ne (c d : Char) (h : c.isDigit = true) (hd : d.isDigit = false) : c ≠ d := by
  rintro rfl; rw [h] at hd; cases hd

/-- A character that `f` (lower case, commas to spaces) treats as it should for reading. -/
theorem lower_cases (c : Char) : c.toLower = c ∨
    (c.isDigit = false ∧ isSpace c = false ∧ c ≠ '-' ∧ c ≠ '+' ∧ c ≠ ',' ∧
      c.toLower.isDigit = false ∧ isSpace c.toLower = false ∧ c.toLower ≠ '-' ∧ c.toLower ≠ '+' ∧ c.toLower ≠ ',') := by
  by_cases h : c.val ≥ 'A'.val ∧ c.val ≤ 'Z'.val
  · right
    have key : ∀ n, n < 91 → 65 ≤ n → ((Char.ofNat n).isDigit = false ∧ isSpace (Char.ofNat n) = false ∧ (Char.ofNat n) ≠ '-' ∧ (Char.ofNat n) ≠ '+' ∧
        (Char.ofNat n) ≠ ',' ∧ (Char.ofNat n).toLower.isDigit = false ∧ isSpace (Char.ofNat n).toLower = false ∧ (Char.ofNat n).toLower ≠ '-' ∧
        (Char.ofNat n).toLower ≠ '+' ∧ (Char.ofNat n).toLower ≠ ',') := by decide +kernel
    have h1 : 65 ≤ c.toNat := h.1
    have h2 : c.toNat ≤ 90 := h.2
    have := key c.toNat (by omega) h1
    rwa [Char.ofNat_toNat] at this
  · left
    rw [Char.toLower, dif_neg h]

theorem lower_digit : (Char.isDigit ∘ Char.toLower) = Char.isDigit := by
  funext c
  rcases lower_cases c with h | h
  · simp only [Function.comp_apply, h]
  · simp only [Function.comp_apply, h.1, h.2.2.2.2.2.1]

theorem lower_space : (isSpace ∘ Char.toLower) = isSpace := by
  funext c
  rcases lower_cases c with h | h
  · simp only [Function.comp_apply, h]
  · simp only [Function.comp_apply, h.2.1, h.2.2.2.2.2.2.1]

theorem lower_nospace : ((fun c => !isSpace c) ∘ Char.toLower) = fun c => !isSpace c := by
  funext c
  have := congrFun lower_space c
  simp only [Function.comp_apply] at this ⊢
  rw [this]

theorem lower_comma (c : Char) : (if c.toLower = ',' then ' ' else c.toLower) = (if c = ',' then ' ' else c).toLower := by
  rcases lower_cases c with h | h
  · rw [h]
    split
    · decide
    · exact h.symm
  · rw [if_neg h.2.2.2.2.2.2.2.2.2, if_neg h.2.2.2.2.1]

theorem commas_lower (s : Str) : commas (s.map Char.toLower) = (commas s).map Char.toLower := by
  simp only [commas, List.map_map]
  apply List.map_congr_left
  intro c _
  exact lower_comma c

theorem sign_other (c : Char) (r : Str) (h1 : c ≠ '-') (h2 : c ≠ '+') : sign (c :: r) = (false, c :: r) := by
  unfold sign
  split <;> simp_all

theorem sign_lower (s : Str) : sign (s.map Char.toLower) = ((sign s).1, (sign s).2.map Char.toLower) := by
  rcases s with _ | ⟨c, r⟩
  · rfl
  · by_cases h1 : c = '-'
    · subst h1; rfl
    · by_cases h2 : c = '+'
      · subst h2; rfl
      · rw [sign_other c r h1 h2, List.map_cons]
        rcases lower_cases c with h | h
        · rw [h]; exact sign_other c _ h1 h2
        · exact sign_other _ _ h.2.2.2.2.2.2.2.1 h.2.2.2.2.2.2.2.2.1

theorem digits_lower (ds : Str) (h : ∀ c ∈ ds, c.isDigit = true) : ds.map Char.toLower = ds := by
  conv_rhs => rw [← List.map_id ds]
  apply List.map_congr_left
  intro c hc
  rcases lower_cases c with h' | h'
  · exact h'
  · rw [h c hc] at h'; exact absurd h'.1 (by decide)

theorem scanShort_lower (s : Str) : scanShort (s.map Char.toLower) = (scanShort s).map fun p => (p.1, p.2.map Char.toLower) := by
  have hd : ∀ l : Str, (l.map Char.toLower).takeWhile Char.isDigit = l.takeWhile Char.isDigit := by
    intro l
    rw [List.takeWhile_map, lower_digit]
    exact digits_lower _ fun c hc => List.mem_takeWhile_imp hc
  unfold scanShort
  simp only [List.dropWhile_map, lower_space, sign_lower, hd, lower_digit]
  split
  · rfl
  · split <;> split <;> rfl

theorem scanDate_lower (s : Str) : scanDate (s.map Char.toLower) = (scanDate s).map fun p => (p.1, p.2.map Char.toLower) := by
  unfold scanDate
  rw [scanShort_lower]
  rcases scanShort s with _ | d
  · rfl
  simp only [Option.map_some, Option.bind_some]
  rw [scanShort_lower]
  rcases scanShort d.2 with _ | m
  · rfl
  simp only [Option.map_some, Option.bind_some]
  rw [scanShort_lower]
  rcases scanShort m.2 with _ | y
  · rfl
  simp only [Option.map_some, Option.bind_some]
  rw [scanShort_lower]
  rcases scanShort y.2 with _ | h
  · rfl
  simp only [Option.map_some, Option.bind_some]
  rw [scanShort_lower]
  rcases scanShort h.2 with _ | n <;> rfl

theorem scanWord_lower (s : Str) : scanWord (s.map Char.toLower) = (scanWord s).map fun p => (p.1.map Char.toLower, p.2.map Char.toLower) := by
  unfold scanWord
  simp only [List.dropWhile_map, List.takeWhile_map, lower_space, lower_nospace, List.map_eq_nil_iff]
  split <;> rfl

theorem scanValues_lower (s : Str) : (scanValues (s.map Char.toLower)).isSome = (scanValues s).isSome := by
  unfold scanValues
  rw [scanWord_lower]
  rcases scanWord s with _ | a
  · rfl
  simp only [Option.map_some, Option.bind_some]
  rw [scanWord_lower]
  rcases scanWord a.2 with _ | b <;> rfl

theorem parseLine_lower (s : Str) : (parseLine (s.map Char.toLower)).isSome = (parseLine s).isSome := by
  unfold parseLine
  rw [scanDate_lower]
  rcases scanDate s with _ | d
  · rfl
  simp only [Option.map_some, Option.bind_some, Option.isSome_map]
  exact scanValues_lower _

/-! ## Rows as text -/

/-- Decimal digits for a number that a `short` can hold. -/
def Digits (ds : Str) : Prop := ds ≠ [] ∧ (∀ c ∈ ds, c.isDigit = true) ∧ value ds ≤ 32767

/-- What stands between two fields: commas and white space. -/
def Sep (s : Str) : Prop := s ≠ [] ∧ ∀ c ∈ s, isSpace c = true ∨ c = ','

/-- A field of a value: no white space, no comma. -/
def Word (w : Str) : Prop := w ≠ [] ∧ ∀ c ∈ w, isSpace c = false ∧ c ≠ ','

/-- White space. -/
def Blank (s : Str) : Prop := ∀ c ∈ s, isSpace c = true

/-- A line of text that is a row: five whole numbers and two values, separated by commas or white space. -/
def RowText (l : Str) (d m y h n : Nat) (a b : Str) : Prop :=
  ∃ pre post d' m' y' h' n' s1 s2 s3 s4 s5 s6, Blank pre ∧ Blank post ∧ Digits d' ∧ Digits m' ∧ Digits y' ∧ Digits h' ∧ Digits n' ∧
    Sep s1 ∧ Sep s2 ∧ Sep s3 ∧ Sep s4 ∧ Sep s5 ∧ Sep s6 ∧ Word a ∧ Word b ∧
    value d' = d ∧ value m' = m ∧ value y' = y ∧ value h' = h ∧ value n' = n ∧
    l = pre ++ (d' ++ (s1 ++ (m' ++ (s2 ++ (y' ++ (s3 ++ (h' ++ (s4 ++ (n' ++ (s5 ++ (a ++ (s6 ++ b)))))))))))) ++ post

theorem commas_append (s t : Str) : commas (s ++ t) = commas s ++ commas t := by simp only [commas, List.map_append]

theorem commas_same (s : Str) (h : ∀ c ∈ s, c ≠ ',') : commas s = s := by
  conv_rhs => rw [← List.map_id s]
  apply List.map_congr_left
  intro c hc
  rw [if_neg (h c hc)]; rfl

theorem commas_digits (ds : Str) (h : Digits ds) : commas ds = ds :=
  commas_same ds fun c hc => digit_ne c ',' (h.2.1 c hc) (by decide)

theorem commas_word (w : Str) (h : Word w) : commas w = w := commas_same w fun c hc => (h.2 c hc).2

theorem commas_sep (s : Str) (h : Sep s) : commas s ≠ [] ∧ Blank (commas s) := by
  constructor
  · intro h'; exact h.1 (List.map_eq_nil_iff.mp h')
  · intro c hc
    obtain ⟨x, hx, rfl⟩ := List.mem_map.mp hc
    split
    · decide
    · rcases h.2 x hx with h' | h'
      · exact h'
      · contradiction

theorem dropWhile_blank (s t : Str) (h : Blank s) : (s ++ t).dropWhile isSpace = t.dropWhile isSpace := List.dropWhile_append_of_pos h

theorem takeWhile_stop {p : Char → Bool} (s t : Str) (hs : ∀ c ∈ s, p c = true) (ht : ∀ c r, t = c :: r → p c = false) :
    (s ++ t).takeWhile p = s ∧ (s ++ t).dropWhile p = t := by
  have h1 : t.takeWhile p = [] ∧ t.dropWhile p = t := by
    rcases t with _ | ⟨c, r⟩
    · exact ⟨rfl, rfl⟩
    · have := ht c r rfl
      simp [this]
  rw [List.takeWhile_append_of_pos hs, List.dropWhile_append_of_pos hs, h1.1, h1.2, List.append_nil]
  exact ⟨rfl, rfl⟩

theorem scanShort_digits (s ds t : Str) (hs : Blank s) (hd : Digits ds) (ht : ∀ c r, t = c :: r → c.isDigit = false) :
    scanShort (s ++ (ds ++ t)) = some ((value ds : Int), t) := by
  obtain ⟨hne, hdig, hv⟩ := hd
  have h1 : (s ++ (ds ++ t)).dropWhile isSpace = ds ++ t := by
    rw [dropWhile_blank _ _ hs]
    rcases ds with _ | ⟨c, r⟩
    · exact absurd rfl hne
    · rw [List.cons_append, List.dropWhile_cons, if_neg]
      rw [digit_not_space c (hdig c (List.mem_cons_self ..))]; decide
  have h2 : sign (ds ++ t) = (false, ds ++ t) := by
    rcases ds with _ | ⟨c, r⟩
    · exact absurd rfl hne
    · have := hdig c (List.mem_cons_self ..)
      exact sign_other c _ (digit_ne c _ this (by decide)) (digit_ne c _ this (by decide))
  obtain ⟨h3, h4⟩ := takeWhile_stop ds t hdig ht
  unfold scanShort
  simp only [h1, h2, h3, h4, if_neg hne, Bool.false_eq_true, if_false]
  rw [if_pos ⟨by omega, by exact_mod_cast hv⟩]

theorem scanWord_word (s w t : Str) (hs : Blank s) (hw : Word w) (ht : ∀ c r, t = c :: r → isSpace c = true) : scanWord (s ++ (w ++ t)) = some (w, t) := by
  obtain ⟨hne, hws⟩ := hw
  have h1 : (s ++ (w ++ t)).dropWhile isSpace = w ++ t := by
    rw [dropWhile_blank _ _ hs]
    rcases w with _ | ⟨c, r⟩
    · exact absurd rfl hne
    · rw [List.cons_append, List.dropWhile_cons, if_neg]
      rw [(hws c (List.mem_cons_self ..)).1]; decide
  obtain ⟨h3, h4⟩ := takeWhile_stop (p := fun c => !isSpace c) w t (fun c hc => by simp only [(hws c hc).1, Bool.not_false])
    (fun c r h => by simp only [ht c r h, Bool.not_true])
  unfold scanWord
  simp only [h1, h3, h4, if_neg hne]

theorem trim_core (pre core post : Str) (h1 : Blank pre) (h2 : Blank post) (hf : ∃ c r, core = c :: r ∧ isSpace c = false)
    (hl : ∃ c r, core = r ++ [c] ∧ isSpace c = false) : trim (pre ++ core ++ post) = core := by
  unfold trim
  obtain ⟨c, r, hc, hs⟩ := hl
  rw [List.reverse_append, List.dropWhile_append_of_pos (by intro x hx; exact h2 x (List.mem_reverse.mp hx))]
  have e1 : (pre ++ core).reverse.dropWhile isSpace = (pre ++ core).reverse := by
    rw [hc, ← List.append_assoc, List.reverse_append]
    simp only [List.reverse_cons, List.reverse_nil, List.nil_append, List.cons_append, List.dropWhile_cons, hs, Bool.false_eq_true, if_false]
  rw [e1, List.reverse_reverse, dropWhile_blank _ _ h1]
  obtain ⟨c', r', hc', hs'⟩ := hf
  rw [hc', List.dropWhile_cons, hs']
  simp

theorem blank_head (s t : Str) (hne : s ≠ []) (hb : Blank s) : ∀ c r, s ++ t = c :: r → isSpace c = true := by
  intro c r h
  rcases s with _ | ⟨x, s⟩
  · exact absurd rfl hne
  · injection h with h1 h2
    subst h1
    exact hb _ (List.mem_cons_self ..)

theorem blank_head_digit (s t : Str) (hne : s ≠ []) (hb : Blank s) : ∀ c r, s ++ t = c :: r → c.isDigit = false := by
  intro c r h
  have := blank_head s t hne hb c r h
  by_contra hc
  rw [Bool.not_eq_false] at hc
  rw [digit_not_space c hc] at this
  cases this

theorem rowText_core {l : Str} {d m y h n : Nat} {a b : Str} (H : RowText l d m y h n a b) :
    trim l ≠ [] ∧ ∃ rest, scanDate (commas (trim l)) = some (⟨y, m, d, h, n, 0⟩, rest) ∧ scanValues rest = some (a, b) := by
  obtain ⟨pre, post, d', m', y', h', n', s1, s2, s3, s4, s5, s6, hpre, hpost, hd, hm, hy, hh, hn, h1, h2, h3, h4, h5, h6, ha, hb,
    rfl, rfl, rfl, rfl, rfl, rfl⟩ := H
  have ht : trim (pre ++ (d' ++ (s1 ++ (m' ++ (s2 ++ (y' ++ (s3 ++ (h' ++ (s4 ++ (n' ++ (s5 ++ (a ++ (s6 ++ b)))))))))))) ++ post) =
      (d' ++ (s1 ++ (m' ++ (s2 ++ (y' ++ (s3 ++ (h' ++ (s4 ++ (n' ++ (s5 ++ (a ++ (s6 ++ b)))))))))))) := by
    apply trim_core _ _ _ hpre hpost
    · rcases d' with _ | ⟨c, r⟩
      · exact absurd rfl hd.1
      · exact ⟨c, _, rfl, digit_not_space c (hd.2.1 c (List.mem_cons_self ..))⟩
    · obtain ⟨b', c, rfl⟩ : ∃ b' c, b = b' ++ [c] := ⟨b.dropLast, b.getLast hb.1, (List.dropLast_append_getLast hb.1).symm⟩
      refine ⟨c, d' ++ (s1 ++ (m' ++ (s2 ++ (y' ++ (s3 ++ (h' ++ (s4 ++ (n' ++ (s5 ++ (a ++ (s6 ++ b'))))))))))), ?_, (hb.2 c (by simp)).1⟩
      simp only [List.append_assoc]
  rw [ht]
  constructor
  · intro h0
    rcases d' with _ | ⟨c, r⟩
    · exact hd.1 rfl
    · cases h0
  · simp only [commas_append, commas_digits _ hd, commas_digits _ hm, commas_digits _ hy, commas_digits _ hh, commas_digits _ hn,
      commas_word _ ha, commas_word _ hb]
    obtain ⟨e1, b1⟩ := commas_sep _ h1
    obtain ⟨e2, b2⟩ := commas_sep _ h2
    obtain ⟨e3, b3⟩ := commas_sep _ h3
    obtain ⟨e4, b4⟩ := commas_sep _ h4
    obtain ⟨e5, b5⟩ := commas_sep _ h5
    obtain ⟨e6, b6⟩ := commas_sep _ h6
    refine ⟨commas s5 ++ (a ++ (commas s6 ++ b)), ?_, ?_⟩
    · unfold scanDate
      have q := scanShort_digits [] d' _ (by intro c hc; cases hc) hd (blank_head_digit (commas s1)
        (m' ++ (commas s2 ++ (y' ++ (commas s3 ++ (h' ++ (commas s4 ++ (n' ++ (commas s5 ++ (a ++ (commas s6 ++ b)))))))))) e1 b1)
      rw [List.nil_append] at q
      rw [q, Option.bind_some, scanShort_digits _ _ _ b1 hm (blank_head_digit _ _ e2 b2), Option.bind_some,
        scanShort_digits _ _ _ b2 hy (blank_head_digit _ _ e3 b3), Option.bind_some, scanShort_digits _ _ _ b3 hh (blank_head_digit _ _ e4 b4),
        Option.bind_some, scanShort_digits _ _ _ b4 hn (blank_head_digit _ _ e5 b5)]
      rfl
    · unfold scanValues
      rw [scanWord_word _ _ _ b5 ha (blank_head _ _ e6 b6), Option.bind_some]
      have q := scanWord_word _ b [] b6 hb (by intro c r h; cases h)
      rw [List.append_nil] at q
      rw [q]; rfl

/-! ## All rows -/

/-- A line that is read as a value. -/
def IsRow (z : Zone) (k : ℚ) (num : Str → Option ℚ) (l : Str) (p : Pair) : Prop :=
  ∃ d s a b, scanDate (commas (trim l)) = some (d, s) ∧ (1 ≤ d.day ∧ d.day ≤ 31 ∧ 1 ≤ d.month ∧ d.month ≤ 12) ∧ scanValues s = some (a, b) ∧
    p = ⟨dateToSeconds z { d with year := fixYear d.year }, (num a).getD 0 * k, (num b).getD 0 * k⟩

/-- The row of zeros that may end a file. -/
def IsEnd (l : Str) : Prop :=
  trim l ≠ [] ∧ ∃ d s, scanDate (commas (trim l)) = some (d, s) ∧ d.day = 0 ∧ d.month = 0 ∧ d.year = 0 ∧ d.hour = 0 ∧ d.minute = 0

/-- The lines of a body that are read: without the row of zeros, without blank lines. -/
def Body (ls kept : List Str) : Prop :=
  ∃ body, (ls = body ∨ ∃ t, IsEnd t ∧ ls = body ++ [t]) ∧ kept = body.filter fun l => decide (trim l ≠ [])

theorem dateOk_iff (d : Date) : dateOk d = true ↔ 1 ≤ d.day ∧ d.day ≤ 31 ∧ 1 ≤ d.month ∧ d.month ≤ 12 := by
  simp only [dateOk, Bool.and_eq_true, decide_eq_true_eq, and_assoc]

theorem zeros_iff (d : Date) : zeros d = true ↔ d.day = 0 ∧ d.month = 0 ∧ d.year = 0 ∧ d.hour = 0 ∧ d.minute = 0 := by
  simp only [zeros, Bool.and_eq_true, decide_eq_true_eq, and_assoc]

/-- A step of the loop. -/
theorem rows_cons (z : Zone) (k : ℚ) (num : Str → Option ℚ) (l : Str) (rest : List Str) (prev : Option Int) (out : List Pair) :
    rows z k num (l :: rest) prev = some out ↔
      (trim l = [] ∧ rows z k num rest prev = some out) ∨ (rest = [] ∧ IsEnd l ∧ out = []) ∨
      (trim l ≠ [] ∧ ∃ p out', IsRow z k num l p ∧ (∀ t, prev = some t → t ≤ p.time) ∧ rows z k num rest (some p.time) = some out' ∧ out = p :: out') := by
  rw [rows]
  by_cases h0 : trim l = []
  · rw [if_pos h0]
    constructor
    · intro h; exact .inl ⟨h0, h⟩
    · rintro (⟨_, h⟩ | ⟨_, h, _⟩ | ⟨h, _⟩)
      · exact h
      · exact absurd h0 h.1
      · exact absurd h0 h
  rw [if_neg h0]
  rcases hs : scanDate (commas (trim l)) with _ | ⟨d, s⟩
  · simp only
    constructor
    · intro h; cases h
    · rintro (⟨h, _⟩ | ⟨_, ⟨_, d, s, h, _⟩, _⟩ | ⟨_, p, o, ⟨d, s, a, b, h, _⟩, _⟩)
      · exact absurd h h0
      · rw [hs] at h; cases h
      · rw [hs] at h; cases h
  simp only
  by_cases hz : rest = [] ∧ zeros d = true
  · rw [if_pos hz]
    have hz' := (zeros_iff d).mp hz.2
    constructor
    · intro h
      injection h with h
      exact .inr (.inl ⟨hz.1, ⟨h0, d, s, hs, hz'⟩, h.symm⟩)
    · rintro (⟨h, _⟩ | ⟨_, _, h⟩ | ⟨_, p, o, ⟨d', s', a, b, h, hd, _⟩, _⟩)
      · exact absurd h h0
      · rw [h]
      · rw [hs] at h
        injection h with h
        injection h with h1 h2
        subst h1
        have := hz'.1
        omega
  rw [if_neg hz]
  by_cases hd : dateOk d = true
  · rw [if_pos hd]
    have hd' := (dateOk_iff d).mp hd
    rcases hv : scanValues s with _ | ⟨a, b⟩
    · simp only
      constructor
      · intro h; cases h
      · rintro (⟨h, _⟩ | ⟨h1, ⟨_, d', s', h, h2⟩, _⟩ | ⟨_, p, o, ⟨d', s', a, b, h, _, h2, _⟩, _⟩)
        · exact absurd h h0
        · rw [hs] at h
          injection h with h
          injection h with h3 h4
          subst h3
          have := h2.1
          omega
        · rw [hs] at h
          injection h with h
          injection h with h3 h4
          subst h4
          rw [hv] at h2; cases h2
    · simp only
      have hrow : IsRow z k num l ⟨dateToSeconds z { d with year := fixYear d.year }, (num a).getD 0 * k, (num b).getD 0 * k⟩ :=
        ⟨d, s, a, b, hs, hd', hv, rfl⟩
      have huniq : ∀ p, IsRow z k num l p → p = ⟨dateToSeconds z { d with year := fixYear d.year }, (num a).getD 0 * k, (num b).getD 0 * k⟩ := by
        rintro p ⟨d', s', a', b', h1, _, h2, h3⟩
        rw [hs] at h1
        injection h1 with h1
        injection h1 with h4 h5
        subst h4 h5
        rw [hv] at h2
        injection h2 with h2
        injection h2 with h6 h7
        subst h6 h7
        exact h3
      have hend : ¬ IsEnd l := by
        rintro ⟨_, d', s', h, h2, _⟩
        rw [hs] at h
        injection h with h
        injection h with h3 h4
        subst h3
        omega
      by_cases hp : prev.any (fun x => decide (dateToSeconds z { d with year := fixYear d.year } < x)) = true
      · rw [if_pos hp]
        constructor
        · intro h; cases h
        · rintro (⟨h, _⟩ | ⟨_, h, _⟩ | ⟨_, p, o, hr, hle, _⟩)
          · exact absurd h h0
          · exact absurd h hend
          · rw [huniq p hr] at hle
            rcases prev with _ | t
            · cases hp
            · simp only [Option.any_some, decide_eq_true_eq] at hp
              have := hle t rfl
              simp only at this
              omega
      · rw [if_neg hp]
        constructor
        · intro h
          rw [Option.map_eq_some_iff] at h
          obtain ⟨o, ho, rfl⟩ := h
          refine .inr (.inr ⟨h0, _, o, hrow, ?_, ho, rfl⟩)
          rintro t rfl
          simp only [Option.any_some, decide_eq_true_eq] at hp
          simp only; omega
        · rintro (⟨h, _⟩ | ⟨_, h, _⟩ | ⟨_, p, o, hr, _, ho, rfl⟩)
          · exact absurd h h0
          · exact absurd h hend
          · rw [huniq p hr] at ho ⊢
            simp only at ho
            rw [ho]; rfl
  · rw [if_neg hd]
    constructor
    · intro h; cases h
    · rintro (⟨h, _⟩ | ⟨h1, ⟨_, d', s', h, h2⟩, _⟩ | ⟨_, p, o, ⟨d', s', a, b, h, h2, _⟩, _⟩)
      · exact absurd h h0
      · rw [hs] at h
        injection h with h
        injection h with h3 h4
        subst h3
        exact absurd ⟨h1, (zeros_iff _).mpr h2⟩ hz
      · rw [hs] at h
        injection h with h
        injection h with h3 h4
        subst h3
        exact absurd ((dateOk_iff _).mpr h2) hd

/-- Times from `prev` on do not go back. -/
def InOrder (prev : Option Int) (out : List Pair) : Prop :=
  (∀ t, prev = some t → ∀ p ∈ out, t ≤ p.time) ∧ out.Pairwise fun p q => p.time ≤ q.time

theorem inOrder_cons (prev : Option Int) (p : Pair) (out : List Pair) :
    InOrder prev (p :: out) ↔ (∀ t, prev = some t → t ≤ p.time) ∧ InOrder (some p.time) out := by
  unfold InOrder
  rw [List.pairwise_cons]
  constructor
  · rintro ⟨h1, h2, h3⟩
    refine ⟨fun t ht => h1 t ht p (List.mem_cons_self ..), ?_, h3⟩
    rintro t ht
    injection ht with ht
    subst ht
    exact h2
  · rintro ⟨h1, h2, h3⟩
    refine ⟨?_, h2 _ rfl, h3⟩
    intro t ht q hq
    rcases List.mem_cons.mp hq with rfl | hq
    · exact h1 t ht
    · exact le_trans (h1 t ht) (h2 _ rfl q hq)

theorem rows_iff (z : Zone) (k : ℚ) (num : Str → Option ℚ) (ls : List Str) (prev : Option Int) (out : List Pair) :
    rows z k num ls prev = some out ↔ ∃ kept, Body ls kept ∧ List.Forall₂ (IsRow z k num) kept out ∧ InOrder prev out := by
  induction ls generalizing prev out with
  | nil =>
    rw [rows]
    constructor
    · intro h
      injection h with h
      subst h
      refine ⟨[], ⟨[], .inl rfl, rfl⟩, .nil, ?_, .nil⟩
      intro t _ p hp; cases hp
    · rintro ⟨kept, ⟨body, h1, h2⟩, h3, _⟩
      rcases h1 with rfl | ⟨t, _, h⟩
      · rw [h2] at h3
        cases h3; rfl
      · have := congrArg List.length h
        simp at this
  | cons l rest ih =>
    rw [rows_cons]
    constructor
    · rintro (⟨h0, h⟩ | ⟨h1, h2, h3⟩ | ⟨h0, p, o, hr, hle, ho, rfl⟩)
      · obtain ⟨kept, ⟨body, hb, hk⟩, h2, h3⟩ := (ih prev out).mp h
        refine ⟨kept, ⟨l :: body, ?_, ?_⟩, h2, h3⟩
        · rcases hb with rfl | ⟨t, ht, rfl⟩
          · exact .inl rfl
          · exact .inr ⟨t, ht, rfl⟩
        · rw [hk, List.filter_cons, if_neg (by simp [h0])]
      · subst h1 h3
        refine ⟨[], ⟨[], .inr ⟨l, h2, rfl⟩, rfl⟩, .nil, ?_, .nil⟩
        intro t _ p hp; cases hp
      · obtain ⟨kept, ⟨body, hb, hk⟩, h2, h3⟩ := (ih (some p.time) o).mp ho
        refine ⟨l :: kept, ⟨l :: body, ?_, ?_⟩, .cons hr h2, (inOrder_cons ..).mpr ⟨hle, h3⟩⟩
        · rcases hb with rfl | ⟨t, ht, rfl⟩
          · exact .inl rfl
          · exact .inr ⟨t, ht, rfl⟩
        · rw [hk, List.filter_cons, if_pos (by simp [h0])]
    · rintro ⟨kept, ⟨body, hb, hk⟩, h2, h3⟩
      rcases body with _ | ⟨x, body⟩
      · rcases hb with hb | ⟨t, ht, hb⟩
        · cases hb
        · injection hb with e1 e2
          subst e1 e2
          rw [hk] at h2
          cases h2
          exact .inr (.inl ⟨rfl, ht, rfl⟩)
      · have hx : x = l ∧ (rest = body ∨ ∃ t, IsEnd t ∧ rest = body ++ [t]) := by
          rcases hb with hb | ⟨t, ht, hb⟩
          · injection hb with e1 e2
            exact ⟨e1.symm, .inl e2⟩
          · injection hb with e1 e2
            exact ⟨e1.symm, .inr ⟨t, ht, e2⟩⟩
        obtain ⟨rfl, hb'⟩ := hx
        by_cases h0 : trim x = []
        · rw [List.filter_cons, if_neg (by simp [h0])] at hk
          exact .inl ⟨h0, (ih prev out).mpr ⟨kept, ⟨body, hb', hk⟩, h2, h3⟩⟩
        · rw [List.filter_cons, if_pos (by simp [h0])] at hk
          subst hk
          rcases h2 with _ | ⟨hr, h2⟩
          rename_i p o
          obtain ⟨h4, h5⟩ := (inOrder_cons ..).mp h3
          exact .inr (.inr ⟨h0, p, o, hr, h4, (ih (some p.time) o).mpr ⟨_, ⟨body, hb', rfl⟩, h2, h5⟩, rfl⟩)

/-- C235, rows: a body is read exactly when each line but blank ones, and but a last row of zeros, is a row and the times do not go back; the series has one
value for each row, in the order of the file. Otherwise nothing is read. -/
theorem C235_rows (z : Zone) (k : ℚ) (num : Str → Option ℚ) (ls : List Str) (out : List Pair) :
    rows z k num ls none = some out ↔
      ∃ kept, Body ls kept ∧ List.Forall₂ (IsRow z k num) kept out ∧ out.Pairwise fun p q => p.time ≤ q.time := by
  rw [rows_iff]
  constructor
  · rintro ⟨kept, h1, h2, _, h3⟩; exact ⟨kept, h1, h2, h3⟩
  · rintro ⟨kept, h1, h2, h3⟩
    refine ⟨kept, h1, h2, ?_, h3⟩
    intro t h; cases h

/-- C235, text: a line of five whole numbers and two values, with commas or white space between, is the row that it looks like. -/
theorem C235_text (z : Zone) (k : ℚ) (num : Str → Option ℚ) {l : Str} {d m y h n : Nat} {a b : Str} (H : RowText l d m y h n a b)
    (hd : 1 ≤ d ∧ d ≤ 31) (hm : 1 ≤ m ∧ m ≤ 12) (p : Pair) :
    IsRow z k num l p ↔ p = ⟨dateToSeconds z ⟨fixYear y, m, d, h, n, 0⟩, (num a).getD 0 * k, (num b).getD 0 * k⟩ := by
  obtain ⟨_, rest, h1, h2⟩ := rowText_core H
  constructor
  · rintro ⟨d', s', a', b', h3, _, h4, h5⟩
    rw [h1, Option.some.injEq, Prod.mk.injEq] at h3
    obtain ⟨rfl, rfl⟩ := h3
    rw [h2, Option.some.injEq, Prod.mk.injEq] at h4
    obtain ⟨rfl, rfl⟩ := h4
    exact h5
  · rintro rfl
    exact ⟨_, rest, a, b, h1, ⟨by simp only; omega, by simp only; omega, by simp only; omega, by simp only; omega⟩, h2, rfl⟩

theorem dropEmpty_replicate (a : Str) (body : List Str) (n : Nat) (h : body.getLast? ≠ some []) :
    dropEmpty (a :: (body ++ List.replicate n [])) = a :: body := by
  rw [dropEmpty, List.reverse_append, List.dropWhile_append_of_pos]
  · congr 1
    rcases List.eq_nil_or_concat body with rfl | ⟨b, x, rfl⟩
    · rfl
    · have hx : x ≠ [] := by
        rintro rfl
        simp at h
      simp [hx]
  · intro x hx
    have := List.eq_of_mem_replicate (List.mem_reverse.mp hx)
    simp [this]

/-- C235: a file with a name, a position, units of speed and rows is the series of its rows in metres per second, whatever empty lines follow. -/
theorem C235_file (z : Zone) (num : Str → Option ℚ) (name pos unit first : Str) (body : List Str) (n : Nat) (sp : Speed)
    (hname : isNdbc [name] = false ∧ isNcdc [name] = false) (hu : speed (trim unit) = some sp) (hf : (dataLine first).isSome)
    (hl : (first :: body).getLast? ≠ some []) :
    readFile z num (name :: pos :: unit :: first :: body ++ List.replicate n []) = finish (rows z (factor sp) num (first :: body) none) := by
  have hlast : (pos :: unit :: first :: body).getLast? ≠ some [] := by
    rw [List.getLast?_cons_cons, List.getLast?_cons_cons]; exact hl
  have hdrop : dropEmpty (name :: pos :: unit :: first :: body ++ List.replicate n []) = name :: pos :: unit :: first :: body :=
    dropEmpty_replicate name (pos :: unit :: first :: body) n hlast
  unfold readFile
  simp only [hdrop]
  have h1 : isNdbc (name :: pos :: unit :: first :: body) = false := hname.1
  have h2 : isNcdc (name :: pos :: unit :: first :: body) = false := hname.2
  have h4 : isOssm (name :: pos :: unit :: first :: body) = .yes sp := by simp only [isOssm, hu, hf, if_true]
  have h3 : isLong (name :: pos :: unit :: first :: body) = .no := by
    rcases body with _ | ⟨l5, rest⟩
    · rfl
    · simp only [isLong, hu]
      rw [if_pos]
      have hp : (parseLine (commas ((trim first).map Char.toLower))).isSome = true := by
        rw [commas_lower, parseLine_lower]; exact hf
      refine ⟨?_, ?_, ?_, hp⟩ <;> intro h0 <;> rw [h0] at hp <;> revert hp <;> decide
  simp only [h1, h2, h3, h4, Bool.false_eq_true, if_false, List.drop_succ_cons, List.drop_zero]

/-- Metres in the length that goes with an hour, or a second, in a unit of speed: nautical mile, mile, kilometre, metre. -/
def metres : Speed → ℚ
  | .knots => 1852
  | .mph => 1609344 / 1000
  | .kmh => 1000
  | .mps => 1

/-- Seconds in its time. -/
def unitSeconds : Speed → ℚ
  | .mps => 1
  | _ => 3600

/-- C235, units: the factors are the length of a unit over its time, to one part in ten thousand. -/
theorem C235_units (sp : Speed) (v : ℚ) (hv : 0 ≤ v) :
    9999 / 10000 * (v * metres sp / unitSeconds sp) ≤ v * factor sp ∧ v * factor sp ≤ 10001 / 10000 * (v * metres sp / unitSeconds sp) := by
  cases sp <;> simp only [metres, unitSeconds, factor] <;> constructor <;> linarith

/-- C235, the whole: such a file is read exactly when its rows can be, and then the series is that of its rows; else it is refused with an error. -/
theorem C235_series (z : Zone) (num : Str → Option ℚ) (name pos unit first : Str) (body : List Str) (n : Nat) (sp : Speed)
    (hname : isNdbc [name] = false ∧ isNcdc [name] = false) (hu : speed (trim unit) = some sp) (hf : (dataLine first).isSome)
    (hl : (first :: body).getLast? ≠ some []) :
    (∀ out, readFile z num (name :: pos :: unit :: first :: body ++ List.replicate n []) = .series out ↔ out ≠ [] ∧ ∃ kept, Body (first :: body) kept ∧
      List.Forall₂ (IsRow z (factor sp) num) kept out ∧ out.Pairwise fun p q => p.time ≤ q.time) ∧
    ((¬ ∃ out, readFile z num (name :: pos :: unit :: first :: body ++ List.replicate n []) = .series out) →
      readFile z num (name :: pos :: unit :: first :: body ++ List.replicate n []) = .ioError ∨
      readFile z num (name :: pos :: unit :: first :: body ++ List.replicate n []) = .noUnits) := by
  rw [C235_file z num name pos unit first body n sp hname hu hf hl]
  constructor
  · intro out
    rw [← C235_rows]
    generalize rows z (factor sp) num (first :: body) none = o
    rcases o with _ | _ | ⟨p, l⟩ <;> simp [finish]
    rintro rfl
    exact fun h => List.cons_ne_nil _ _ h
  · generalize rows z (factor sp) num (first :: body) none = o
    rcases o with _ | _ | ⟨p, l⟩ <;> simp [finish]

example : ∃ l, readFile ⟨0, fun _ => false⟩ (fun w => some (value w)) ("Tide".toList :: "45,-70".toList :: " knots ".toList :: "1,2,2024,0,30,2,0".toList ::
    ["".toList, "1,2,24,6,0, 4 0".toList, "0,0,0,0,0,0,0".toList] ++ List.replicate 2 []) = .series l ∧ l.length = 2 ∧ l.map Pair.u = [2 * (5144 / 10000), 4 * (5144 / 10000)] := by
  refine ⟨_, rfl, ?_, ?_⟩ <;> decide +kernel

/-! ## Dates -/

/-- C236 in full: a row that is accepted has a date of the calendar and a time of the day. -/
def C236_claim : Prop := ∀ (z : Zone) (k : ℚ) (num : Str → Option ℚ) (l : Str) (d m y h n : Nat) (a b : Str) (p : Pair),
  RowText l d m y h n a b → rows z k num [l] none = some [p] → (1 ≤ m ∧ m ≤ 12) ∧ 1 ≤ d ∧ (d : Int) ≤ dim (fixYear y) m ∧ h < 24 ∧ n < 60

theorem rowText_example (y : Str) (hy : Digits y) : RowText ("31,2,".toList ++ y ++ ",99,75,1,0".toList) 31 2 (value y) 99 75 "1".toList "0".toList := by
  refine ⟨[], [], "31".toList, "2".toList, y, "99".toList, "75".toList, ",".toList, ",".toList, ",".toList, ",".toList, ",".toList, ",".toList,
    (by intro c hc; cases hc), (by intro c hc; cases hc), ?_, ?_, hy, ?_, ?_, ?_, ?_, ?_, ?_, ?_, ?_, ?_, ?_, ?_, ?_, rfl, ?_, ?_, ?_⟩
  all_goals first | decide | (constructor <;> decide) | skip
  simp

theorem digits2024 : Digits "2024".toList := by refine ⟨?_, ?_, ?_⟩ <;> decide

/-- C236 fails: the 31st of February at 99 hours and 75 minutes is accepted. -/
theorem C236_counterexample : ¬ C236_claim := by
  intro h
  have := h ⟨0, fun _ => false⟩ 1 (fun _ => none) _ 31 2 2024 99 75 _ _
    ⟨dateToSeconds ⟨0, fun _ => false⟩ ⟨2024, 2, 31, 99, 75, 0⟩, 0, 0⟩ (rowText_example "2024".toList digits2024) (by decide +kernel)
  omega

/-- C236, what holds: months and days out of range are refused; the series then has the time of the date that the C library makes of the rest. -/
theorem C236_partial (z : Zone) (k : ℚ) (num : Str → Option ℚ) (l : Str) (d m y h n : Nat) (a b : Str) (H : RowText l d m y h n a b) :
    rows z k num [l] none =
      if 1 ≤ d ∧ d ≤ 31 ∧ 1 ≤ m ∧ m ≤ 12 then some [⟨dateToSeconds z ⟨fixYear y, m, d, h, n, 0⟩, (num a).getD 0 * k, (num b).getD 0 * k⟩]
      else if d = 0 ∧ m = 0 ∧ y = 0 ∧ h = 0 ∧ n = 0 then some [] else none := by
  obtain ⟨h0, rest, h1, h2⟩ := rowText_core H
  rw [rows, if_neg h0, h1]
  simp only
  have e1 : zeros ⟨y, m, d, h, n, 0⟩ = true ↔ d = 0 ∧ m = 0 ∧ y = 0 ∧ h = 0 ∧ n = 0 := by
    rw [zeros_iff]; simp only; omega
  have e2 : dateOk ⟨y, m, d, h, n, 0⟩ = true ↔ 1 ≤ d ∧ d ≤ 31 ∧ 1 ≤ m ∧ m ≤ 12 := by
    rw [dateOk_iff]; simp only; omega
  by_cases hd : 1 ≤ d ∧ d ≤ 31 ∧ 1 ≤ m ∧ m ≤ 12
  · have hz : ¬ (True ∧ zeros ⟨y, m, d, h, n, 0⟩ = true) := by
      rw [e1]; omega
    rw [if_neg hz, if_pos (e2.mpr hd), if_pos hd, h2]
    rfl
  · rw [if_neg hd]
    by_cases hz : d = 0 ∧ m = 0 ∧ y = 0 ∧ h = 0 ∧ n = 0
    · rw [if_pos ⟨trivial, e1.mpr hz⟩, if_pos hz]
    · rw [if_neg (fun hh => hz (e1.mp hh.2)), if_neg hz, if_neg (fun hh => hd (e2.mp hh))]

/-- C236, years: two digits from 40 on are of the last century, below of this one; years from 1900 on are as they are; each year of 1940 to 2039 can be
given by its last two digits. -/
theorem C236_years (y : Nat) :
    (1900 ≤ y → fixYear y = y) ∧ (y < 40 → fixYear y = 2000 + y) ∧ (40 ≤ y → y < 100 → fixYear y = 1900 + y) ∧
      (1940 ≤ y → y < 2040 → fixYear (y % 100 : Nat) = y) := by
  refine ⟨?_, ?_, ?_, ?_⟩ <;> intros <;> unfold fixYear <;> split <;> (try split) <;> omega

/-- C236, a whole day earlier in the calendar is an earlier row: the time of a row is that of its date, in seconds. -/
theorem C236_time (z : Zone) (d m : Int) (y h n : Nat) :
    dateToSeconds z ⟨fixYear y, m, d, h, n, 0⟩ = dateToSeconds z ⟨fixYear y, m, d, 0, 0, 0⟩ + (3600 * h + 60 * n) := by
  unfold dateToSeconds
  simp only
  omega

example : rows ⟨0, fun _ => false⟩ 1 (fun _ => none) ["31,2,2024,99,75,1,0".toList] none = some [⟨dateToSeconds ⟨0, fun _ => false⟩ ⟨2024, 3, 6, 4, 15, 0⟩, 0, 0⟩] := by
  decide +kernel

/-! ## Files that are cut short -/

/-- C237 in full: reading a file looks at lines of that file only. -/
def C237_claim : Prop := ∀ (z : Zone) (num : Str → Option ℚ) (file : List Str), readFile z num file ≠ .beyond

/-- C237 fails: with a header of three lines and nothing else, and with five lines of which the last two are not rows. -/
theorem C237_counterexample : ¬ C237_claim := by
  intro h
  exact h ⟨0, fun _ => false⟩ (fun _ => none) ["Tide".toList, "45,-70".toList, "knots".toList] (by decide +kernel)

theorem C237_counterexample_five (z : Zone) (num : Str → Option ℚ) :
    readFile z num ["Tide".toList, "45,-70".toList, "knots".toList, "a,b,c,d,e,f,g".toList, "x".toList] = .beyond := by
  rfl

/-- C237, what holds: with lines enough for the header of a series of winds and a row, no line beyond the end is looked at. -/
theorem C237_partial (z : Zone) (num : Str → Option ℚ) (file : List Str) (h : 6 ≤ (dropEmpty file).length) : readFile z num file ≠ .beyond := by
  unfold readFile
  simp only
  generalize dropEmpty file = ls at h
  rcases ls with _ | ⟨a, _ | ⟨b, _ | ⟨c, _ | ⟨d, _ | ⟨e, _ | ⟨f, r⟩⟩⟩⟩⟩⟩ <;> simp only [List.length_nil, List.length_cons] at h <;> try omega
  have hfin : ∀ o, finish o ≠ .beyond := by
    rintro (_ | _ | _) <;> simp [finish]
  split
  · simp
  split
  · simp
  have h1 : isLong (a :: b :: c :: d :: e :: f :: r) ≠ .beyond := by
    simp only [isLong]
    split
    · simp
    · split
      · simp
      · split
        · simp
        · split <;> simp
  have h2 : isOssm (a :: b :: c :: d :: e :: f :: r) ≠ .beyond := by
    simp only [isOssm]
    split
    · simp
    · split <;> simp
  have h3 : isHydro num (a :: b :: c :: d :: e :: f :: r) ≠ .beyond := by
    simp only [isHydro]
    split
    · split <;> simp
    · simp
  split
  · contradiction
  · exact hfin _
  · split
    · contradiction
    · exact hfin _
    · split
      · contradiction
      · exact hfin _
      · simp only [noHeader]
        split <;> simp

/-- C237, also: a file with units, a row as fourth line and nothing else is read within its lines, and so is a file without units. -/
theorem C237_short (z : Zone) (num : Str → Option ℚ) (name pos unit first : Str) (hu : speed (trim unit) = some .mps) (hf : (dataLine first).isSome)
    (hname : isNdbc [name] = false ∧ isNcdc [name] = false) (hl : first ≠ []) : readFile z num [name, pos, unit, first] ≠ .beyond := by
  have := C235_file z num name pos unit first [] 0 .mps hname hu hf (by simpa using hl)
  simp only [List.replicate_zero, List.append_nil] at this
  rw [this]
  generalize rows z (factor .mps) num [first] none = o
  rcases o with _ | _ | _ <;> simp [finish]

example : readFile ⟨0, fun _ => false⟩ (fun _ => none) ["T".toList, "0,0".toList, "m/s".toList, "0,0,0,0,0,0,0".toList] = .noUnits := by decide +kernel

/-! ## Directions -/

/-- C238 in full: a direction that is a number means that bearing, and a name of the compass its bearing. -/
def C238_claim : Prop := ∀ (num : Str → Option ℚ) (w : Str) (x : ℚ), num w = some x → ∃ k : Int, toDegrees num w = x + 360 * k

/-- C238 fails: −90, which is west, is read as north. -/
theorem C238_counterexample : ¬ C238_claim := by
  intro h
  obtain ⟨k, hk⟩ := h (fun _ => some (-90)) "-90".toList (-90) rfl
  have h0 : toDegrees (fun _ => some (-90)) "-90".toList = 0 := by decide +kernel
  rw [h0] at hk
  have : (90 : ℚ) = 360 * k := by linarith
  have h2 : (90 : Int) = 360 * k := by exact_mod_cast this
  omega

/-- C238, what holds: a number that begins with a digit means its bearing, brought to the circle from 0 to 360. -/
theorem C238_partial (num : Str → Option ℚ) (c : Char) (w : Str) (x : ℚ) (hc : c.isDigit = true) (hx : num (c :: w) = some x) :
    (∃ k : Int, toDegrees num (c :: w) = x + 360 * k) ∧ 0 ≤ toDegrees num (c :: w) ∧ toDegrees num (c :: w) < 360 := by
  have e : toDegrees num (c :: w) = x - (⌊x / 360⌋ : ℚ) * 360 := by
    unfold toDegrees
    simp only [hc, if_true, hx]
    rfl
  rw [e]
  have h1 := Int.floor_le (x / 360)
  have h2 := Int.lt_floor_add_one (x / 360)
  rw [le_div_iff₀ (by norm_num)] at h1
  rw [div_lt_iff₀ (by norm_num)] at h2
  refine ⟨⟨-⌊x / 360⌋, by push_cast; ring⟩, by linarith, by linarith⟩

/-- The points of the compass, clockwise from north. -/
def points : List String := ["N", "NNE", "NE", "ENE", "E", "ESE", "SE", "SSE", "S", "SSW", "SW", "WSW", "W", "WNW", "NW", "NNW"]

/-- C238, names: the sixteen points are equally far apart, clockwise from north, in capitals and in small letters; the numbers have no part in it. -/
theorem C238_points (num : Str → Option ℚ) : points.map (fun s => toDegrees num s.toList) = (List.range 16).map (fun i => (i : ℚ) * (45 / 2)) ∧
    points.map (fun s => toDegrees num s.toLower.toList) = (List.range 16).map (fun i => (i : ℚ) * (45 / 2)) := by
  have : ∀ w ∈ points.map String.toList ++ points.map (fun s => s.toLower.toList), toDegrees num w = toDegrees (fun _ => none) w := by
    intro w hw
    have hd : ∀ w ∈ points.map String.toList ++ points.map (fun s => s.toLower.toList), ∀ c r, w = c :: r → c.isDigit = false := by
      have h' : (points.map String.toList ++ points.map (fun s => s.toLower.toList)).all (fun w => match w with | [] => true | c :: _ => !c.isDigit) = true := by
        decide +kernel
      intro w hw c r e
      have := List.all_eq_true.mp h' w hw
      subst e
      simpa using this
    rcases w with _ | ⟨c, r⟩
    · rfl
    · have := hd _ hw c r rfl
      unfold toDegrees
      simp only [this, Bool.false_eq_true, if_false]
  constructor
  · rw [List.map_congr_left (g := fun s => toDegrees (fun _ => none) s.toList)]
    · decide +kernel
    · intro s hs
      exact this _ (List.mem_append_left _ (List.mem_map_of_mem hs))
  · rw [List.map_congr_left (g := fun s => toDegrees (fun _ => none) s.toLower.toList)]
    · decide +kernel
    · intro s hs
      exact this _ (List.mem_append_right _ (List.mem_map_of_mem (f := fun s : String => s.toLower.toList) hs))

/-- C238, other words: a word that is no point of the compass and begins with no digit is read as north. -/
theorem C238_other (num : Str → Option ℚ) (c : Char) (w : Str) (hc : c.isDigit = false) (h : String.ofList ((c :: w).map Char.toUpper) ∉ points) :
    toDegrees num (c :: w) = 0 := by
  simp only [points, List.mem_cons, List.not_mem_nil, or_false, not_or] at h
  unfold toDegrees
  simp only [hc, Bool.false_eq_true, if_false]
  generalize String.ofList ((c :: w).map Char.toUpper) = s at h ⊢
  obtain ⟨a1, a2, a3, a4, a5, a6, a7, a8, a9, a10, a11, a12, a13, a14, a15, a16⟩ := h
  simp only [a1, a2, a3, a4, a5, a6, a7, a8, a9, a10, a11, a12, a13, a14, a15, a16, if_false]

example : toDegrees (fun _ => none) "VRB".toList = 0 ∧ toDegrees (fun _ => some 765) "765".toList = 45 := by decide +kernel

end Verif.TSeries.TideFile
