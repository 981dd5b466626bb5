import Mathlib.Tactic.NormNum
import Verif.GridCur.OpenModel

/-!
# A gridded file is opened as what it says

The attribute `grid_type` of a netCDF file says which grid its data are on. A mover reads the file as that grid, or refuses the file.
-/
namespace Verif.GridCur.Open

open Verif.TSeries.TideFile (Str isSpace scanWord speed Speed beginsText)

/-- A text begins with a word, in upper or lower case. -/
def Begins (key : String) (s : Str) : Prop := ∃ r, s.map Char.toUpper = key.toList ++ r

/-- The grid that the attributes of a file tell. -/
inductive Says (a : Attrs) : Reader → Prop
  | regular (g) : a.gridType = some g → (Begins "REGULAR" g ∨ Begins "UNIFORM" g ∨ Begins "RECTANGULAR" g) → Says a .rect
  | curv (g) : a.gridType = some g → (Begins "CURVILINEAR" g ∨ Begins "RECTILINEAR" g) → Says a .curv
  | tri (g) : a.gridType = some g → Begins "TRIANGULAR" g → (∀ l r, g.map Char.toUpper ≠ l ++ "CURV".toList ++ r) → Says a .tri
  | silent : a.gridType = none → Says a .rect

/-- A netCDF file in the classic format. -/
def Classic (f : File) : Prop := ∃ c r, f.bytes = "CDF".toList ++ c :: r

/-- A netCDF file: the library opens it. -/
def NetCdf (f : File) (a : Attrs) : Prop := f.attrs = some a

/-- A file that says its grid is read as that grid; no file ends the program. -/
def C324_claim : Prop :=
  (∀ m w p, make m w p ≠ .crash) ∧
  ∀ m w p f a r, w.file p = some f → NetCdf f a → Says a r → w.takes r p = true → make m w p = .reads r p none

private theorem begins_text {k : String} {s : Str} (hk : k.toList.map Char.toUpper = k.toList) (h : Begins k s) : beginsText s k = true := by
  obtain ⟨r, h⟩ := h
  simp [beginsText, h, hk, ← String.length_toList]

private theorem begins_not {k l : String} {s : Str} (n : Nat) (hn : n ≤ k.length) (hl : n ≤ l.length) (hl' : l.toList.map Char.toUpper = l.toList)
    (hd : k.toList.take n ≠ l.toList.take n) (h : Begins k s) : beginsText s l = false := by
  obtain ⟨r, h⟩ := h
  rw [Bool.eq_false_iff]
  intro e
  simp only [beginsText, h, hl', decide_eq_true_eq] at e
  apply hd
  have e2 := congrArg (List.take n) e
  rw [List.take_take, Nat.min_eq_left hl, List.take_append_of_le_length (by simpa [String.length_toList] using hn)] at e2
  exact e2

theorem kind_says {a : Attrs} {r : Reader} (h : Says a r) (m : Mover) (hm : m = .current ∨ m = .cycle) : pick m (kindOf (some a)) = some r := by
  have hmodel : ∀ a, kindOfModel a = .regular ∨ kindOfModel a = .swafs := by
    intro a; unfold kindOfModel; split
    · exact .inl rfl
    · split
      · exact .inr rfl
      · exact .inl rfl
  have key : ∀ k, (k = .regular ∨ k = .swafs) → pick m k = some .rect := by
    rintro k (rfl | rfl) <;> rcases hm with rfl | rfl <;> rfl
  cases h with
  | regular g hg hb =>
    apply key
    left
    simp only [kindOf, hg]
    rw [if_pos]
    rcases hb with hb | hb | hb <;> simp [begins_text (by decide) hb]
  | curv g hg hb =>
    have h1 : kindOf (some a) = .curv := by
      simp only [kindOf, hg]
      rcases hb with hb | hb
      · rw [begins_not 3 (by decide) (by decide) (by decide) (by decide) hb, begins_not 3 (by decide) (by decide) (by decide) (by decide) hb,
          begins_not 3 (by decide) (by decide) (by decide) (by decide) hb, begins_text (by decide) hb]
        rfl
      · rw [begins_not 3 (by decide) (by decide) (by decide) (by decide) hb, begins_not 3 (by decide) (by decide) (by decide) (by decide) hb,
          begins_not 5 (by decide) (by decide) (by decide) (by decide) hb, begins_text (k := "RECTILINEAR") (by decide) hb]
        simp
    rw [h1]; rcases hm with rfl | rfl <;> rfl
  | tri g hg hb hc =>
    have h0 : hasText g "curv" = false := by
      rw [Bool.eq_false_iff]
      intro e
      simp only [hasText, List.any_eq_true, List.mem_tails, List.isPrefixOf_iff_prefix] at e
      obtain ⟨t, ⟨l, hl⟩, ⟨r, hr⟩⟩ := e
      apply hc l r
      rw [← hl, ← hr, List.append_assoc]
      rfl
    have h1 : kindOf (some a) = .tri := by
      simp only [kindOf, hg, h0]
      rw [begins_not 3 (by decide) (by decide) (by decide) (by decide) hb, begins_not 3 (by decide) (by decide) (by decide) (by decide) hb,
          begins_not 3 (by decide) (by decide) (by decide) (by decide) hb, begins_not 3 (by decide) (by decide) (by decide) (by decide) hb,
          begins_not 3 (by decide) (by decide) (by decide) (by decide) hb, begins_text (by decide) hb]
      rfl
    rw [h1]; rcases hm with rfl | rfl <;> rfl
  | silent hg =>
    apply key
    simp only [kindOf, hg]
    split
    · split
      · exact .inl rfl
      · exact hmodel a
    · exact hmodel a

private theorem classic_nc {f : File} (h : Classic f) : isNetCdf f = true := by
  obtain ⟨c, r, h⟩ := h
  have : 3 ≤ min 512 f.bytes.length - 1 := by rw [h]; simp; omega
  simp only [isNetCdf, firstPart, List.take_take, Nat.min_eq_left this, decide_eq_true_eq]
  rw [h]; rfl

/-- Movers of currents never end the program, and read a classic netCDF file as the grid it tells, or refuse it when it cannot be read so. -/
theorem C324_partial (m : Mover) (hm : m = .current ∨ m = .cycle) (w : World) (p : Str) :
    make m w p ≠ .crash ∧
    ∀ f a r, w.file p = some f → Classic f → NetCdf f a → Says a r →
      make m w p = if w.takes r p then .reads r p none else .refused := by
  constructor
  · have hn : ∀ f, textRead m w p f ≠ .crash ∧ textRead m w p f ≠ .nothing := by
      intro f
      have hpick : ∀ k, ∃ r, pick m k = some r := by
        intro k; rcases hm with rfl | rfl <;> cases k <;> exact ⟨_, rfl⟩
      have hnc : ∀ q k l, openNc m w q k l ≠ .crash ∧ openNc m w q k l ≠ .nothing := by
        intro q k l
        obtain ⟨r, hr⟩ := hpick k
        simp only [openNc, hr]
        split
        · exact ⟨nofun, nofun⟩
        · split
          · split <;> exact ⟨nofun, nofun⟩
          · exact ⟨nofun, nofun⟩
      unfold textRead
      split
      · exact hnc _ _ _
      · split
        · exact hnc _ _ _
        · rcases hm with rfl | rfl <;> simp only [openText, readText] <;> repeat' split
          all_goals exact ⟨nofun, nofun⟩
    unfold make
    split
    · nofun
    · split
      · exact absurd ‹_› (hn _).2
      · exact (hn _).1
  · intro f a r hf hc ha hs
    unfold NetCdf at ha
    have hk := kind_says hs m hm
    simp only [make, hf, textRead, asNetCdf, classic_nc hc, if_true, ha, openNc, hk]
    cases w.takes r p <;> simp

/-- Movers of winds do so for grids that are not of triangles. Those they read as regular grids. -/
theorem C324_wind (w : World) (p : Str) (f : File) (a : Attrs) (r : Reader) (hf : w.file p = some f) (hc : Classic f) (ha : NetCdf f a)
    (hs : Says a r) :
    (r ≠ .tri → make .wind w p = if w.takes r p then .reads r p none else .refused) ∧
    (r = .tri → make .wind w p = if w.takes .rect p then .reads .rect p none else .refused) := by
  unfold NetCdf at ha
  have hk := kind_says hs .current (.inl rfl)
  have h2 : pick .wind (kindOf (some a)) = some (if r = .tri then .rect else r) := by
    revert hk
    cases kindOf (some a) <;> simp only [pick, Option.some.injEq] <;> rintro rfl <;> rfl
  simp only [make, hf, textRead, asNetCdf, classic_nc hc, if_true, ha, openNc, h2]
  constructor
  · intro h; simp only [h, if_false]; cases w.takes r p <;> simp
  · rintro rfl; simp only [if_true]; cases w.takes .rect p <;> simp

/-- Movers of ice read curvilinear grids; any other file that is there, whatever is in it, ends the program. -/
theorem C324_ice (m : Mover) (hm : m = .ice ∨ m = .iceWind) (w : World) (p : Str) (f : File) (hf : w.file p = some f) :
    (∀ a r, Classic f → NetCdf f a → Says a r →
      make m w p = if r = .curv then (if w.takes .curv p then .reads .curv p none else .refused) else .crash) ∧
    (isNetCdf f = false → firstName f = none → make m w p = .crash) := by
  constructor
  · intro a r hc ha hs
    unfold NetCdf at ha
    have hk := kind_says hs .current (.inl rfl)
    have h2 : pick m (kindOf (some a)) = if r = .curv then some .curv else none := by
      revert hk
      rcases hm with rfl | rfl <;> cases kindOf (some a) <;> simp only [pick, Option.some.injEq] <;> rintro rfl <;> rfl
    simp only [make, hf, textRead, asNetCdf, classic_nc hc, if_true, ha, openNc, h2]
    by_cases h : r = .curv
    · simp only [h, if_true]; cases w.takes .curv p <;> simp
    · simp [h]
  · intro h1 h2
    rcases hm with rfl | rfl <;> simp [make, hf, textRead, asNetCdf, h1, asList, h2, openText]

private theorem line_zero {a r : Str} {c : Char} (ha : ∀ x ∈ a, isEnd x = false) (hc : isEnd c = true) : lineZero (a ++ c :: r) = a := by
  unfold lineZero
  rw [List.takeWhile_append_of_pos (by simpa using ha)]
  simp [hc]

/-- A file that lists netCDF files is opened with the first of them. -/
theorem C324_list (m : Mover) (hm : m = .current ∨ m = .cycle) (w : World) (p name rest : Str) (f g : File) (a : Attrs) (r : Reader)
    (hf : w.file p = some f) (hb : f.bytes = "NetCDF Files\n[FILE] ".toList ++ name ++ '\n' :: rest)
    (hname : ∀ c ∈ name, isWhite c = false ∧ c ≠ '\x00') (hne : name ≠ []) (hlen : name.length ≤ 490)
    (hg : w.file (w.resolve p name) = some g) (hc : Classic g) (ha : NetCdf g a) (hs : Says a r) :
    make m w p = if w.takes r (w.resolve p name) && w.names p then .reads r (w.resolve p name) (some p) else .refused := by
  have hend : ∀ c ∈ name, isEnd c = false := by
    intro c hc
    have := (hname c hc).1
    simp only [isWhite, isEnd, Bool.or_eq_false_iff] at this ⊢
    exact ⟨this.1.2, this.2⟩
  have htext : ∃ t, (t = [] ∨ ∃ u, t = '\n' :: u) ∧ text f = "NetCDF Files".toList ++ '\n' :: ("[FILE] ".toList ++ name ++ t) := by
    have hA : f.bytes = ("NetCDF Files\n[FILE] ".toList ++ name) ++ '\n' :: rest := by rw [hb]
    have hl : ("NetCDF Files\n[FILE] ".toList ++ name).length ≤ min 512 f.bytes.length - 1 := by
      rw [hA]; simp; omega
    have h1 : firstPart f = ("NetCDF Files\n[FILE] ".toList ++ name) ++
        ('\n' :: rest).take (min 512 f.bytes.length - 1 - ("NetCDF Files\n[FILE] ".toList ++ name).length) := by
      unfold firstPart
      generalize min 512 f.bytes.length - 1 = k at hl
      rw [hA, List.take_append, List.take_of_length_le hl]
    generalize min 512 f.bytes.length - 1 - ("NetCDF Files\n[FILE] ".toList ++ name).length = k at h1
    refine ⟨(('\n' :: rest).take k).takeWhile (· ≠ '\x00'), ?_, ?_⟩
    · cases k with
      | zero => exact .inl rfl
      | succ k => exact .inr ⟨(rest.take k).takeWhile (· ≠ '\x00'), by simp⟩
    · unfold text
      rw [h1, List.takeWhile_append_of_pos]
      · rw [show "NetCDF Files\n[FILE] ".toList = "NetCDF Files".toList ++ '\n' :: "[FILE] ".toList from rfl]
        simp only [List.append_assoc, List.cons_append]
      · intro c hc
        rcases List.mem_append.1 hc with hc | hc
        · exact (by decide : ∀ c ∈ "NetCDF Files\n[FILE] ".toList, decide (c ≠ '\x00') = true) c hc
        · simpa using (hname c hc).2
  obtain ⟨t, ht, htext⟩ := htext
  have h0 : lineZero (text f) = "NetCDF Files".toList := by
    rw [htext]; exact line_zero (by decide) (by decide)
  have h1 : lineOne (text f) = "[FILE] ".toList ++ name := by
    unfold lineOne
    rw [htext, List.dropWhile_append_of_pos (by decide)]
    rw [show pastEnd (('\n' :: ("[FILE] ".toList ++ name ++ t)).dropWhile fun c => !isEnd c) = "[FILE] ".toList ++ name ++ t from by
      rw [List.dropWhile_cons_of_neg (by decide)]; simp [pastEnd]]
    have he : ∀ x ∈ "[FILE] ".toList ++ name, isEnd x = false := by
      intro c hc
      rcases List.mem_append.1 hc with hc | hc
      · exact (by decide : ∀ c ∈ "[FILE] ".toList, isEnd c = false) c hc
      · exact hend c hc
    rcases ht with rfl | ⟨u, rfl⟩
    · rw [List.append_nil]
      unfold lineZero
      have := line_zero (r := []) he (c := '\n') (by decide)
      have e := List.takeWhile_append_of_pos (p := fun c => !isEnd c) (l₁ := "[FILE] ".toList ++ name) (l₂ := []) (by simpa using he)
      simpa using e
    · exact line_zero he (by decide)
  have hw : ∀ c ∈ name, isWhite c = false := fun c hc => (hname c hc).1
  obtain ⟨z, hz1, hz2⟩ : ∃ z, name = z ++ [name.getLast hne] ∧ isWhite (name.getLast hne) = false :=
    ⟨_, (List.dropLast_append_getLast hne).symm, hw _ (List.getLast_mem hne)⟩
  have hs1 : strip ("[FILE] ".toList ++ name) = "[FILE] ".toList ++ name := by
    unfold strip
    rw [List.reverse_append, hz1, List.reverse_append]
    simp only [List.reverse_cons, List.reverse_nil, List.nil_append, List.cons_append]
    rw [List.dropWhile_cons_of_neg (by simp [hz2])]
    simp
    rw [List.dropWhile_cons_of_neg (by decide)]
  have hs2 : strip (("[FILE] ".toList ++ name).drop 6) = name := by
    rw [show ("[FILE] ".toList ++ name).drop 6 = ' ' :: name from rfl]
    unfold strip
    rw [List.reverse_cons, hz1, List.reverse_append]
    simp only [List.reverse_cons, List.reverse_nil, List.nil_append, List.cons_append]
    rw [List.dropWhile_cons_of_neg (by simp [hz2])]
    simp only [List.reverse_cons, List.reverse_append, List.reverse_reverse, List.reverse_nil, List.nil_append, List.cons_append]
    rw [List.dropWhile_cons_of_pos (by decide), ← hz1]
    cases hn : name with
    | nil => exact absurd hn hne
    | cons b l => rw [List.dropWhile_cons_of_neg (by simp [hw b (by simp [hn])])]
  have hfn : firstName f = some name := by
    have b1 : beginsText (strip "NetCDF Files".toList) "NetCDF Files" = true := by decide
    have b2 : beginsText ("[FILE] ".toList ++ name) "[FILE]" = true := by
      unfold beginsText
      rw [List.map_append]
      exact decide_eq_true (by rfl)
    unfold firstName
    rw [h0, h1, hs1, hs2, b1, b2]
    rfl
  have hk := kind_says hs m hm
  unfold NetCdf at ha
  have hnot : isNetCdf f = false := by
    have e : (firstPart f).take 3 ≠ "CDF".toList := by
      intro e
      have := congrArg List.head? e
      rw [List.head?_take] at this
      simp [firstPart, List.head?_take, hb] at this
    simpa [isNetCdf] using e
  simp only [make, hf, textRead, asNetCdf, hnot, asList, Option.bind_some, hfn, hg, classic_nc hc, ha, Option.map_some, openNc, hk, if_true]
  cases w.takes r (w.resolve p name) <;> cases w.names p <;> simp

/-- Only files that begin as one of the four formats are read by movers of currents. -/
theorem C324_formats (m : Mover) (hm : m = .current ∨ m = .cycle) (w : World) (p q : Str) (r : Reader) (l : Option Str)
    (h : make m w p = .reads r q l) :
    w.takes r q = true ∧ ∃ f, w.file p = some f ∧
      ((l = none ∧ q = p ∧ ∃ s, f.bytes = "CDF".toList ++ s) ∨
       (l = some p ∧ ∃ n, firstName f = some n ∧ q = w.resolve p n) ∨
       (l = none ∧ q = p ∧ r = .points ∧ twoWords (firstLine f) = some ("[FILETYPE]".toList, "PTCUR".toList)) ∨
       (l = none ∧ q = p ∧ ∃ u b, r = .table u ∧ twoWords (firstLine f) = some ("[GRIDCURTIME]".toList, b) ∧ speed b = some u)) := by
  unfold make at h
  split at h
  · cases h
  · rename_i f hf
    have hnc : ∀ q' k l', openNc m w q' k l' = .reads r q l → w.takes r q = true ∧ q = q' ∧ l = l' := by
      intro q' k l' h
      unfold openNc at h
      repeat' split at h
      all_goals first
        | (cases h; done)
        | (cases h; rename_i h' ; simp_all)
    have h' : textRead m w p f = .reads r q l := by
      split at h
      · cases h
      · exact h
    unfold textRead at h'
    split at h'
    · rename_i k hk
      obtain ⟨h1, rfl, rfl⟩ := hnc _ _ _ h'
      refine ⟨h1, f, hf, .inl ⟨rfl, rfl, ?_⟩⟩
      simp only [asNetCdf, hf] at hk
      split at hk
      · rename_i hn
        simp only [isNetCdf, firstPart, decide_eq_true_eq, List.take_take] at hn
        exact ⟨_, by rw [← hn]; exact (List.take_append_drop _ _).symm⟩
      · cases hk
    · split at h'
      · rename_i q' k hk
        obtain ⟨h1, rfl, rfl⟩ := hnc _ _ _ h'
        refine ⟨h1, f, hf, .inr (.inl ⟨rfl, ?_⟩)⟩
        simp only [asList, hf, Option.bind_some] at hk
        split at hk
        · cases hk
        · rename_i n hn
          simp only [Option.map_eq_some_iff, Prod.mk.injEq] at hk
          obtain ⟨_, _, e, _⟩ := hk
          exact ⟨n, hn, e.symm⟩
      · have ht : ∀ r', readText w p r' = .reads r q l → w.takes r q = true ∧ r = r' ∧ q = p ∧ l = none := by
          intro r' h
          unfold readText at h
          split at h
          · cases h; exact ⟨‹_›, rfl, rfl, rfl⟩
          · cases h
        have h2 : (if isPoints f then readText w p .points
            else match asTable ["[GRIDCURTIME]"] f with
              | some u => readText w p (.table u)
              | none => .refused) = .reads r q l := by
          rcases hm with rfl | rfl <;> exact h'
        split at h2
        · rename_i hp
          obtain ⟨h1, rfl, rfl, rfl⟩ := ht _ h2
          refine ⟨h1, f, hf, .inr (.inr (.inl ⟨rfl, rfl, rfl, ?_⟩))⟩
          unfold isPoints at hp
          split at hp
          · rename_i a b e
            simp only [Bool.and_eq_true, decide_eq_true_eq] at hp
            rw [e, hp.1, hp.2]
          · cases hp
        · split at h2
          · rename_i u hu
            obtain ⟨h1, rfl, rfl, rfl⟩ := ht _ h2
            refine ⟨h1, f, hf, .inr (.inr (.inr ⟨rfl, rfl, u, ?_⟩))⟩
            unfold asTable at hu
            split at hu
            · rename_i a b e
              split at hu
              · rename_i ha
                simp only [List.any_cons, List.any_nil, Bool.or_false, decide_eq_true_eq] at ha
                exact ⟨b, rfl, by rw [e, ha], hu⟩
              · cases hu
            · cases hu
          · cases h2

private theorem strip_head (s : Str) : ∃ s', strip ('[' :: s) = '[' :: s' := by
  unfold strip
  rw [List.reverse_cons, List.dropWhile_append]
  split
  · exact ⟨[], by decide⟩
  · rw [List.reverse_append]
    exact ⟨_, List.dropWhile_cons_of_neg (by decide)⟩

/-- The units of a file of currents in a table are those that its first line tells. -/
theorem C324_units (w : World) (p : Str) (f : File) (b rest : Str) (u : Speed) (hf : w.file p = some f)
    (hb : f.bytes = "[GRIDCURTIME] ".toList ++ b ++ '\n' :: rest) (hw : ∀ c ∈ b, isSpace c = false) (hne : b ≠ []) (hu : speed b = some u) :
    make .current w p = if w.takes (.table u) p then .reads (.table u) p none else .refused := by
  have hnot : isNetCdf f = false := by
    have e : (firstPart f).take 3 ≠ "CDF".toList := by
      intro e
      have := congrArg List.head? e
      rw [List.head?_take] at this
      simp [firstPart, List.head?_take, hb] at this
    simpa [isNetCdf] using e
  have hnl : firstName f = none := by
    have ht : ∃ t, text f = '[' :: t := by
      have : ∃ k, min 512 f.bytes.length - 1 = k + 1 := ⟨min 512 f.bytes.length - 2, by rw [hb]; simp⟩
      obtain ⟨k, hk⟩ := this
      unfold text firstPart
      rw [hk, hb]
      exact ⟨_, rfl⟩
    obtain ⟨t, ht⟩ := ht
    have h0 : ∃ s, lineZero (text f) = '[' :: s := by rw [ht]; exact ⟨_, rfl⟩
    obtain ⟨s, hs⟩ := h0
    obtain ⟨s', hs'⟩ := strip_head s
    have hB : beginsText ('[' :: s') "NetCDF Files" = false := by
      unfold beginsText
      rw [decide_eq_false_iff_not]
      intro e
      have e2 : some '[' = some 'N' := congrArg List.head? e
      exact absurd e2 (by decide)
    unfold firstName
    rw [hs, hs', hB]
    rfl
  have h2 : twoWords (firstLine f) = some ("[GRIDCURTIME]".toList, b) := by
    have hl : firstLine f = "[GRIDCURTIME]".toList ++ ' ' :: b := by
      unfold firstLine
      rw [hb, line_zero _ (by decide)]
      · rfl
      · intro c hc
        rcases List.mem_append.1 hc with hc | hc
        · exact (by decide : ∀ c ∈ "[GRIDCURTIME] ".toList, isEnd c = false) c hc
        · have := hw c hc
          simp only [isSpace, isEnd, Bool.or_eq_false_iff] at this ⊢
          exact ⟨this.1.1.1.2, this.2⟩
    have w1 : scanWord ("[GRIDCURTIME]".toList ++ ' ' :: b) = some ("[GRIDCURTIME]".toList, ' ' :: b) := by
      unfold scanWord
      have d : ("[GRIDCURTIME]".toList ++ ' ' :: b).dropWhile isSpace = "[GRIDCURTIME]".toList ++ ' ' :: b :=
        List.dropWhile_cons_of_neg (by decide)
      simp only [d]
      rw [List.takeWhile_append_of_pos (by decide), List.takeWhile_cons_of_neg (by decide), List.dropWhile_append_of_pos (by decide),
        List.dropWhile_cons_of_neg (by decide), List.append_nil, if_neg (by decide)]
    have w2 : scanWord (' ' :: b) = some (b, []) := by
      unfold scanWord
      have d : (' ' :: b).dropWhile isSpace = b := by
        rw [List.dropWhile_cons_of_pos (by decide)]
        cases b with
        | nil => rfl
        | cons x l => rw [List.dropWhile_cons_of_neg (by simp [hw x (by simp)])]
      simp only [d]
      have t1 := List.takeWhile_append_of_pos (p := fun c => !isSpace c) (l₁ := b) (l₂ := []) (by simpa using hw)
      have t2 := List.dropWhile_append_of_pos (p := fun c => !isSpace c) (l₁ := b) (l₂ := []) (by simpa using hw)
      simp only [List.append_nil, List.takeWhile_nil, List.dropWhile_nil] at t1 t2
      rw [t1, t2, if_neg hne]
    simp only [twoWords, hl, w1, w2, Option.bind_some, Option.map_some]
  have hpt : isPoints f = false := by simp [isPoints, h2]
  have htb : asTable ["[GRIDCURTIME]"] f = some u := by simp [asTable, h2, hu]
  simp only [make, hf, textRead, asNetCdf, hnot, asList, Option.bind_some, hnl, openText, hpt, htb, readText, Bool.false_eq_true, if_false]
  cases w.takes (.table u) p <;> simp

/-- A disk with one file. -/
def one (f : File) : World := ⟨fun p => if p = "a".toList then some f else none, fun _ n => n, fun _ _ => true, fun _ => true⟩

/-- A wind on triangles. -/
def triangles : File := ⟨"CDF\x01 ".toList, some { gridType := some "Triangular".toList }⟩

/-- A regular grid. -/
def squares : File := ⟨"CDF\x01 ".toList, some { gridType := some "regular".toList }⟩

/-- A file in the newer format. -/
def newer : File := ⟨"\x89HDF\r\n".toList, some { gridType := some "curvilinear".toList }⟩

private theorem says_tri : Says { gridType := some "Triangular".toList } .tri := by
  refine .tri _ rfl ⟨[], by decide⟩ ?_
  intro l r e
  have : "CURV".toList <:+: "TRIANGULAR".toList := ⟨l, r, by rw [← e]; decide⟩
  exact absurd this (by decide)

/-- A wind on triangles is read as a wind on a regular grid, a mover of ice ends the program on a regular grid, and files in the newer format are refused. -/
theorem C324_counterexample : ¬ C324_claim := by
  rintro ⟨h, _⟩
  exact h .ice (one squares) "a".toList (by decide)

theorem C324_counterexample_wind : make .wind (one triangles) "a".toList = .reads .rect "a".toList none ∧ Says { gridType := some "Triangular".toList } .tri :=
  ⟨by decide, says_tri⟩

theorem C324_counterexample_newer :
    make .current (one newer) "a".toList = .refused ∧ NetCdf newer { gridType := some "curvilinear".toList } ∧
    Says { gridType := some "curvilinear".toList } .curv :=
  ⟨by decide, rfl, .curv _ rfl (.inl ⟨[], by decide⟩)⟩

example : make .current (one triangles) "a".toList = .reads .tri "a".toList none := by decide
example : Classic triangles := ⟨'\x01', [' '], rfl⟩

/-- A list that ends without an end of line loses the last character of the name. -/
example : firstName ⟨"NetCDF Files\n[FILE] b.nc".toList, none⟩ = some "b.n".toList := by decide
example : firstName ⟨"NetCDF Files\n[FILE] b.nc\n".toList, none⟩ = some "b.nc".toList := by decide
example : make .current (one ⟨"[GRIDCURTIME] knots\nNUMROWS 2".toList, none⟩) "a".toList = .reads (.table .knots) "a".toList none := by decide

end Verif.GridCur.Open
