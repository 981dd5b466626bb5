import Mathlib.Tactic.Linarith
import Mathlib.Data.List.Basic
import Mathlib.Data.List.TakeWhile
import Verif.Bna.Model

/-!
# C187, C188: reading BNA files
-/
namespace Verif.Bna

/-! ## Splitting -/

theorem splitOn_none (c : Char) (s : Txt) (h : c ∉ s) : splitOn c s = [s] := by
  induction s with
  | nil => rfl
  | cons x s ih =>
    simp only [List.mem_cons, not_or] at h
    rw [splitOn, if_neg (fun e => h.1 e.symm), ih h.2]

theorem splitOn_append (c : Char) (a b : Txt) (h : c ∉ a) : splitOn c (a ++ c :: b) = a :: splitOn c b := by
  induction a with
  | nil => rw [List.nil_append, splitOn, if_pos rfl]
  | cons x a ih =>
    simp only [List.mem_cons, not_or] at h
    rw [List.cons_append, splitOn, if_neg (fun e => h.1 e.symm), ih h.2]

theorem splitOn_ne (c : Char) (s : Txt) : splitOn c s ≠ [] := by
  cases s with
  | nil => simp [splitOn]
  | cons x s =>
    rw [splitOn]
    split
    · simp
    · split <;> simp

theorem splitOn_inv (c : Char) (s x : Txt) (r : List Txt) (h : splitOn c s = x :: r) :
    c ∉ x ∧ ((r = [] ∧ s = x) ∨ ∃ t, s = x ++ c :: t ∧ splitOn c t = r) := by
  induction s generalizing x r with
  | nil => simp only [splitOn, List.cons.injEq] at h; obtain ⟨rfl, rfl⟩ := h; simp
  | cons y s ih =>
    rw [splitOn] at h
    split at h
    · rename_i hy
      simp only [List.cons.injEq] at h
      obtain ⟨rfl, h⟩ := h
      exact ⟨by simp, Or.inr ⟨s, by simp [hy], h⟩⟩
    · rename_i hy
      cases hs : splitOn c s with
      | nil => exact absurd hs (splitOn_ne c s)
      | cons f fs =>
        rw [hs] at h
        simp only [List.cons.injEq] at h
        obtain ⟨rfl, rfl⟩ := h
        obtain ⟨h1, h2⟩ := ih f fs hs
        refine ⟨by simp only [List.mem_cons, not_or]; exact ⟨fun e => hy e.symm, h1⟩, ?_⟩
        rcases h2 with ⟨h2, h3⟩ | ⟨t, h2, h3⟩
        · exact Or.inl ⟨h2, by rw [h3]⟩
        · exact Or.inr ⟨t, by rw [h2]; rfl, h3⟩

/-! ## C187: what is written is read -/

/-- Ways to write numbers that `int` and `float` read back. -/
structure Writer (P : Parser) where
  int : Int → Txt
  flt : ℚ → Txt
  int_ok : ∀ n, P.int (int n) = some n
  int_quote : ∀ n, '"' ∉ int n
  int_space : ∀ n, ∀ c ∈ int n, isSp c = false
  flt_ok : ∀ q, P.flt (flt q) = some q
  flt_comma : ∀ q, ',' ∉ flt q

/-- The header `"name","sname",n`. -/
def headLine (name sname n : Txt) : Txt := '"' :: name ++ '"' :: ',' :: '"' :: sname ++ '"' :: ',' :: n

/-- A line of coordinates. -/
def ptLine {P : Parser} (W : Writer P) (p : Pt) : Txt := W.flt p.1 ++ ',' :: W.flt p.2

/-- What a BNA file may contain: blank lines, shapes, polygons whose first point is not repeated at the end. -/
inductive Item
  | blank (l : Txt)
  | shape (p : Poly)
  | unclosed (p : Poly)

def Item.Valid : Item → Prop
  | .blank l => ∀ c ∈ l, isSp c = true
  | .shape p => '"' ∉ p.name ∧ '"' ∉ p.sname ∧
      match p.kind with
      | .polygon => 2 ≤ p.pts.length
      | .polyline => 1 ≤ p.pts.length
      | .point => p.pts.length = 1
  | .unclosed p => '"' ∉ p.name ∧ '"' ∉ p.sname ∧ p.kind = .polygon ∧ 3 ≤ p.pts.length ∧ p.pts.head? ≠ p.pts.getLast?

/-- The lines of an item: polygons repeat their first point, lines have negative numbers of points. -/
def Item.lines {P : Parser} (W : Writer P) : Item → List Txt
  | .blank l => [l]
  | .shape p => match p.kind with
      | .polygon => headLine p.name p.sname (W.int (p.pts.length + 1)) :: (p.pts ++ p.pts.head?.toList).map (ptLine W)
      | .polyline => headLine p.name p.sname (W.int (-p.pts.length)) :: p.pts.map (ptLine W)
      | .point => headLine p.name p.sname (W.int 1) :: p.pts.map (ptLine W)
  | .unclosed p => headLine p.name p.sname (W.int p.pts.length) :: p.pts.map (ptLine W)

def Item.poly : Item → List Poly
  | .blank _ => []
  | .shape p => [p]
  | .unclosed p => [p]

theorem strip_comma (s : Txt) (h : ∀ c ∈ s, isSp c = false) : strip (',' :: s) = ',' :: s := by
  have h1 : (',' :: s).dropWhile isSp = ',' :: s := by rw [List.dropWhile_cons]; rfl
  unfold strip
  rw [h1]
  have hr : ∀ c ∈ (',' :: s).reverse, isSp c = false := by
    intro c hc
    rw [List.mem_reverse, List.mem_cons] at hc
    rcases hc with rfl | hc
    · rfl
    · exact h c hc
  have h2 : ∀ l : Txt, (∀ c ∈ l, isSp c = false) → l.dropWhile isSp = l := by
    intro l hl
    cases l with
    | nil => rfl
    | cons a l => rw [List.dropWhile_cons, hl a List.mem_cons_self]; rfl
  rw [h2 _ hr, List.reverse_reverse]

theorem header_head {P : Parser} (W : Writer P) (name sname : Txt) (n : Int) (h1 : '"' ∉ name) (h2 : '"' ∉ sname) :
    header P (headLine name sname (W.int n)) = (kindOf n).map fun k => ⟨name, sname, k.1, k.2⟩ := by
  have hs : splitOn '"' (headLine name sname (W.int n)) = [[], name, [','], sname, ',' :: W.int n] := by
    unfold headLine
    rw [show '"' :: name ++ '"' :: ',' :: '"' :: sname ++ '"' :: ',' :: W.int n =
      [] ++ '"' :: (name ++ '"' :: ([','] ++ '"' :: (sname ++ '"' :: (',' :: W.int n)))) by simp,
      splitOn_append _ _ _ (by simp), splitOn_append _ _ _ h1, splitOn_append _ _ _ (by decide), splitOn_append _ _ _ h2,
      splitOn_none _ _ (by simp only [List.mem_cons, not_or]; exact ⟨by decide, W.int_quote n⟩)]
  unfold header
  rw [hs]
  simp only
  rw [strip_comma _ (W.int_space n), List.drop_one, List.tail_cons, W.int_ok]

theorem strip_head (name sname n : Txt) : strip (headLine name sname n) ≠ [] := by
  unfold strip headLine
  have h1 : ('"' :: name ++ '"' :: ',' :: '"' :: sname ++ '"' :: ',' :: n).dropWhile isSp =
      '"' :: name ++ '"' :: ',' :: '"' :: sname ++ '"' :: ',' :: n := by rw [List.cons_append, List.cons_append, List.dropWhile_cons]; rfl
  rw [h1]
  intro h
  rw [List.reverse_eq_nil_iff, List.dropWhile_eq_nil_iff] at h
  have := h '"' (by simp)
  revert this; decide

theorem coord_pt {P : Parser} (W : Writer P) (p : Pt) : coord P (ptLine W p) = some p := by
  unfold coord ptLine
  rw [splitOn_append _ _ _ (W.flt_comma _), splitOn_none _ _ (W.flt_comma _)]
  simp [W.flt_ok]

theorem mapM_pts {P : Parser} (W : Writer P) (pts : List Pt) : (pts.map (ptLine W)).mapM (coord P) = some pts := by
  induction pts with
  | nil => rfl
  | cons p pts ih => simp [List.map_cons, List.mapM_cons, coord_pt, ih]

theorem readPts_lines {P : Parser} (W : Writer P) (pts : List Pt) (n : Nat) (rest : List Txt) (h : n = pts.length) :
    readPts P n (pts.map (ptLine W) ++ rest) = some pts := by
  subst h
  unfold readPts
  rw [if_neg (by simp), List.take_left' (by simp), mapM_pts]

theorem readAll_record {P : Parser} (W : Writer P) (name sname : Txt) (n : Int) (k : Kind) (pts : List Pt) (rest : List Txt)
    (h1 : '"' ∉ name) (h2 : '"' ∉ sname) (hk : kindOf n = some (k, pts.length)) :
    readAll P (headLine name sname (W.int n) :: pts.map (ptLine W) ++ rest) =
      (readAll P rest).map (⟨dropClose k pts, k, name, sname⟩ :: ·) := by
  rw [List.cons_append, readAll, if_neg (strip_head _ _ _), header_head W name sname n h1 h2, hk]
  simp only [Option.map_some]
  rw [readPts_lines W pts pts.length rest rfl]
  simp only
  rw [List.drop_left' (by simp)]

theorem dropClose_closed (pts : List Pt) (h : pts ≠ []) : dropClose .polygon (pts ++ pts.head?.toList) = pts := by
  cases pts with
  | nil => simp at h
  | cons p pts =>
    unfold dropClose
    rw [if_pos ⟨rfl, by rw [List.head?_cons, Option.toList_some, List.getLast?_concat]; rfl⟩]
    rw [List.head?_cons, Option.toList_some, List.dropLast_concat]

theorem readAll_item {P : Parser} (W : Writer P) (i : Item) (hv : i.Valid) (rest : List Txt) :
    readAll P (i.lines W ++ rest) = (readAll P rest).map (i.poly ++ ·) := by
  cases i with
  | blank l =>
    have hs : strip l = [] := by
      unfold strip
      have : l.dropWhile isSp = [] := List.dropWhile_eq_nil_iff.mpr hv
      rw [this]; rfl
    simp only [Item.lines, Item.poly, List.nil_append]
    rw [List.singleton_append, readAll, if_pos hs]
    simp
  | shape p =>
    obtain ⟨pts, k, name, sname⟩ := p
    obtain ⟨h1, h2, h3⟩ := hv
    cases k with
    | polygon =>
      have hl : (pts ++ pts.head?.toList).length = pts.length + 1 := by
        cases pts with
        | nil => simp at h3
        | cons a l => simp
      have h3' : 2 ≤ pts.length := h3
      have := readAll_record W name sname (pts.length + 1) .polygon (pts ++ pts.head?.toList) rest h1 h2 (by
        unfold kindOf
        rw [if_neg (by omega), if_neg (by omega), if_pos (by omega), hl]
        simp only [Option.some.injEq, Prod.mk.injEq, true_and]; omega)
      rw [dropClose_closed _ (by rintro rfl; simp at h3')] at this
      exact this
    | polyline =>
      have h3' : 1 ≤ pts.length := h3
      exact readAll_record W name sname (-pts.length) .polyline pts rest h1 h2 (by
        unfold kindOf
        rw [if_pos (by omega)]
        simp)
    | point =>
      have h3' : pts.length = 1 := h3
      exact readAll_record W name sname 1 .point pts rest h1 h2 (by rw [h3']; decide)
  | unclosed p =>
    obtain ⟨pts, k, name, sname⟩ := p
    obtain ⟨h1, h2, h3, h4, h5⟩ := hv
    simp only at h1 h2 h3 h4 h5
    subst h3
    have := readAll_record W name sname pts.length .polygon pts rest h1 h2 (by
        unfold kindOf
        rw [if_neg (by omega), if_neg (by omega), if_pos (by omega)]
        simp)
    unfold dropClose at this
    rw [if_neg (by simp [h5])] at this
    exact this

/-- **C187**: a BNA file of any number of shapes and blank lines is read as these shapes: their kinds, names and points, without
the repeated last point of polygons. -/
theorem C187 {P : Parser} (W : Writer P) (items : List Item) (hv : ∀ i ∈ items, i.Valid) :
    readAll P (items.flatMap (Item.lines W)) = some (items.flatMap Item.poly) := by
  induction items with
  | nil => rw [List.flatMap_nil, readAll]; rfl
  | cons i items ih =>
    rw [List.flatMap_cons, readAll_item W i (hv i List.mem_cons_self), ih fun j hj => hv j (List.mem_cons_of_mem _ hj)]
    rfl

/-- **C187**, two points: a header with the number 2 makes a line of two points like one with −2, while more points make a polygon. -/
theorem C187_two {P : Parser} (W : Writer P) (name sname : Txt) (a b : Pt) (rest : List Txt) (h1 : '"' ∉ name) (h2 : '"' ∉ sname) :
    readAll P (headLine name sname (W.int 2) :: [a, b].map (ptLine W) ++ rest) =
      (readAll P rest).map ([⟨[a, b], .polyline, name, sname⟩] ++ ·) :=
  readAll_record W name sname 2 .polyline [a, b] rest h1 h2 (by simp [kindOf])

/-- A closed polygon of two different points, three lines in the file, is kept as a polygon of two points. -/
example {P : Parser} (W : Writer P) : readAll P (Item.lines W (.shape ⟨[(0, 0), (1, 1)], .polygon, ['a'], ['1']⟩) ++
    Item.lines W (.blank [' ']) ++ Item.lines W (.shape ⟨[(5, 5)], .point, [], ['2']⟩)) =
    some [⟨[(0, 0), (1, 1)], .polygon, ['a'], ['1']⟩, ⟨[(5, 5)], .point, [], ['2']⟩] := by
  have := C187 W [.shape ⟨[(0, 0), (1, 1)], .polygon, ['a'], ['1']⟩, .blank [' '], .shape ⟨[(5, 5)], .point, [], ['2']⟩]
    (by simp [Item.Valid, isSp])
  simpa [Item.poly] using this

/-! ## C188: what is not in the format is refused -/

/-- The format: headers with two names in quotes and a number that is not zero, so many lines of two numbers each. -/
inductive Format (P : Parser) : List Txt → Prop
  | nil : Format P []
  | blank (l : Txt) (ls : List Txt) : (∀ c ∈ l, isSp c = true) → Format P ls → Format P (l :: ls)
  | record (name sname num : Txt) (n : Int) (body ls : List Txt) : P.int num = some n → n ≠ 0 → body.length = n.natAbs →
      (∀ b ∈ body, ∃ x y, b = x ++ ',' :: y ∧ (P.flt x).isSome ∧ (P.flt y).isSome) → Format P ls →
      Format P (headLine name sname num :: body ++ ls)

/-- **C188**, as one would expect. -/
def C188_claim : Prop := ∀ (P : Parser) (ls : List Txt), (readAll P ls).isSome → Format P ls

/-- A parser that knows only the text 1. -/
def one : Parser := ⟨fun s => if s = ['1'] then some 1 else none, fun s => if s = ['1'] then some 1 else none⟩

/-- A single number is taken as both coordinates. -/
theorem C188_counterexample : ¬ C188_claim := by
  intro h
  have hr : readAll one ["\"a\",\"1\",1".toList, "1".toList] = some [⟨[(1, 1)], .point, ['a'], ['1']⟩] := by
    rw [readAll, if_neg (by decide), show header one "\"a\",\"1\",1".toList = some ⟨['a'], ['1'], .point, 1⟩ by decide]
    simp only
    rw [show readPts one 1 ["1".toList] = some [(1, 1)] by decide +kernel]
    simp only
    rw [show ["1".toList].drop 1 = [] from rfl, readAll]
    rfl
  have := h one ["\"a\",\"1\",1".toList, "1".toList] (by rw [hr]; rfl)
  generalize hg : ["\"a\",\"1\",1".toList, "1".toList] = g at this
  cases this with
  | nil => simp at hg
  | blank l ls h1 h2 =>
    simp only [List.cons.injEq] at hg
    rw [← hg.1] at h1
    have := h1 '"' (by decide)
    revert this; decide
  | record name sname num n body ls h1 h2 h3 h4 h5 =>
    simp only [List.cons_append, List.cons.injEq] at hg
    cases body with
    | nil => simp at h3; omega
    | cons b body =>
      have hb := hg.2
      simp only [List.cons_append, List.cons.injEq] at hb
      obtain ⟨x, y, hxy, _⟩ := h4 b List.mem_cons_self
      have hm : ',' ∈ "1".toList := by rw [hb.1, hxy]; simp
      revert hm; decide

/-- Without a comma the first digit of the number is dropped: 31 is read as 1. -/
theorem C188_counterexample_header : header one "\"a\",\"1\"31".toList = some ⟨['a'], ['1'], .point, 1⟩ := by decide

/-- What is accepted: headers with at least four quotes, and a number that is not zero behind the fourth and one more
character, so many lines of one or two numbers. -/
inductive Loose (P : Parser) : List Txt → Prop
  | nil : Loose P []
  | blank (l : Txt) (ls : List Txt) : (∀ c ∈ l, isSp c = true) → Loose P ls → Loose P (l :: ls)
  | record (a name b sname f rest : Txt) (n : Int) (body ls : List Txt) : '"' ∉ name → '"' ∉ sname → '"' ∉ f →
      rest = [] ∨ rest.head? = some '"' → P.int ((strip f).drop 1) = some n → n ≠ 0 → body.length = n.natAbs →
      (∀ b ∈ body, (P.flt b).isSome ∨ ∃ x y, b = x ++ ',' :: y ∧ (P.flt x).isSome ∧ (P.flt y).isSome) → Loose P ls →
      Loose P ((a ++ '"' :: name ++ '"' :: b ++ '"' :: sname ++ '"' :: f ++ rest) :: body ++ ls)

theorem coord_inv (P : Parser) (l : Txt) (p : Pt) (h : coord P l = some p) :
    (P.flt l).isSome ∨ ∃ x y, l = x ++ ',' :: y ∧ (P.flt x).isSome ∧ (P.flt y).isSome := by
  unfold coord at h
  cases hs : splitOn ',' l with
  | nil => exact absurd hs (splitOn_ne _ _)
  | cons x r =>
    obtain ⟨_, hx⟩ := splitOn_inv _ _ _ _ hs
    cases r with
    | nil =>
      rcases hx with ⟨_, rfl⟩ | ⟨t, _, ht⟩
      · rw [hs] at h
        simp only [List.mapM_cons, List.mapM_nil] at h
        cases hf : P.flt l with
        | none => rw [hf] at h; simp at h
        | some q => exact Or.inl rfl
      · exact absurd ht (splitOn_ne _ _)
    | cons y r =>
      rcases hx with ⟨hx, _⟩ | ⟨t, rfl, ht⟩
      · simp at hx
      · obtain ⟨_, hy⟩ := splitOn_inv _ _ _ _ ht
        rw [hs] at h
        simp only [List.mapM_cons] at h
        cases hf : P.flt x with
        | none => rw [hf] at h; simp at h
        | some q =>
          cases hg : P.flt y with
          | none => rw [hf, hg] at h; simp at h
          | some q' =>
            cases r with
            | nil =>
              rcases hy with ⟨_, rfl⟩ | ⟨t', _, ht'⟩
              · exact Or.inr ⟨x, t, rfl, by rw [hf]; rfl, by rw [hg]; rfl⟩
              · exact absurd ht' (splitOn_ne _ _)
            | cons z r =>
              rw [hf, hg] at h
              cases hz : P.flt z with
              | none => simp [List.mapM_cons, hz] at h
              | some q'' =>
                cases hm : r.mapM P.flt with
                | none => simp [List.mapM_cons, hz, hm] at h
                | some m => simp [List.mapM_cons, hz, hm] at h

theorem header_inv (P : Parser) (l : Txt) (hd : Header) (h : header P l = some hd) :
    ∃ a b f rest, ∃ n : Int, l = a ++ '"' :: hd.name ++ '"' :: b ++ '"' :: hd.sname ++ '"' :: f ++ rest ∧ '"' ∉ hd.name ∧
      '"' ∉ hd.sname ∧ '"' ∉ f ∧ (rest = [] ∨ rest.head? = some '"') ∧ P.int ((strip f).drop 1) = some n ∧ n ≠ 0 ∧
      hd.num = n.natAbs := by
  unfold header at h
  split at h
  · rename_i a name b sname f r hs
    obtain ⟨_, h1⟩ := splitOn_inv _ _ _ _ hs
    rcases h1 with ⟨h1, _⟩ | ⟨t1, rfl, h1⟩
    · simp at h1
    obtain ⟨hn, h2⟩ := splitOn_inv _ _ _ _ h1
    rcases h2 with ⟨h2, _⟩ | ⟨t2, rfl, h2⟩
    · simp at h2
    obtain ⟨_, h3⟩ := splitOn_inv _ _ _ _ h2
    rcases h3 with ⟨h3, _⟩ | ⟨t3, rfl, h3⟩
    · simp at h3
    obtain ⟨hsn, h4⟩ := splitOn_inv _ _ _ _ h3
    rcases h4 with ⟨h4, _⟩ | ⟨t4, rfl, h4⟩
    · simp at h4
    obtain ⟨hf, h5⟩ := splitOn_inv _ _ _ _ h4
    have hrest : ∃ rest, t4 = f ++ rest ∧ (rest = [] ∨ rest.head? = some '"') := by
      rcases h5 with ⟨_, rfl⟩ | ⟨t5, rfl, _⟩
      · exact ⟨[], by simp, Or.inl rfl⟩
      · exact ⟨'"' :: t5, rfl, Or.inr rfl⟩
    obtain ⟨rest, rfl, hr⟩ := hrest
    cases hi : P.int ((strip f).drop 1) with
    | none => rw [hi] at h; simp at h
    | some n =>
      rw [hi] at h
      simp only [Option.map_eq_some_iff] at h
      obtain ⟨k, hk, rfl⟩ := h
      have hk' : n ≠ 0 ∧ k.2 = n.natAbs := by
        unfold kindOf at hk
        split at hk
        · simp only [Option.some.injEq] at hk; subst hk; exact ⟨by omega, rfl⟩
        · split at hk
          · rename_i hn1; simp only [Option.some.injEq] at hk; subst hk; subst hn1; exact ⟨by omega, rfl⟩
          · split at hk
            · simp only [Option.some.injEq] at hk; subst hk; exact ⟨by omega, rfl⟩
            · simp at hk
      exact ⟨a, b, f, rest, n, by simp, hn, hsn, hf, hr, hi, hk'.1, hk'.2⟩
  · simp at h

theorem mapM_coord (P : Parser) (body : List Txt) (pts : List Pt) (h : body.mapM (coord P) = some pts) (b : Txt)
    (hb : b ∈ body) : (coord P b).isSome := by
  induction body generalizing pts with
  | nil => simp at hb
  | cons x body ih =>
    simp only [List.mapM_cons, Option.bind_eq_bind, Option.bind_eq_some_iff] at h
    obtain ⟨p, hp, ps, hps, _⟩ := h
    rcases List.mem_cons.mp hb with rfl | hb
    · rw [hp]; rfl
    · exact ih ps hps hb

theorem strip_nil (l : Txt) (h : strip l = []) : ∀ c ∈ l, isSp c = true := by
  unfold strip at h
  rw [List.reverse_eq_nil_iff, List.dropWhile_eq_nil_iff] at h
  intro c hc
  by_contra hn
  have hd : ∀ l : Txt, c ∈ l → c ∈ l.dropWhile isSp := by
    intro l hl
    have := List.takeWhile_append_dropWhile (p := isSp) (l := l)
    rw [← this, List.mem_append] at hl
    rcases hl with hl | hl
    · exact absurd (List.mem_takeWhile_imp hl) hn
    · exact hl
  exact hn (h c (List.mem_reverse.mpr (hd l hc)))

/-- **C188** up to what follows the second name, and lines with a single number. -/
theorem C188_partial (P : Parser) (ls : List Txt) (h : (readAll P ls).isSome) : Loose P ls := by
  induction hn : ls.length using Nat.strong_induction_on generalizing ls with
  | _ k ih =>
    cases ls with
    | nil => exact .nil
    | cons l ls =>
      rw [readAll] at h
      split at h
      · rename_i hs
        exact .blank l ls (strip_nil l hs) (ih ls.length (by rw [← hn]; simp) ls h rfl)
      · cases hh : header P l with
        | none => rw [hh] at h; simp at h
        | some hd =>
          rw [hh] at h
          simp only at h
          cases hp : readPts P hd.num ls with
          | none => rw [hp] at h; simp at h
          | some pts =>
            rw [hp] at h
            simp only [Option.isSome_map] at h
            obtain ⟨a, b, f, rest, n, rfl, h1, h2, h3, h4, h5, h6, h7⟩ := header_inv P l hd hh
            unfold readPts at hp
            split at hp
            · simp at hp
            · rename_i hlen
              have hrec := Loose.record (P := P) a hd.name b hd.sname f rest n (ls.take hd.num) (ls.drop hd.num) h1 h2 h3 h4 h5 h6
                (by rw [List.length_take]; omega)
                (by
                  intro x hx
                  obtain ⟨p, hc⟩ := Option.isSome_iff_exists.mp (mapM_coord P _ pts hp x hx)
                  exact coord_inv P x p hc)
                (ih (ls.drop hd.num).length (by rw [← hn, List.length_drop, List.length_cons]; omega) _ h rfl)
              rw [List.cons_append, List.take_append_drop] at hrec
              exact hrec

example : ∃ ls, (readAll one ls).isSome ∧ ls ≠ [] := ⟨[[' ']], by rw [readAll, if_pos (by decide), readAll]; decide⟩

end Verif.Bna
