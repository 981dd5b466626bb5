import Verif.Output.StampModel
import Mathlib.Data.List.Induction
/-!
# C321: The time stamp of images looks as its attributes say

Spec: the attributes that the documentation of `set_timestamp_attrib` names, each with its kind of value; what was set last holds.
-/
namespace Verif.Output.Stamp

/-- The names and kinds of the documentation. -/
inductive Documented : String × Val → Prop
  | on (b) : Documented ("on", .bool b)
  | dtFormat (s) : Documented ("dt_format", .txt s)
  | background (s) : Documented ("background", .txt s)
  | color (s) : Documented ("color", .txt s)
  | size (s) : Documented ("size", .txt s)
  | position (x y) : Documented ("position", .pos x y)
  | align (s) : Documented ("align", .txt s)

/-- All that was ever set, in order. -/
def history (kw : List (String × Val)) (calls : List (List (String × Val))) : List (String × Val) := kw ++ calls.flatten

/-- The value that was set last. -/
def Last (hist : List (String × Val)) (k : String) (v : Option Val) : Prop :=
  match v with
  | some v => ∃ a b, hist = a ++ (k, v) :: b ∧ ∀ e ∈ b, e.1 ≠ k
  | none => ∀ e ∈ hist, e.1 ≠ k

/-- A text is the last that was set, or the default. -/
def TextIs (hist : List (String × Val)) (k dflt s : String) : Prop := Last hist k (some (.txt s)) ∨ (Last hist k none ∧ s = dflt)

/-- The look of a stamp goes by these names for format and alignment. -/
def Looks (fmt aln : String) (hist : List (String × Val)) (w h : ℚ) (r : Option Drawn) : Prop :=
  (Last hist "on" (some (.bool false)) → r = none) ∧
  (¬ Last hist "on" (some (.bool false)) → ∃ d, r = some d ∧ TextIs hist fmt "%c" d.format ∧ TextIs hist "background" "white" d.background ∧
    TextIs hist "color" "black" d.color ∧ TextIs hist "size" "small" d.size ∧ TextIs hist aln "cb" d.align ∧
    (Last hist "position" (some (.pos d.place.1 d.place.2)) ∨ (Last hist "position" none ∧ d.place = (w / 2, h))))

/-- The claim: whatever documented attributes are set, the stamp looks like it. -/
def C321_claim : Prop := ∀ (kw : List (String × Val)) (calls : List (List (String × Val))) (w h : ℚ), (∀ e ∈ history kw calls, Documented e) →
  Looks "dt_format" "align" (history kw calls) w h (drawn (attribs kw calls) w h)

/-- C321, false: the format and the alignment that are documented have no effect at all. -/
theorem C321_counterexample : ¬ C321_claim := by
  intro hc
  have h := (hc [("dt_format", .txt "%H:%M")] [] 800 600 (by
    intro e he
    simp only [history, List.flatten_nil, List.append_nil, List.mem_singleton] at he
    subst he
    exact .dtFormat _)).2 (by
      rintro ⟨a, b, he, -⟩
      simp only [history, List.flatten_nil, List.append_nil] at he
      cases a with
      | nil => simp at he
      | cons x a => simp at he)
  obtain ⟨d, hd, hf, -⟩ := h
  have e : drawn (attribs [("dt_format", .txt "%H:%M")] []) 800 600 = some ⟨"%c", "white", "black", "small", (400, 600), "cb"⟩ := by decide +kernel
  rw [e] at hd
  cases hd
  rcases hf with ⟨a, b, he, -⟩ | ⟨hn, -⟩
  · simp only [history, List.flatten_nil, List.append_nil] at he
    cases a with
    | nil => simp at he
    | cons x a => simp at he
  · exact hn ("dt_format", .txt "%H:%M") (by simp [history]) rfl

theorem attribs_eq (kw : List (String × Val)) (calls : List (List (String × Val))) : attribs kw calls = (history kw calls).reverse := by
  unfold attribs history
  suffices ∀ d : Dict, calls.foldl set d = calls.flatten.reverse ++ d by
    rw [this]; simp [set]
  induction calls with
  | nil => intro d; rfl
  | cons c cs ih => intro d; rw [List.foldl_cons, ih]; simp [set]

theorem get_last (hist : List (String × Val)) (k : String) : Last hist k (Dict.get hist.reverse k) := by
  induction hist using List.reverseRecOn with
  | nil => intro e he; cases he
  | append_singleton l e ih =>
    rw [List.reverse_append, List.reverse_singleton, List.singleton_append]
    unfold Dict.get at ih ⊢
    by_cases h : e.1 = k
    · rw [List.find?_cons_of_pos (by simpa using h)]
      exact ⟨l, [], by rw [← h], by simp⟩
    · rw [List.find?_cons_of_neg (by simpa using h)]
      cases hv : (List.find? (fun x : String × Val => decide (x.1 = k)) l.reverse).map (·.2) with
      | none =>
        rw [hv] at ih
        intro x hx
        rcases List.mem_append.1 hx with hx | hx
        · exact ih x hx
        · rw [List.mem_singleton] at hx; rw [hx]; exact h
      | some v =>
        rw [hv] at ih
        obtain ⟨a, b, e1, e2⟩ := ih
        refine ⟨a, b ++ [e], by rw [e1]; simp, ?_⟩
        intro x hx
        rcases List.mem_append.1 hx with hx | hx
        · exact e2 x hx
        · rw [List.mem_singleton] at hx; rw [hx]; exact h

theorem last_unique (hist : List (String × Val)) (k : String) (u v : Option Val) (hu : Last hist k u) (hv : Last hist k v) : u = v := by
  have key : ∀ w, Last hist k w → Dict.get hist.reverse k = w := by
    intro w hw
    cases w with
    | none =>
      unfold Dict.get
      rw [List.find?_eq_none.2 (fun x hx => by simpa using hw x (List.mem_reverse.1 hx))]
      rfl
    | some w =>
      obtain ⟨a, b, e, hb⟩ := hw
      unfold Dict.get
      rw [e, List.reverse_append, List.reverse_cons, List.append_assoc, List.find?_append, List.find?_eq_none.2 (fun x hx => by simpa using hb x (List.mem_reverse.1 hx))]
      simp
  rw [← key u hu, ← key v hv]

/-- The kind of value that a name must have. -/
def Kinded (e : String × Val) : Prop :=
  (e.1 = "on" → ∃ b, e.2 = .bool b) ∧ (e.1 = "position" → ∃ x y, e.2 = .pos x y) ∧
  (e.1 = "format" ∨ e.1 = "background" ∨ e.1 = "color" ∨ e.1 = "size" ∨ e.1 = "alignment" → ∃ s, e.2 = .txt s)

theorem documented_kinded (e : String × Val) (h : Documented e) : Kinded e := by
  cases h <;> refine ⟨?_, ?_, ?_⟩ <;> simp

theorem last_mem (hist : List (String × Val)) (k : String) (v : Val) (h : Last hist k (some v)) : (k, v) ∈ hist := by
  obtain ⟨a, b, e, -⟩ := h
  rw [e]; simp

theorem text_is (hist : List (String × Val)) (k dflt : String) (hk : ∀ e ∈ hist, e.1 = k → ∃ s, e.2 = .txt s) :
    ∃ s, text hist.reverse k dflt = some s ∧ TextIs hist k dflt s := by
  have := get_last hist k
  unfold text
  cases hv : Dict.get hist.reverse k with
  | none => rw [hv] at this; exact ⟨dflt, rfl, Or.inr ⟨this, rfl⟩⟩
  | some v =>
    rw [hv] at this
    obtain ⟨s, hs⟩ := hk _ (last_mem hist k v this) rfl
    simp only at hs
    subst hs
    exact ⟨s, rfl, Or.inl this⟩

theorem place_is (hist : List (String × Val)) (w h : ℚ) (hk : ∀ e ∈ hist, e.1 = "position" → ∃ x y, e.2 = .pos x y) :
    ∃ p, place hist.reverse w h = some p ∧ (Last hist "position" (some (.pos p.1 p.2)) ∨ (Last hist "position" none ∧ p = (w / 2, h))) := by
  have := get_last hist "position"
  unfold place
  cases hv : Dict.get hist.reverse "position" with
  | none => rw [hv] at this; exact ⟨_, rfl, Or.inr ⟨this, rfl⟩⟩
  | some v =>
    rw [hv] at this
    obtain ⟨x, y, hs⟩ := hk _ (last_mem hist _ v this) rfl
    simp only at hs
    subst hs
    exact ⟨(x, y), rfl, Or.inl this⟩

/-- With the names `format` and `alignment`, which are not documented, the stamp looks as its attributes say. -/
theorem C321_names (kw : List (String × Val)) (calls : List (List (String × Val))) (w h : ℚ) (hk : ∀ e ∈ history kw calls, Kinded e) :
    Looks "format" "alignment" (history kw calls) w h (drawn (attribs kw calls) w h) := by
  rw [attribs_eq]
  generalize history kw calls = hist at hk ⊢
  have hon := get_last hist "on"
  have hb : isOn hist.reverse = true ↔ ¬ Last hist "on" (some (.bool false)) := by
    unfold isOn
    cases hv : Dict.get hist.reverse "on" with
    | none =>
      rw [hv] at hon
      exact ⟨fun _ hl => absurd (last_unique hist "on" _ _ hon hl) (by simp), fun _ => rfl⟩
    | some v =>
      rw [hv] at hon
      obtain ⟨b, hs⟩ := (hk _ (last_mem hist "on" v hon)).1 rfl
      simp only at hs
      subst hs
      constructor
      · intro e hl
        simp only at e
        subst e
        exact absurd (last_unique hist "on" _ _ hon hl) (by simp)
      · intro e
        cases b with
        | true => rfl
        | false => exact absurd hon e
  unfold drawn
  constructor
  · intro hl
    have : isOn hist.reverse = false := by
      cases hx : isOn hist.reverse with
      | false => rfl
      | true => exact absurd hl (hb.1 hx)
    simp [this]
  · intro hl
    rw [if_pos (hb.2 hl)]
    obtain ⟨f, hf, hf'⟩ := text_is hist "format" "%c" fun e he hn => (hk e he).2.2 (Or.inl hn)
    obtain ⟨b, hb, hb'⟩ := text_is hist "background" "white" fun e he hn => (hk e he).2.2 (Or.inr (Or.inl hn))
    obtain ⟨c, hc, hc'⟩ := text_is hist "color" "black" fun e he hn => (hk e he).2.2 (Or.inr (Or.inr (Or.inl hn)))
    obtain ⟨s, hs, hs'⟩ := text_is hist "size" "small" fun e he hn => (hk e he).2.2 (Or.inr (Or.inr (Or.inr (Or.inl hn))))
    obtain ⟨a, ha, ha'⟩ := text_is hist "alignment" "cb" fun e he hn => (hk e he).2.2 (Or.inr (Or.inr (Or.inr (Or.inr hn))))
    obtain ⟨p, hp, hp'⟩ := place_is hist w h fun e he hn => (hk e he).2.1 hn
    rw [hf, hb, hc, hs, hp, ha]
    exact ⟨_, rfl, hf', hb', hc', hs', ha', hp'⟩

/-- C321, if neither `dt_format` nor `align` is set. -/
theorem C321_partial (kw : List (String × Val)) (calls : List (List (String × Val))) (w h : ℚ) (hd : ∀ e ∈ history kw calls, Documented e)
    (hn : ∀ e ∈ history kw calls, e.1 ≠ "dt_format" ∧ e.1 ≠ "align") :
    Looks "dt_format" "align" (history kw calls) w h (drawn (attribs kw calls) w h) := by
  have := C321_names kw calls w h fun e he => documented_kinded e (hd e he)
  refine ⟨this.1, fun ho => ?_⟩
  obtain ⟨d, h1, h2, h3, h4, h5, h6, h7⟩ := this.2 ho
  refine ⟨d, h1, ?_, h3, h4, h5, ?_, h7⟩
  · rcases h2 with h2 | h2
    · have := hd _ (last_mem _ _ _ h2)
      generalize hx : (("format", Val.txt d.format) : String × Val) = x at this
      cases this <;> simp at hx
    · exact Or.inr ⟨fun e he => (hn e he).1, h2.2⟩
  · rcases h6 with h2 | h2
    · have := hd _ (last_mem _ _ _ h2)
      generalize hx : (("alignment", Val.txt d.align) : String × Val) = x at this
      cases this <;> simp at hx
    · exact Or.inr ⟨fun e he => (hn e he).2, h2.2⟩

/-- Format and alignment set by their documented names have no effect. -/
theorem C321_ignored (kw : List (String × Val)) (calls : List (List (String × Val))) (w h : ℚ) (s : String) (k : String) (hk : k = "dt_format" ∨ k = "align") :
    drawn (attribs kw (calls ++ [[(k, .txt s)]])) w h = drawn (attribs kw calls) w h := by
  have e : attribs kw (calls ++ [[(k, .txt s)]]) = (k, .txt s) :: attribs kw calls := by
    simp [attribs, set]
  have g : ∀ n : String, n ≠ k → Dict.get ((k, .txt s) :: attribs kw calls) n = Dict.get (attribs kw calls) n := by
    intro n hn
    unfold Dict.get
    rw [List.find?_cons_of_neg (by simpa using hn.symm)]
  rw [e]
  unfold drawn isOn text place
  rcases hk with rfl | rfl <;>
    rw [g "on" (by decide), g "format" (by decide), g "background" (by decide), g "color" (by decide), g "size" (by decide), g "position" (by decide), g "alignment" (by decide)]

example : drawn (attribs [("size", .txt "medium")] [[("color", .txt "red")], [("on", .bool false)], [("on", .bool true)]]) 800 600 =
    some ⟨"%c", "white", "red", "medium", (400, 600), "cb"⟩ := by decide +kernel

end Verif.Output.Stamp
