import Verif.Output.RenderModel
import Verif.Cache.Lemmas
import Mathlib.Data.Nat.Digits.Lemmas
import Mathlib.Data.List.Basic
import Mathlib.Tactic.Tauto

/-!
# C208, C209: images of a run
-/
namespace Verif.Output.Render
open Verif.Cache (decimal padLeft)

/-! ## Specification -/

/-- the file of step `n` in format `f`: `foreground_` and the number in at least five figures -/
def image (c : Cfg) (n : Nat) (f : Name) : Path :=
  ⟨c.dir.abs, c.dir.parts ++ [foreground ++ padLeft 5 (decimal n) ++ '.' :: f]⟩

/-- the file of the background in format `f` -/
def background (c : Cfg) (f : Name) : Path := ⟨c.dir.abs, c.dir.parts ++ [backgroundMap ++ f]⟩

/-- **C208 in full**: a run leaves an image of each step written in each of the image formats; the name handed back is that of a file; no image of
another step is left; and every file that is no image, background or animation is kept. -/
def C208_claim : Prop := ∀ (c : Cfg) (fs : Files) (ns : List Nat),
  (∀ n ∈ ns, ∀ f ∈ c.formats, f ≠ gif → image c n f ∈ run c fs ns) ∧
  (∀ fs n, inDir c.dir (write c n fs).2 ∈ (write c n fs).1) ∧
  (∀ n f, image c n f ∈ run c fs ns → n ∈ ns) ∧
  (∀ p ∈ fs, (∀ n f, p ≠ image c n f) → (∀ f, p ≠ background c f) → p ≠ anim c → p ∈ run c fs ns)

/-! ## Lemmas -/

theorem inDir_eq (d : Path) (n : Name) : inDir d n = ⟨d.abs, d.parts ++ [n]⟩ := by simp [inDir, join]

theorem mem_put (p q : Path) (fs : Files) : p ∈ put q fs ↔ p = q ∨ p ∈ fs := by
  unfold put
  split_ifs with h
  · exact ⟨Or.inr, fun h' => h'.elim (fun e => e ▸ h) id⟩
  · simp only [List.mem_append, List.mem_singleton]; exact or_comm

theorem foldl_skip {σ : Type} (g : σ → Name → σ) (l : List Name) (s : σ) :
    l.foldl (fun s f => if f = gif then s else g s f) s = (l.filter fun f => f ≠ gif).foldl g s := by
  induction l generalizing s with
  | nil => rfl
  | cons a l ih =>
    by_cases h : a = gif
    · simp [h, ih]
    · simp [h, ih]

theorem write_eq (c : Cfg) (n : Nat) (fs : Files) : write c n fs =
    (c.formats.filter fun f => f ≠ gif).foldl (fun s f => (put (inDir c.dir (s.2 ++ f)) s.1, s.2 ++ f)) (fs, foreName n) := by
  unfold write
  exact foldl_skip (fun (s : Files × Name) f => (put (inDir c.dir (s.2 ++ f)) s.1, s.2 ++ f)) _ _

theorem grow (c : Cfg) (l : List Name) (s : Files × Name) : ∀ p ∈ s.1,
    p ∈ (l.foldl (fun s f => (put (inDir c.dir (s.2 ++ f)) s.1, s.2 ++ f)) s).1 := by
  induction l generalizing s with
  | nil => intro p hp; exact hp
  | cons a l ih =>
    intro p hp
    exact ih _ p ((mem_put _ _ _).mpr (Or.inr hp))

theorem mem_write_one (c : Cfg) (f : Name) (hf : (c.formats.filter fun f => f ≠ gif) = [f]) (n : Nat) (fs : Files) (p : Path) :
    p ∈ (write c n fs).1 ↔ p = image c n f ∨ p ∈ fs := by
  rw [write_eq, hf]
  simp only [List.foldl_cons, List.foldl_nil, mem_put, inDir_eq, image, foreName]
  simp

theorem mem_prepare (c : Cfg) (fs : Files) (p : Path) : p ∈ prepare c fs ↔
    (p ∈ fs ∧ cleaned c p = false) ∨ (gif ∈ c.formats ∧ p = anim c) ∨ ∃ f ∈ c.formats, f ≠ gif ∧ p = background c f := by
  unfold prepare
  have key : ∀ (l : List Name) (s : Files),
      p ∈ l.foldl (fun fs f => if f = gif then put (anim c) fs else put (inDir c.dir (backgroundMap ++ f)) fs) s ↔
      p ∈ s ∨ (gif ∈ l ∧ p = anim c) ∨ ∃ f ∈ l, f ≠ gif ∧ p = background c f := by
    intro l
    induction l with
    | nil => intro s; simp
    | cons a l ih =>
      intro s
      rw [List.foldl_cons, ih]
      by_cases h : a = gif
      · rw [if_pos h, mem_put]
        subst h
        constructor
        · rintro ((h | h) | ⟨h, h'⟩ | ⟨f, h1, h2, h3⟩)
          · exact Or.inr (Or.inl ⟨by simp, h⟩)
          · exact Or.inl h
          · exact Or.inr (Or.inl ⟨by simp, h'⟩)
          · exact Or.inr (Or.inr ⟨f, by simp [h1], h2, h3⟩)
        · rintro (h | ⟨_, h'⟩ | ⟨f, h1, h2, h3⟩)
          · exact Or.inl (Or.inr h)
          · exact Or.inl (Or.inl h')
          · rcases List.mem_cons.mp h1 with h1 | h1
            · exact absurd h1 h2
            · exact Or.inr (Or.inr ⟨f, h1, h2, h3⟩)
      · rw [if_neg h, mem_put, inDir_eq]
        constructor
        · rintro ((h' | h') | ⟨h1, h'⟩ | ⟨f, h1, h2, h3⟩)
          · exact Or.inr (Or.inr ⟨a, by simp, h, h'⟩)
          · exact Or.inl h'
          · exact Or.inr (Or.inl ⟨by simp [h1], h'⟩)
          · exact Or.inr (Or.inr ⟨f, by simp [h1], h2, h3⟩)
        · rintro (h' | ⟨h1, h'⟩ | ⟨f, h1, h2, h3⟩)
          · exact Or.inl (Or.inr h')
          · rcases List.mem_cons.mp h1 with h1 | h1
            · exact absurd h1.symm h
            · exact Or.inr (Or.inl ⟨h1, h'⟩)
          · rcases List.mem_cons.mp h1 with h1 | h1
            · subst h1; exact Or.inl (Or.inl h3)
            · exact Or.inr (Or.inr ⟨f, h1, h2, h3⟩)
  rw [key]
  simp [List.mem_filter]

theorem mem_steps_one (c : Cfg) (f : Name) (hf : (c.formats.filter fun f => f ≠ gif) = [f]) (ns : List Nat) (fs : Files) (p : Path) :
    p ∈ ns.foldl (fun fs n => (write c n fs).1) fs ↔ p ∈ fs ∨ ∃ n ∈ ns, p = image c n f := by
  induction ns generalizing fs with
  | nil => simp
  | cons n ns ih =>
    rw [List.foldl_cons, ih, mem_write_one c f hf]
    simp only [List.mem_cons, exists_eq_or_imp]
    tauto

theorem image_inj {c : Cfg} {n m : Nat} {f g : Name} (h : image c n f = image c m g) : n = m ∧ f = g := by
  simp only [image, Path.mk.injEq, true_and, List.append_assoc] at h
  have h1 := List.append_cancel_left h
  rw [List.cons.injEq] at h1
  have h2 := List.append_cancel_left h1.1
  have hd : ¬ Verif.Cache.NumChar '.' := by unfold Verif.Cache.NumChar; decide
  obtain ⟨h3, h4⟩ := Verif.Cache.append_split (fun ch hc => (Verif.Cache.pad_chars 5 n ch hc).1) (fun ch hc => (Verif.Cache.pad_chars 5 m ch hc).1) hd hd h2
  have := congrArg Verif.Cache.val h3
  rw [Verif.Cache.val_pad, Verif.Cache.val_pad, Verif.Cache.val_decimal, Verif.Cache.val_decimal] at this
  injection h4 with _ h4
  exact ⟨this, h4⟩

theorem pad_length {n : Nat} (h : n < 100000) : (padLeft 5 (decimal n)).length = 5 := by
  have : (decimal n).length ≤ 5 := by
    unfold decimal
    rw [List.length_map, List.length_reverse]
    exact (Nat.digits_length_le_iff (by norm_num) n).mpr (by norm_num; exact h)
  unfold padLeft
  rw [List.length_append, List.length_replicate]
  omega

/-- images of the first 100000 steps are removed, whatever their format -/
theorem cleaned_image (c : Cfg) {n : Nat} (h : n < 100000) (f : Name) : cleaned c (image c n f) = true := by
  have hl := pad_length h
  have hg : foreGlob (foreground ++ padLeft 5 (decimal n) ++ '.' :: f) = true := by
    unfold foreGlob
    have h11 : foreground.length = 11 := rfl
    rw [List.append_assoc, List.take_left' h11, ← List.append_assoc,
      List.drop_left' (by rw [List.length_append, h11, hl])]
    simp
  rw [List.append_assoc] at hg
  unfold cleaned image
  simp [hg]

theorem background_ne_image (c : Cfg) (n : Nat) (f g : Name) : background c g ≠ image c n f := by
  intro h
  simp only [background, image, Path.mk.injEq, true_and] at h
  have h1 := List.append_cancel_left h
  simp [backgroundMap, foreground] at h1

/-- without a map file the animation is no image -/
theorem anim_ne_image (c : Cfg) (hpre : c.mapPrefix = []) (n : Nat) (g : Name) : anim c ≠ image c n g := by
  intro h
  rw [anim, inDir_eq, hpre] at h
  simp only [image, Path.mk.injEq, true_and] at h
  have h1 := List.append_cancel_left h
  simp [animGif, foreground] at h1

/-! ## C208 -/

/-- **C208 (partial)**: with one image format, beside any animation, the files of a run are exactly: what was in the folder and is not cleared away, the background, the
animation, and one image of each step written; the name handed back is that of a file; and no image of any of the first 100000 steps of an earlier run is left.
Missing for the full claim: more formats, no image format, later steps, files whose names look like images (`C208_counterexample`, `…_gif`, `…_late`, `…_own`). -/
theorem C208_partial (c : Cfg) (f : Name) (hf : (c.formats.filter fun f => f ≠ gif) = [f]) (fs : Files) (ns : List Nat) :
    (∀ p, p ∈ run c fs ns ↔ (p ∈ fs ∧ cleaned c p = false) ∨ (gif ∈ c.formats ∧ p = anim c) ∨ p = background c f ∨ ∃ n ∈ ns, p = image c n f) ∧
    (∀ n fs, inDir c.dir (write c n fs).2 = image c n f ∧ image c n f ∈ (write c n fs).1) ∧
    (∀ n < 100000, ∀ g, anim c ≠ image c n g → image c n g ∈ run c fs ns → n ∈ ns ∧ g = f) := by
  have hfm : f ∈ c.formats ∧ f ≠ gif := by
    have : f ∈ (c.formats.filter fun f => f ≠ gif) := by rw [hf]; simp
    simpa [List.mem_filter] using this
  have huniq : ∀ g ∈ c.formats, g ≠ gif → g = f := by
    intro g h1 h2
    have : g ∈ (c.formats.filter fun f => f ≠ gif) := by simp [List.mem_filter, h1, h2]
    rw [hf] at this
    simpa using this
  have hmem : ∀ p, p ∈ run c fs ns ↔ (p ∈ fs ∧ cleaned c p = false) ∨ (gif ∈ c.formats ∧ p = anim c) ∨ p = background c f ∨ ∃ n ∈ ns, p = image c n f := by
    intro p
    unfold run
    rw [mem_steps_one c f hf, mem_prepare]
    have : (∃ g ∈ c.formats, g ≠ gif ∧ p = background c g) ↔ p = background c f := by
      constructor
      · rintro ⟨g, h1, h2, h3⟩; rw [h3, huniq g h1 h2]
      · intro h; exact ⟨f, hfm.1, hfm.2, h⟩
    rw [this]
    tauto
  refine ⟨hmem, ?_, ?_⟩
  · intro n fs
    refine ⟨?_, (mem_write_one c f hf n fs _).mpr (Or.inl rfl)⟩
    rw [write_eq, hf]
    simp [inDir_eq, image, foreName]
  · intro n hn g hne h
    rcases (hmem _).mp h with ⟨_, h⟩ | ⟨_, h⟩ | h | ⟨m, hm, h⟩
    · rw [cleaned_image c hn g] at h; exact absurd h (by decide)
    · exact absurd h.symm hne
    · exact absurd h.symm (background_ne_image c n g f)
    · obtain ⟨h1, h2⟩ := image_inj h
      exact ⟨h1 ▸ hm, h2⟩

/-- **C208, formats**: with any formats, the first of the image formats has its image of each step written. -/
theorem C208_first (c : Cfg) (f : Name) (rest : List Name) (hf : (c.formats.filter fun f => f ≠ gif) = f :: rest) (fs : Files) (ns : List Nat) :
    ∀ n ∈ ns, image c n f ∈ run c fs ns := by
  have keep : ∀ (n : Nat) (fs : Files), ∀ p ∈ fs, p ∈ (write c n fs).1 := by
    intro n fs p hp
    rw [write_eq]
    exact grow c _ (fs, foreName n) p hp
  have new : ∀ (n : Nat) (fs : Files), image c n f ∈ (write c n fs).1 := by
    intro n fs
    rw [write_eq, hf, List.foldl_cons]
    apply grow
    rw [mem_put, inDir_eq]
    left
    simp [image, foreName]
  have keeps : ∀ (ns : List Nat) (fs : Files), ∀ p ∈ fs, p ∈ ns.foldl (fun fs n => (write c n fs).1) fs := by
    intro ns
    induction ns with
    | nil => intro fs p hp; exact hp
    | cons n ns ih => intro fs p hp; exact ih _ p (keep n fs p hp)
  have all : ∀ (ns : List Nat) (fs : Files), ∀ n ∈ ns, image c n f ∈ ns.foldl (fun fs n => (write c n fs).1) fs := by
    intro ns
    induction ns with
    | nil => intro fs n hn; exact absurd hn (by simp)
    | cons m ns ih =>
      intro fs n hn
      rcases List.mem_cons.mp hn with h | h
      · subst h; exact keeps ns _ _ (new n fs)
      · exact ih _ n h
  exact all ns _

def png : Name := ['p', 'n', 'g']
def bmp : Name := ['b', 'm', 'p']
def folder : Path := ⟨false, [['o', 'u', 't']]⟩

/-- the default formats -/
example : ((Cfg.mk folder [] [png, gif]).formats.filter fun f => f ≠ gif) = [png] := by decide

/-- the animation of an earlier run is cleared away in a folder given by its full path, or in the present one -/
theorem C208_anim (c : Cfg) (hpre : c.mapPrefix = []) :
    cleaned c (anim c) = true ↔ c.dir.abs = true ∨ c.dir.parts = [] := by
  have h1 : starts (inDir c.dir backgroundMap) (anim c) = false := by
    simp [starts, anim, inDir_eq, hpre, backgroundMap, animGif]
    decide
  have h2 : foreGlob animGif = false := by decide
  have h3 : anim c = ⟨c.dir.abs, c.dir.parts ++ [animGif]⟩ := by simp [anim, inDir_eq, hpre]
  have h4 : starts (join c.dir (anim c)) (anim c) = true ↔ c.dir.abs = true ∨ c.dir.parts = [] := by
    rw [h3]
    by_cases ha : c.dir.abs = true
    · simp [join, ha, starts]
    · have hb : c.dir.abs = false := by simpa using ha
      simp [join, hb, starts]
  unfold cleaned
  rw [h1, Bool.false_or]
  have h5 : (anim c).parts.getLast? = some animGif := by rw [h3]; simp
  rw [h5]
  simp only [h2]
  simp only [Bool.and_false, Bool.false_or]
  exact h4

example : cleaned ⟨⟨true, [['o']]⟩, [], [gif]⟩ (anim ⟨⟨true, [['o']]⟩, [], [gif]⟩) = true := by decide
example : cleaned ⟨⟨false, [['o']]⟩, [], [gif]⟩ (anim ⟨⟨false, [['o']]⟩, [], [gif]⟩) = false := by decide

/-- **C208 is false of the code**: with the formats `png` and `bmp` the second image of step 1 is called `foreground_00001.pngbmp`. -/
theorem C208_counterexample :
    image ⟨folder, [], [png, bmp]⟩ 1 bmp ∉ run ⟨folder, [], [png, bmp]⟩ [] [1] ∧
    image ⟨folder, [], [png, bmp]⟩ 1 (png ++ bmp) ∈ run ⟨folder, [], [png, bmp]⟩ [] [1] ∧ ¬ C208_claim := by
  have h1 : image ⟨folder, [], [png, bmp]⟩ 1 bmp ∉ run ⟨folder, [], [png, bmp]⟩ [] [1] := by decide +kernel
  exact ⟨h1, by decide +kernel, fun h => h1 ((h ⟨folder, [], [png, bmp]⟩ [] [1]).1 1 (by simp) bmp (by simp) (by decide))⟩

/-- **C208 is false of the code**: with an animation alone the name handed back, `foreground_00001.`, is no file. -/
theorem C208_counterexample_gif :
    inDir folder (write ⟨folder, [], [gif]⟩ 1 []).2 ∉ (write ⟨folder, [], [gif]⟩ 1 []).1 ∧ ¬ C208_claim := by
  have h1 : inDir folder (write ⟨folder, [], [gif]⟩ 1 []).2 ∉ (write ⟨folder, [], [gif]⟩ 1 []).1 := by decide +kernel
  exact ⟨h1, fun h => h1 ((h ⟨folder, [], [gif]⟩ [] []).2.1 [] 1)⟩

/-- **C208 is false of the code**: the image of step 100000 of an earlier run is left. -/
theorem C208_counterexample_late :
    image ⟨folder, [], [png]⟩ 100000 png ∈ run ⟨folder, [], [png]⟩ (run ⟨folder, [], [png]⟩ [] [100000]) [1] ∧ ¬ C208_claim := by
  have h1 : image ⟨folder, [], [png]⟩ 100000 png ∈ run ⟨folder, [], [png]⟩ (run ⟨folder, [], [png]⟩ [] [100000]) [1] := by decide +kernel
  refine ⟨h1, fun h => ?_⟩
  have := (h _ _ _).2.2.1 _ _ h1
  simp at this

/-- **C208 is false of the code**: `foreground_notes.txt` is removed. -/
theorem C208_counterexample_own :
    inDir folder (foreground ++ ['n', 'o', 't', 'e', 's', '.', 't', 'x', 't']) ∉
      run ⟨folder, [], [png]⟩ [inDir folder (foreground ++ ['n', 'o', 't', 'e', 's', '.', 't', 'x', 't'])] [1] ∧ ¬ C208_claim := by
  have h1 : inDir folder (foreground ++ ['n', 'o', 't', 'e', 's', '.', 't', 'x', 't']) ∉
      run ⟨folder, [], [png]⟩ [inDir folder (foreground ++ ['n', 'o', 't', 'e', 's', '.', 't', 'x', 't'])] [1] := by decide +kernel
  refine ⟨h1, fun h => h1 ((h _ _ _).2.2.2 _ (by simp) ?_ ?_ (by decide +kernel))⟩
  · intro n f hp
    rw [inDir_eq] at hp
    simp only [image, Path.mk.injEq, true_and, List.append_assoc] at hp
    have h2 := List.append_cancel_left hp
    rw [List.cons.injEq] at h2
    have h3 := List.append_cancel_left h2.1
    have hlen : (padLeft 5 (decimal n)) ≠ [] := by
      intro h0
      have := congrArg List.length h0
      unfold padLeft at this
      simp only [List.length_append, List.length_replicate, List.length_nil] at this
      omega
    obtain ⟨ch, l, hl⟩ := List.exists_cons_of_ne_nil hlen
    have hv : ch = 'n' := by
      rw [hl, List.cons_append, List.cons.injEq] at h3; exact h3.1.symm
    have hdig : ∀ ch ∈ padLeft 5 (decimal n), ch ≠ 'n' := by
      intro ch hc
      simp only [padLeft, List.mem_append, List.mem_replicate] at hc
      rcases hc with ⟨_, rfl⟩ | hc
      · decide
      · simp only [decimal, List.mem_map, List.mem_reverse] at hc
        obtain ⟨d, hd, rfl⟩ := hc
        have hlt := Nat.digits_lt_base (b := 10) (by norm_num) hd
        have : ∀ d : Fin 10, Nat.digitChar d.1 ≠ 'n' := by decide
        exact this ⟨d, hlt⟩
    exact hdig ch (by rw [hl]; simp) hv
  · intro f hp
    rw [inDir_eq] at hp
    simp only [background, Path.mk.injEq, true_and] at hp
    have h2 := List.append_cancel_left hp
    simp [backgroundMap, foreground] at h2

/-! ## C209 -/

variable {α : Type}

/-- how an element is to be drawn: a cross on land, a green dot on a tidal flat, a dot elsewhere; black for the forecast, red for the uncertain -/
def asDrawn (size : Nat) (uncertain : Bool) (e : Elem α) : Mark α :=
  if e.status = 3 then ⟨e.pos, .x, size, if uncertain then .uncert else .le⟩
  else if e.status = 32 then ⟨e.pos, .round, 2, .tidal⟩
  else ⟨e.pos, .round, size, if uncertain then .uncert else .le⟩

/-- **C209 in full**: every element is drawn once, in the colour of its container, and all of those chosen to be on top after all of the others. -/
def C209_claim : Prop := ∀ (top : Top) (size : Nat) (ramp : Option (ℕ → Nat)) (f u : Cont ℕ), f.uncertain = false → u.uncertain = true →
  ∃ below above, drawStep top size ramp f (some u) = below ++ above ∧
    (above.Perm ((match top with | .forecast => f | .uncertain => u).elems.map (asDrawn size (match top with | .forecast => false | .uncertain => true)))) ∧
    (below.Perm ((match top with | .forecast => u | .uncertain => f).elems.map (asDrawn size (match top with | .forecast => true | .uncertain => false))))

theorem draw_perm (size : Nat) (sc : Cont α) : (drawElements size none sc).Perm (sc.elems.map (asDrawn size sc.uncertain)) := by
  unfold drawElements
  simp only
  induction sc.elems with
  | nil => simp
  | cons e es ih =>
    rw [List.map_cons]
    by_cases h3 : e.status = 3
    · rw [List.filter_cons_of_pos (by simp [h3]), List.filter_cons_of_neg (by simp [h3]), List.filter_cons_of_neg (by simp [h3])]
      simp only [List.map_cons, List.cons_append]
      have : asDrawn size sc.uncertain e = ⟨e.pos, .x, size, if sc.uncertain then .uncert else .le⟩ := by simp [asDrawn, h3]
      rw [this]
      exact ih.cons _
    · by_cases h32 : e.status = 32
      · rw [List.filter_cons_of_neg (by simp [h3]), List.filter_cons_of_pos (by simp [h32]), List.filter_cons_of_neg (by simp [h32])]
        simp only [List.map_cons]
        have : asDrawn size sc.uncertain e = ⟨e.pos, .round, 2, .tidal⟩ := by simp [asDrawn, h32]
        rw [this, List.append_assoc, List.cons_append]
        refine List.perm_middle.trans (List.Perm.cons _ ?_)
        rw [← List.append_assoc]
        exact ih
      · rw [List.filter_cons_of_neg (by simp [h3]), List.filter_cons_of_neg (by simp [h32]), List.filter_cons_of_pos (by simp [h3, h32])]
        simp only [List.map_cons]
        have : asDrawn size sc.uncertain e = ⟨e.pos, .round, size, if sc.uncertain then .uncert else .le⟩ := by simp [asDrawn, h3, h32]
        rw [this]
        exact List.perm_middle.trans (List.Perm.cons _ ih)

/-- **C209 (partial)**: without colours by depth the claim holds; with them every element is still drawn once, where it is.
Missing for the full claim: colours by depth (`C209_counterexample`). -/
theorem C209_partial (top : Top) (size : Nat) (f u : Cont α) (hf : f.uncertain = false) (hu : u.uncertain = true) :
    (∃ below above, drawStep top size none f (some u) = below ++ above ∧
      (above.Perm ((match top with | .forecast => f | .uncertain => u).elems.map (asDrawn size (match top with | .forecast => false | .uncertain => true)))) ∧
      (below.Perm ((match top with | .forecast => u | .uncertain => f).elems.map (asDrawn size (match top with | .forecast => true | .uncertain => false))))) ∧
    (drawStep top size none f none).Perm (f.elems.map (asDrawn size false)) ∧
    ∀ (ramp : Option (α → Nat)) (sc : Cont α), ((drawElements size ramp sc).map (·.pos)).Perm (sc.elems.map (·.pos)) := by
  refine ⟨?_, ?_, ?_⟩
  · cases top with
    | forecast => exact ⟨_, _, rfl, by have := draw_perm size f; rwa [hf] at this, by have := draw_perm size u; rwa [hu] at this⟩
    | uncertain => exact ⟨_, _, rfl, by have := draw_perm size u; rwa [hu] at this, by have := draw_perm size f; rwa [hf] at this⟩
  · have := draw_perm size f
    rw [hf] at this
    exact this
  · intro ramp sc
    have e : (drawElements size ramp sc).map (·.pos) = (drawElements size none sc).map (·.pos) := by
      unfold drawElements
      simp
    rw [e]
    have := (draw_perm size sc).map (·.pos)
    rw [List.map_map] at this
    have e2 : sc.elems.map ((fun m : Mark α => m.pos) ∘ asDrawn size sc.uncertain) = sc.elems.map (·.pos) := by
      apply List.map_congr_left
      intro e _
      simp only [Function.comp, asDrawn]
      split_ifs <;> rfl
    rwa [e2] at this

/-- **C209 is false of the code**: with colours by depth the uncertain elements in the water look like those of the forecast. -/
theorem C209_counterexample :
    drawElements 2 (some fun d => d) ⟨true, [⟨7, 2⟩]⟩ = drawElements 2 (some fun d => d) ⟨false, [⟨7, 2⟩]⟩ ∧ ¬ C209_claim := by
  refine ⟨by decide, fun h => ?_⟩
  obtain ⟨b, a, h1, h2, h3⟩ := h .forecast 2 (some fun d => d) ⟨false, [⟨7, 2⟩]⟩ ⟨true, []⟩ rfl rfl
  simp only [List.map_nil, List.perm_nil] at h3
  simp only [List.map_cons, List.map_nil, List.perm_singleton] at h2
  subst h2 h3
  revert h1
  decide

end Verif.Output.Render
