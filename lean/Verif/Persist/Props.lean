import Verif.Persist.Lemmas
import Verif.Cache.Lemmas
import Mathlib.Data.List.Nodup
import Mathlib.Data.List.Perm.Subperm

/-!
# C79: what is loaded is what was saved
-/

namespace Verif.Persist

variable {P B : Type}

/-- Full C79: whatever was saved to a new archive is loaded as it was, to any depth. -/
def C79_claim (P B : Type) : Prop :=
  ∀ (base : P → Str) (fs : P → B) (t : Obj P) (f : Str) (st : St B), Coherent t →
    save base fs t ⟨[], []⟩ = some (f, st) → ∀ n, depth t ≤ n →
    ∃ t' refs, load st.zip n f [] = some (t', refs) ∧ Back fs t t'

theorem back_of_good (base : P → Str) (fs : P → B) (t : Obj P) (f : Str) (st0 st : St B)
    (hc : Coherent t) (hg : Good base fs t) (hi : Inv base fs t st0)
    (h : save base fs t st0 = some (f, st)) (n : Nat) (hn : depth t ≤ n) :
    ∃ t' refs, load st.zip n f [] = some (t', refs) ∧ Back fs t t' := by
  obtain ⟨-, -, h3, h4⟩ := save_ok base fs t hc hg t _ st f Part.self hi h
  have hl : LInv fs t st [] := ⟨fun _ _ _ _ _ hh => (by cases hh), fun _ _ hh => (by cases hh),
    fun _ _ _ _ hh => (by cases hh)⟩
  obtain ⟨t', lr, g1, -, g3, g4⟩ := load_ok base fs t hc st h3 t f n [] Part.self h4 hn hl
  refine ⟨t', lr, g1, newId st.refs lr, ?_, same_of_loaded fs st.refs lr t t' g4⟩
  intro a b ha hb hab
  obtain ⟨a', ha'⟩ := part_loaded fs g4 ha
  obtain ⟨b', hb'⟩ := part_loaded fs g4 hb
  cases a with
  | node i n1 d fl ks =>
    cases b with
    | node j n2 d2 fl2 ks2 =>
      rw [Loaded] at ha' hb'
      obtain ⟨fa, ia, ka, p1, p2, -, -⟩ := ha'
      obtain ⟨fb, ib, kb, q1, q2, -, -⟩ := hb'
      have e1 : newId st.refs lr i = a'.id := by simp [newId, p1, p2]
      have e2 : newId st.refs lr j = b'.id := by simp [newId, q1, q2]
      have hab' : newId st.refs lr i = newId st.refs lr j := hab
      rw [e1, e2] at hab'
      have := g3.inj fa fb a' b' p2 q2 hab'
      subst this
      exact h3.inj i j fa p1 q1

/-- The end of the name of a json file. -/
abbrev ext : Str := ['.', 'j', 's', 'o', 'n']

theorem format_suffix (x t : Str) : ∀ g, ext <:+ t → format x t = some g → ext <:+ g := by
  have drop : ∀ {c : Char} {r : Str}, c ≠ '.' → ext <:+ c :: r → ext <:+ r := by
    intro c r hc h
    rcases List.suffix_cons_iff.1 h with h | h
    · injection h with h _; exact absurd h.symm hc
    · exact h
  induction t using format.induct with
  | case1 =>
    intro g h _
    have := List.IsSuffix.length_le h
    simp at this
  | case2 r ih =>
    intro g h hf
    rw [format] at hf
    obtain ⟨g', hg', rfl⟩ := Option.map_eq_some_iff.1 hf
    exact (ih g' (drop (by decide) (drop (by decide) h)) hg').trans (List.suffix_cons _ _)
  | case3 r ih =>
    intro g h hf
    rw [format] at hf
    obtain ⟨g', hg', rfl⟩ := Option.map_eq_some_iff.1 hf
    exact (ih g' (drop (by decide) (drop (by decide) h)) hg').trans (List.suffix_cons _ _)
  | case4 r ih =>
    intro g h hf
    rw [format] at hf
    obtain ⟨g', hg', rfl⟩ := Option.map_eq_some_iff.1 hf
    exact (ih g' (drop (by decide) (drop (by decide) (drop (by decide) h))) hg').trans
      (List.suffix_append _ _)
  | case5 r h1 h2 =>
    intro g h hf
    rw [format] at hf
    · cases hf
    · exact h1
    · exact h2
  | case6 r h1 =>
    intro g h hf
    rw [format] at hf
    · cases hf
    · exact h1
  | case7 c r h1 h2 h3 h4 h5 ih =>
    intro g h hf
    rw [format] at hf
    · obtain ⟨g', hg', rfl⟩ := Option.map_eq_some_iff.1 hf
      rcases List.suffix_cons_iff.1 h with h | h
      · injection h with hc hr
        subst hc; subst hr
        have : g' = ['j', 's', 'o', 'n'] := by
          have h' : format x ['j', 's', 'o', 'n'] = some ['j', 's', 'o', 'n'] := by
            simp [format]
          rw [h'] at hg'
          exact (Option.some.inj hg').symm
        rw [this]
        exact List.suffix_refl _
      · exact (ih g' h hg').trans (List.suffix_cons _ _)
    all_goals assumption

/-- A name with something other than dots in it. -/
def Named (n : Str) : Prop := n.all (· = '.') = false

theorem sanitize_named {n : Str} (h : Named n) : Named (sanitize n) := by
  unfold Named sanitize at *
  rw [List.all_eq_false] at h ⊢
  obtain ⟨c, hc, hd⟩ := h
  simp only [decide_eq_true_eq] at hd
  refine ⟨_, List.mem_map.2 ⟨c, hc, rfl⟩, ?_⟩
  split
  · decide
  · simpa using hd

theorem candidate_suffix {n : Str} (h : Named n) (k : Nat) (f : Str) (hf : candidate n k = some f) :
    ext <:+ f := by
  unfold candidate at hf
  have hs : splitExt (sanitize n) = (sanitize n, ext) := by
    unfold splitExt
    rw [if_neg (by rw [show (sanitize n).all (· = '.') = false from sanitize_named h]; decide)]
    rfl
  simp only [hs] at hf
  exact format_suffix _ _ f (List.suffix_append _ _) hf

/-- C79 where data files of the same name have the same contents and are not called `.json`, and names
are not made of dots only. -/
theorem C79_partial (base : P → Str) (fs : P → B) (t : Obj P) (f : Str) (st : St B)
    (hc : Coherent t) (hsame : ∀ p q, HasFile t p → HasFile t q → base p = base q → fs p = fs q)
    (hjson : ∀ p, HasFile t p → ¬ ext <:+ base p) (hname : ∀ n, HasName t n → Named n)
    (h : save base fs t ⟨[], []⟩ = some (f, st)) (n : Nat) (hn : depth t ≤ n) :
    ∃ t' refs, load st.zip n f [] = some (t', refs) ∧ Back fs t t' := by
  refine back_of_good base fs t f ⟨[], []⟩ st hc ⟨hsame, ?_⟩ ?_ h n hn
  · intro p nm k hp hnm hcand
    exact hjson p hp (candidate_suffix (hname nm hnm) k _ hcand)
  · exact ⟨fun _ _ _ hh => (by cases hh), fun _ _ _ hh => (by cases hh), fun _ _ hh => (by cases hh),
      fun _ _ hh => (by cases hh)⟩

/-- C79 for an archive that has files already, as long as the data files there are the same. -/
theorem C79_append_partial (base : P → Str) (fs : P → B) (t : Obj P) (f : Str)
    (z : List (Str × Entry B)) (st : St B)
    (hc : Coherent t) (hsame : ∀ p q, HasFile t p → HasFile t q → base p = base q → fs p = fs q)
    (hjson : ∀ p, HasFile t p → ¬ ext <:+ base p) (hname : ∀ n, HasName t n → Named n)
    (hz : ∀ p, HasFile t p → base p ∈ names z → get? z (base p) = some (.bytes (fs p)))
    (h : save base fs t ⟨z, []⟩ = some (f, st)) (n : Nat) (hn : depth t ≤ n) :
    (∃ t' refs, load st.zip n f [] = some (t', refs) ∧ Back fs t t') ∧
    (∀ k v, get? z k = some v → get? st.zip k = some v) := by
  have hg : Good base fs t := by
    refine ⟨hsame, ?_⟩
    intro p nm k hp hnm hcand
    exact hjson p hp (candidate_suffix (hname nm hnm) k _ hcand)
  have hi : Inv base fs t ⟨z, []⟩ := ⟨fun _ _ _ hh => (by cases hh), fun _ _ _ hh => (by cases hh),
    fun _ _ hh => (by cases hh), hz⟩
  exact ⟨back_of_good base fs t f ⟨z, []⟩ st hc hg hi h n hn,
    (save_ok base fs t hc hg t _ st f Part.self hi h).1⟩

/-- A path: directory and name. -/
abbrev Path := Nat × Str

/-- A model with two winds, each with its own `wind.txt`. -/
def twoWinds : Obj Path :=
  .node 0 ['m'] 0 [] [.node 1 ['a'] 5 [(0, "wind.txt".toList)] [],
    .node 2 ['b'] 6 [(1, "wind.txt".toList)] []]

theorem twoWinds_part {a : Obj Path} (h : Part twoWinds a) :
    a = twoWinds ∨ a = .node 1 ['a'] 5 [(0, "wind.txt".toList)] [] ∨
      a = .node 2 ['b'] 6 [(1, "wind.txt".toList)] [] := by
  induction h with
  | self => exact Or.inl rfl
  | kid _ hk ih =>
    rcases ih with e | e | e
    · unfold twoWinds at e
      injection e with _ _ _ _ e
      subst e
      rcases List.mem_cons.1 hk with rfl | hk
      · exact Or.inr (Or.inl rfl)
      · rw [List.mem_singleton] at hk
        exact Or.inr (Or.inr hk)
    · injection e with _ _ _ _ e
      subst e
      cases hk
    · injection e with _ _ _ _ e
      subst e
      cases hk

theorem twoWinds_coherent : Coherent twoWinds := by
  intro a b ha hb hab
  rcases twoWinds_part ha with rfl | rfl | rfl <;> rcases twoWinds_part hb with rfl | rfl | rfl <;>
    first | rfl | exact absurd hab (by decide)

/-- C79 fails: of two data files of the same name only one is saved. -/
theorem C79_counterexample_files : ¬ C79_claim Path Nat := by
  intro h
  obtain ⟨t', refs, h1, φ, -, h2⟩ := h Prod.snd Prod.fst twoWinds "m.json".toList
    ⟨[("wind.txt".toList, .bytes 0),
      ("a.json".toList, .json ⟨['a'], 5, ["wind.txt".toList], []⟩),
      ("b.json".toList, .json ⟨['b'], 6, ["wind.txt".toList], []⟩),
      ("m.json".toList, .json ⟨['m'], 0, [], ["a.json".toList, "b.json".toList]⟩)],
     [(1, "a.json".toList), (2, "b.json".toList), (0, "m.json".toList)]⟩
    twoWinds_coherent (by rfl) 2 (by decide)
  have h3 : load (B := Nat) [("wind.txt".toList, .bytes 0),
      ("a.json".toList, .json ⟨['a'], 5, ["wind.txt".toList], []⟩),
      ("b.json".toList, .json ⟨['b'], 6, ["wind.txt".toList], []⟩),
      ("m.json".toList, .json ⟨['m'], 0, [], ["a.json".toList, "b.json".toList]⟩)] 2
      "m.json".toList [] = some (.node 2 ['m'] 0 [] [.node 0 ['a'] 5 [0] [], .node 1 ['b'] 6 [0] []],
        [("a.json".toList, .node 0 ['a'] 5 [0] []), ("b.json".toList, .node 1 ['b'] 6 [0] []),
         ("m.json".toList, .node 2 ['m'] 0 [] [.node 0 ['a'] 5 [0] [], .node 1 ['b'] 6 [0] []])]) := by
    rfl
  simp only at h1
  rw [h3] at h1
  injection h1 with h1
  injection h1 with h1 _
  subst h1
  simp [twoWinds, Same, SameAll] at h2

/-- C79 fails: an object called as its data file, up to `.json`, is not saved at all. -/
theorem C79_counterexample_json : ¬ C79_claim Path Nat := by
  intro h
  obtain ⟨t', refs, h1, -⟩ := h Prod.snd Prod.fst
    (.node 0 "coast".toList 7 [(3, "coast.json".toList)] []) "coast.json".toList
    ⟨[("coast.json".toList, .bytes 3)], [(0, "coast.json".toList)]⟩
    (by
      intro a b ha hb _
      have : ∀ a : Obj Path, Part (.node 0 "coast".toList 7 [(3, "coast.json".toList)] []) a →
          a = .node 0 "coast".toList 7 [(3, "coast.json".toList)] [] := by
        intro a ha
        induction ha with
        | self => rfl
        | kid _ hk ih => injection ih with _ _ _ _ e; subst e; cases hk
      rw [this a ha, this b hb])
    (by rfl) 1 (by decide)
  have h2 : load (B := Nat) [("coast.json".toList, .bytes 3)] 1 "coast.json".toList [] = none := by
    rfl
  simp only at h1
  rw [h2] at h1
  cases h1

/-- Two movers sharing one wind with a data file: loaded with one wind. -/
example : ∃ f st t' refs, save (P := Path) (B := Nat) Prod.snd Prod.fst
    (.node 0 ['m'] 0 [] [.node 1 ['a'] 5 [] [.node 3 ['a'] 8 [(4, "wind.txt".toList)] []],
      .node 2 ['b'] 6 [] [.node 3 ['a'] 8 [(4, "wind.txt".toList)] []]]) ⟨[], []⟩ = some (f, st) ∧
    load st.zip 3 f [] = some (t', refs) ∧
    t' = .node 3 ['m'] 0 [] [.node 1 ['a'] 5 [] [.node 0 ['a'] 8 [4] []],
      .node 2 ['b'] 6 [] [.node 0 ['a'] 8 [4] []]] ∧ names st.zip =
      ["wind.txt".toList, "a.json".toList, "a (0).json".toList, "b.json".toList, "m.json".toList] :=
  ⟨_, _, _, _, rfl, rfl, rfl, rfl⟩

/-! Saving succeeds. -/

/-- Names that can be formatted. -/
def Plain (n : Str) : Prop := '{' ∉ n ∧ '}' ∉ n

theorem format_plain (x a b : Str) (ha : Plain a) (hb : Plain b) :
    format x (a ++ ['{', '0', '}'] ++ b) = some (a ++ x ++ b) := by
  have h1 : ∀ b, Plain b → format x b = some b := by
    intro b
    induction b with
    | nil => intro _; rfl
    | cons c b ih =>
      intro h
      have hc1 : c ≠ '{' := fun e => h.1 (by simp [e])
      have hc2 : c ≠ '}' := fun e => h.2 (by simp [e])
      have hb : Plain b := ⟨fun hm => h.1 (List.mem_cons_of_mem _ hm),
        fun hm => h.2 (List.mem_cons_of_mem _ hm)⟩
      rw [format]
      · rw [ih hb]; rfl
      all_goals intros; simp_all
  induction a with
  | nil =>
    show format x ('{' :: '0' :: '}' :: b) = _
    rw [format, h1 b hb]
    rfl
  | cons c a ih =>
    have hc1 : c ≠ '{' := fun e => ha.1 (by simp [e])
    have hc2 : c ≠ '}' := fun e => ha.2 (by simp [e])
    have hp : Plain a := ⟨fun hm => ha.1 (List.mem_cons_of_mem _ hm),
      fun hm => ha.2 (List.mem_cons_of_mem _ hm)⟩
    show format x (c :: (a ++ ['{', '0', '}'] ++ b)) = _
    rw [format]
    · rw [ih hp]; rfl
    all_goals intros; simp_all

theorem numeral_injective {i j : Nat} (h : numeral i = numeral j) : i = j := by
  have hv : ∀ k, Verif.Cache.val (numeral k) = k := by
    intro k
    unfold numeral
    split
    · rename_i e; subst e; rfl
    · exact Verif.Cache.val_decimal k
  rw [← hv i, ← hv j, h]

theorem suffix_injective {i j : Nat} (h : suffix i = suffix j) : i = j := by
  cases i with
  | zero =>
    cases j with
    | zero => rfl
    | succ j => simp [suffix] at h
  | succ i =>
    cases j with
    | zero => simp [suffix] at h
    | succ j =>
      simp only [suffix] at h
      have h' := List.append_cancel_right h
      have h'' := List.append_cancel_left h'
      rw [numeral_injective h'']

theorem candidate_plain {n : Str} (h : Plain n) :
    ∃ a b, ∀ k, candidate n k = some (a ++ suffix k ++ b) := by
  have hs : Plain (sanitize n) := by
    have key : ∀ c, c = '{' ∨ c = '}' → c ∉ n → c ∉ sanitize n := by
      intro c hc hn hm
      unfold sanitize at hm
      obtain ⟨d, hd, he⟩ := List.mem_map.1 hm
      split at he
      · subst he; rcases hc with h | h <;> exact absurd h (by decide)
      · subst he; exact hn hd
    exact ⟨key _ (Or.inl rfl) h.1, key _ (Or.inr rfl) h.2⟩
  have hp : Plain (splitExt (sanitize n)).1 ∧ Plain (splitExt (sanitize n)).2 := by
    unfold splitExt
    split
    · refine ⟨⟨?_, ?_⟩, show Plain [] from ⟨by decide, by decide⟩⟩
      · intro hm
        rcases List.mem_append.1 hm with hm | hm
        · exact hs.1 hm
        · revert hm; decide
      · intro hm
        rcases List.mem_append.1 hm with hm | hm
        · exact hs.2 hm
        · revert hm; decide
    · exact ⟨hs, show Plain ext from ⟨by decide, by decide⟩⟩
  exact ⟨_, _, fun k => format_plain _ _ _ hp.1 hp.2⟩

theorem tryNames_none {n : Str} (taken : List Str) {a b : Str}
    (hc : ∀ k, candidate n k = some (a ++ suffix k ++ b)) :
    ∀ m k, tryNames n taken m k = none → ∀ j, k ≤ j → j < k + m → a ++ suffix j ++ b ∈ taken := by
  intro m
  induction m with
  | zero => intro k _ j h1 h2; omega
  | succ m ih =>
    intro k h j h1 h2
    rw [tryNames, hc k] at h
    simp only at h
    split at h
    · rename_i hin
      rcases Nat.eq_or_lt_of_le h1 with e | e
      · rw [← e]; exact hin
      · exact ih (k + 1) h j e (by omega)
    · cases h

theorem uniqueName_plain {n : Str} (h : Plain n) (taken : List Str) (ht : taken.length < 255) :
    ∃ f, uniqueName n taken = some f := by
  cases hu : uniqueName n taken with
  | some f => exact ⟨f, rfl⟩
  | none =>
    exfalso
    obtain ⟨a, b, hc⟩ := candidate_plain h
    have hall := tryNames_none taken hc 255 0 hu
    have hnd : ((List.range 255).map fun j => a ++ suffix j ++ b).Nodup := by
      refine List.Nodup.map ?_ List.nodup_range
      intro i j hij
      exact suffix_injective (List.append_cancel_left (List.append_cancel_right hij))
    have hsub : ((List.range 255).map fun j => a ++ suffix j ++ b) ⊆ taken := by
      intro f hf
      obtain ⟨j, hj, rfl⟩ := List.mem_map.1 hf
      exact hall j (Nat.zero_le _) (by simpa using List.mem_range.1 hj)
    have := (hnd.subperm hsub).length_le
    rw [List.length_map, List.length_range] at this
    omega

theorem part_trans {t a b : Obj P} (h : Part t a) (h' : Part a b) : Part t b := by
  induction h' with
  | self => exact h
  | kid _ hk ih => exact Part.kid ih hk

mutual
/-- Objects and data files, counted as often as they are reached. -/
def size : Obj P → Nat
  | .node _ _ _ fl ks => sizeAll ks + fl.length + 1
/-- Likewise for lists. -/
def sizeAll : List (Obj P) → Nat
  | [] => 0
  | o :: os => size o + sizeAll os
end

theorem addFiles_length (base : P → Str) (fs : P → B) : ∀ (fl : List P) (z : List (Str × Entry B)),
    (addFiles base fs z fl).length ≤ z.length + fl.length := by
  intro fl
  induction fl with
  | nil => intro z; exact le_refl _
  | cons p fl ih =>
    intro z
    have h1 : (addFile base fs z p).length ≤ z.length + 1 := by
      unfold addFile; split <;> simp
    have h2 : addFiles base fs z (p :: fl) = addFiles base fs (addFile base fs z p) fl := rfl
    rw [h2, List.length_cons]
    have := ih (addFile base fs z p)
    omega

theorem write_succeeds (base : P → Str) (fs : P → B) {i : Nat} {n : Str} {d : Nat} {fl : List P}
    {kn : List Str} {st : St B} (hn : Plain n) (hl : st.zip.length < 255) :
    ∃ f st', write base fs i n d fl kn st = some (f, st') ∧
      st'.zip.length ≤ st.zip.length + fl.length + 1 := by
  have hlen : ∀ f j, (if f ∈ names (addFiles base fs st.zip fl) then addFiles base fs st.zip fl
      else addFiles base fs st.zip fl ++ [(f, Entry.json j)]).length ≤
      st.zip.length + fl.length + 1 := by
    intro f j
    have := addFiles_length base fs fl st.zip
    split
    · omega
    · rw [List.length_append]; simp only [List.length_cons, List.length_nil]; omega
  unfold write nameFor
  cases hr : get? st.refs i with
  | some f => exact ⟨f, _, rfl, hlen f _⟩
  | none =>
    obtain ⟨f, hf⟩ := uniqueName_plain hn (names st.zip) (by simpa [names] using hl)
    simp only [hf, Option.map_some]
    exact ⟨f, _, rfl, hlen f _⟩

mutual
theorem save_succeeds (base : P → Str) (fs : P → B) : ∀ (o : Obj P) (st : St B),
    (∀ n, HasName o n → Plain n) → st.zip.length + size o ≤ 255 →
    ∃ f st', save base fs o st = some (f, st') ∧ st'.zip.length ≤ st.zip.length + size o
  | .node i n d fl ks, st, hn, hl => by
    rw [size] at hl ⊢
    obtain ⟨kn, st1, h1, h2⟩ := saveAll_succeeds base fs ks st
      (fun o ho m hm => by
        obtain ⟨i', d', fl', ks', hp⟩ := hm
        exact hn m ⟨i', d', fl', ks', part_trans (Part.kid Part.self ho) hp⟩)
      (by omega)
    obtain ⟨f, st', g1, g2⟩ := write_succeeds base fs (i := i) (d := d) (fl := fl) (kn := kn)
      (st := st1) (hn n ⟨i, d, fl, ks, Part.self⟩) (by omega)
    refine ⟨f, st', ?_, by omega⟩
    rw [save, h1]
    exact g1
theorem saveAll_succeeds (base : P → Str) (fs : P → B) : ∀ (os : List (Obj P)) (st : St B),
    (∀ o ∈ os, ∀ n, HasName o n → Plain n) → st.zip.length + sizeAll os ≤ 255 →
    ∃ kn st', saveAll base fs os st = some (kn, st') ∧
      st'.zip.length ≤ st.zip.length + sizeAll os
  | [], st, _, _ => ⟨[], st, by rw [saveAll], by rw [sizeAll]; omega⟩
  | o :: os, st, hn, hl => by
    rw [sizeAll] at hl ⊢
    obtain ⟨f, st1, h1, h2⟩ := save_succeeds base fs o st (hn o List.mem_cons_self) (by omega)
    obtain ⟨kn, st2, g1, g2⟩ := saveAll_succeeds base fs os st1
      (fun a ha => hn a (List.mem_cons_of_mem _ ha)) (by omega)
    refine ⟨f :: kn, st2, ?_, by omega⟩
    rw [saveAll, h1]
    simp only
    rw [g1]
end

/-- Saving succeeds for names without braces, if there are no more than 255 files. -/
theorem C79_succeeds_partial (base : P → Str) (fs : P → B) (t : Obj P)
    (hn : ∀ n, HasName t n → Plain n) (hs : size t ≤ 255) :
    ∃ f st, save base fs t ⟨[], []⟩ = some (f, st) := by
  obtain ⟨f, st, h, -⟩ := save_succeeds base fs t ⟨[], []⟩ hn (by simpa using hs)
  exact ⟨f, st, h⟩

/-- An object with a brace in its name cannot be saved. -/
theorem C79_counterexample_brace :
    save (P := Path) (B := Nat) Prod.snd Prod.fst (.node 0 "run {a}".toList 7 [] []) ⟨[], []⟩ =
      none := by rfl

end Verif.Persist
