import Verif.Persist.Spec

/-!
# Saving keeps, and loading finds, everything
-/

namespace Verif.Persist

variable {P B : Type}

theorem get?_append {κ ν : Type} [DecidableEq κ] (l m : List (κ × ν)) (x : κ) :
    get? (l ++ m) x = (get? l x).or (get? m x) := by
  induction l with
  | nil => simp [get?]
  | cons a l ih =>
    obtain ⟨k, v⟩ := a
    simp only [List.cons_append, get?]
    split
    · simp
    · exact ih

theorem get?_eq_none {κ ν : Type} [DecidableEq κ] (l : List (κ × ν)) (x : κ) :
    get? l x = none ↔ x ∉ l.map Prod.fst := by
  induction l with
  | nil => simp [get?]
  | cons a l ih =>
    obtain ⟨k, v⟩ := a
    simp only [get?, List.map_cons, List.mem_cons, not_or]
    split
    · rename_i h; subst h; simp
    · rename_i h
      rw [ih]
      constructor
      · intro hx; exact ⟨fun e => h e.symm, hx⟩
      · intro hx; exact hx.2

theorem get?_keep {κ ν : Type} [DecidableEq κ] {l : List (κ × ν)} {x : κ} {v : ν}
    (m : List (κ × ν)) (h : get? l x = some v) : get? (l ++ m) x = some v := by
  rw [get?_append, h]; rfl

theorem get?_new {κ ν : Type} [DecidableEq κ] {l : List (κ × ν)} {x : κ} (v : ν)
    (h : x ∉ l.map Prod.fst) : get? (l ++ [(x, v)]) x = some v := by
  rw [get?_append, (get?_eq_none l x).2 h]
  simp [get?]

theorem get?_snoc {κ ν : Type} [DecidableEq κ] {l : List (κ × ν)} {x y : κ} {v w : ν}
    (h : get? (l ++ [(x, v)]) y = some w) : get? l y = some w ∨ (y = x ∧ w = v) := by
  rw [get?_append] at h
  cases hl : get? l y with
  | some w' => rw [hl] at h; left; simpa using h
  | none =>
    rw [hl] at h
    simp only [get?, Option.none_or] at h
    split at h
    · rename_i e; right; exact ⟨e.symm, (by simpa using h.symm)⟩
    · cases h

theorem get?_mem {κ ν : Type} [DecidableEq κ] {l : List (κ × ν)} {x : κ} {v : ν}
    (h : get? l x = some v) : x ∈ l.map Prod.fst := by
  by_contra hx
  rw [(get?_eq_none l x).2 hx] at h
  cases h

/-- Everything there is still there. -/
def Ext {κ ν : Type} [DecidableEq κ] (l m : List (κ × ν)) : Prop :=
  ∀ k v, get? l k = some v → get? m k = some v

theorem Ext.refl {κ ν : Type} [DecidableEq κ] (l : List (κ × ν)) : Ext l l := fun _ _ h => h

theorem Ext.trans {κ ν : Type} [DecidableEq κ] {l m n : List (κ × ν)} (h : Ext l m) (h' : Ext m n) :
    Ext l n := fun k v e => h' k v (h k v e)

theorem Ext.append {κ ν : Type} [DecidableEq κ] (l m : List (κ × ν)) : Ext l (l ++ m) :=
  fun _ _ h => get?_keep m h

section save
variable (base : P → Str) (fs : P → B)

mutual
/-- File `f` of the archive describes the object. -/
def Rep (st : St B) : Obj P → Str → Prop
  | .node i n d fl ks, f =>
    get? st.refs i = some f ∧ ∃ kn, get? st.zip f = some (.json ⟨n, d, fl.map base, kn⟩) ∧
      (∀ p ∈ fl, get? st.zip (base p) = some (.bytes (fs p))) ∧ RepAll st ks kn
/-- Likewise for lists. -/
def RepAll (st : St B) : List (Obj P) → List Str → Prop
  | [], [] => True
  | o :: os, f :: fs => Rep st o f ∧ RepAll st os fs
  | _, _ => False
end

mutual
theorem Rep.mono {st st' : St B} (hz : Ext st.zip st'.zip) (hr : Ext st.refs st'.refs) :
    ∀ (o : Obj P) (f : Str), Rep base fs st o f → Rep base fs st' o f
  | .node i n d fl ks, f, h => by
    rw [Rep] at h ⊢
    obtain ⟨h1, kn, h2, h3, h4⟩ := h
    exact ⟨hr _ _ h1, kn, hz _ _ h2, fun p hp => hz _ _ (h3 p hp), RepAll.mono hz hr ks kn h4⟩
theorem RepAll.mono {st st' : St B} (hz : Ext st.zip st'.zip) (hr : Ext st.refs st'.refs) :
    ∀ (os : List (Obj P)) (kn : List Str), RepAll base fs st os kn → RepAll base fs st' os kn
  | [], [], _ => by rw [RepAll]; trivial
  | [], _ :: _, h => by rw [RepAll] at h; exact h.elim; all_goals simp
  | _ :: _, [], h => by rw [RepAll] at h; exact h.elim; all_goals simp
  | o :: os, f :: kn, h => by
    rw [RepAll] at h ⊢
    exact ⟨Rep.mono hz hr o f h.1, RepAll.mono hz hr os kn h.2⟩
end

/-- Invariant while the objects of `root` are saved. -/
structure Inv (root : Obj P) (st : St B) : Prop where
  rep : ∀ a, Part root a → ∀ f, get? st.refs a.id = some f → Rep base fs st a f
  inj : ∀ i j f, get? st.refs i = some f → get? st.refs j = some f → i = j
  known : ∀ i f, get? st.refs i = some f → f ∈ names st.zip
  files : ∀ p, HasFile root p → base p ∈ names st.zip → get? st.zip (base p) = some (.bytes (fs p))

/-- Data files are told apart by their names, also from the json files. -/
structure Good (root : Obj P) : Prop where
  same : ∀ p q, HasFile root p → HasFile root q → base p = base q → fs p = fs q
  other : ∀ p n k, HasFile root p → HasName root n → candidate n k ≠ some (base p)

theorem addFile_ext (z : List (Str × Entry B)) (p : P) : Ext z (addFile base fs z p) := by
  unfold addFile
  split
  · exact Ext.refl z
  · exact Ext.append z _

theorem addFiles_ok (root : Obj P) (hg : Good base fs root) :
    ∀ (fl : List P) (z : List (Str × Entry B)),
      (∀ p ∈ fl, HasFile root p) →
      (∀ p, HasFile root p → base p ∈ names z → get? z (base p) = some (.bytes (fs p))) →
      Ext z (addFiles base fs z fl) ∧
      (∀ p, HasFile root p → base p ∈ names (addFiles base fs z fl) →
        get? (addFiles base fs z fl) (base p) = some (.bytes (fs p))) ∧
      (∀ p ∈ fl, base p ∈ names (addFiles base fs z fl)) ∧
      (∀ f ∈ names (addFiles base fs z fl), f ∈ names z ∨ ∃ p ∈ fl, f = base p) := by
  intro fl
  induction fl with
  | nil =>
    intro z _ h
    exact ⟨Ext.refl z, h, by simp, fun f hf => Or.inl hf⟩
  | cons q fl ih =>
    intro z hfl h
    have hq := hfl q List.mem_cons_self
    have hstep : ∀ p, HasFile root p → base p ∈ names (addFile base fs z q) →
        get? (addFile base fs z q) (base p) = some (.bytes (fs p)) := by
      intro p hp hm
      unfold addFile at hm ⊢
      split
      · rename_i hin; rw [if_pos hin] at hm; exact h p hp hm
      · rename_i hin
        rw [if_neg hin] at hm
        by_cases hz : base p ∈ names z
        · exact get?_keep _ (h p hp hz)
        · have e : base p = base q := by
            simp only [names, List.map_append, List.mem_append, List.map_cons, List.map_nil,
              List.mem_singleton] at hm hz
            exact hm.resolve_left hz
          rw [e, hg.same p q hp hq e]
          exact get?_new _ hin
    have hqin : base q ∈ names (addFile base fs z q) := by
      unfold addFile
      split
      · assumption
      · simp [names]
    have hsub : ∀ f ∈ names (addFile base fs z q), f ∈ names z ∨ f = base q := by
      intro f hf
      unfold addFile at hf
      split at hf
      · exact Or.inl hf
      · simpa [names] using hf
    obtain ⟨h1, h2, h3, h4⟩ := ih (addFile base fs z q)
      (fun p hp => hfl p (List.mem_cons_of_mem _ hp)) hstep
    have hfold : addFiles base fs z (q :: fl) = addFiles base fs (addFile base fs z q) fl := rfl
    rw [hfold]
    refine ⟨(addFile_ext base fs z q).trans h1, h2, ?_, ?_⟩
    · intro p hp
      rcases List.mem_cons.1 hp with rfl | hp
      · exact get?_mem (h1 _ _ (hstep p hq hqin))
      · exact h3 p hp
    · intro f hf
      rcases h4 f hf with hf | ⟨p, hp, rfl⟩
      · rcases hsub f hf with hf | rfl
        · exact Or.inl hf
        · exact Or.inr ⟨q, List.mem_cons_self, rfl⟩
      · exact Or.inr ⟨p, List.mem_cons_of_mem _ hp, rfl⟩

theorem addFiles_same (z : List (Str × Entry B)) :
    ∀ fl : List P, (∀ p ∈ fl, base p ∈ names z) → addFiles base fs z fl = z := by
  intro fl
  induction fl with
  | nil => intro _; rfl
  | cons q fl ih =>
    intro h
    have hq : addFile base fs z q = z := by
      unfold addFile; rw [if_pos (h q List.mem_cons_self)]
    have hfold : addFiles base fs z (q :: fl) = addFiles base fs (addFile base fs z q) fl := rfl
    rw [hfold, hq]
    exact ih fun p hp => h p (List.mem_cons_of_mem _ hp)

theorem tryNames_some (name : Str) (taken : List Str) :
    ∀ n k f, tryNames name taken n k = some f → f ∉ taken ∧ ∃ j, candidate name j = some f := by
  intro n
  induction n with
  | zero => intro k f h; cases h
  | succ n ih =>
    intro k f h
    rw [tryNames] at h
    split at h
    · cases h
    · rename_i g hg
      split at h
      · exact ih _ _ h
      · rename_i hn
        injection h with h
        subst h
        exact ⟨hn, k, hg⟩

theorem write_ok (root : Obj P) (hc : Coherent root) (hg : Good base fs root)
    {i : Nat} {n : Str} {d : Nat} {fl : List P} {ks : List (Obj P)} {kn : List Str}
    {st st' : St B} {f : Str} (hp : Part root (.node i n d fl ks)) (hi : Inv base fs root st)
    (hk : RepAll base fs st ks kn) (h : write base fs i n d fl kn st = some (f, st')) :
    Ext st.zip st'.zip ∧ Ext st.refs st'.refs ∧ Inv base fs root st' ∧
      Rep base fs st' (.node i n d fl ks) f := by
  have hfl : ∀ p ∈ fl, HasFile root p := fun p hpf => ⟨i, n, d, fl, ks, hp, hpf⟩
  unfold write nameFor at h
  cases hr : get? st.refs i with
  | some g =>
    rw [hr] at h
    simp only [Option.some.injEq, Prod.mk.injEq] at h
    obtain ⟨rfl, rfl⟩ := h
    have hrep := hi.rep _ hp g hr
    have hrep' := hrep
    rw [Rep] at hrep'
    obtain ⟨-, kn', hz, hfz, -⟩ := hrep'
    have hsame : addFiles base fs st.zip fl = st.zip :=
      addFiles_same base fs st.zip fl fun p hpf => get?_mem (hfz p hpf)
    rw [hsame, if_pos (hi.known i g hr)]
    exact ⟨Ext.refl _, Ext.refl _, hi, hrep⟩
  | none =>
    rw [hr] at h
    cases hu : uniqueName n (names st.zip) with
    | none => rw [hu] at h; cases h
    | some g =>
      rw [hu] at h
      simp only [Option.map_some, Option.some.injEq, Prod.mk.injEq] at h
      obtain ⟨rfl, rfl⟩ := h
      obtain ⟨hnew, k, hcand⟩ := tryNames_some n _ _ _ _ hu
      obtain ⟨h1, h2, h3, h4⟩ := addFiles_ok base fs root hg fl st.zip hfl hi.files
      have hnot : g ∉ names (addFiles base fs st.zip fl) := by
        intro hm
        rcases h4 g hm with hm | ⟨p, hpf, rfl⟩
        · exact hnew hm
        · exact hg.other p n k (hfl p hpf) ⟨i, d, fl, ks, hp⟩ hcand
      rw [if_neg hnot]
      set z := addFiles base fs st.zip fl with hz
      have e1 : Ext st.zip (z ++ [(g, .json ⟨n, d, fl.map base, kn⟩)]) := h1.trans (Ext.append _ _)
      have e2 : Ext st.refs (st.refs ++ [(i, g)]) := Ext.append _ _
      have hrep : Rep base fs ⟨z ++ [(g, .json ⟨n, d, fl.map base, kn⟩)], st.refs ++ [(i, g)]⟩
          (.node i n d fl ks) g := by
        rw [Rep]
        refine ⟨get?_new _ ((get?_eq_none _ _).1 hr), kn, get?_new _ hnot, ?_, ?_⟩
        · intro p hpf
          exact get?_keep _ (h2 p (hfl p hpf) (h3 p hpf))
        · exact RepAll.mono base fs (st := st) e1 e2 ks kn hk
      refine ⟨e1, e2, ⟨?_, ?_, ?_, ?_⟩, hrep⟩
      · intro a ha f hf
        rcases get?_snoc hf with hf | ⟨hid, rfl⟩
        · exact Rep.mono base fs (st := st) e1 e2 a f (hi.rep a ha f hf)
        · have : a = .node i n d fl ks := hc a _ ha hp hid
          rw [this]; exact hrep
      · intro a b f ha hb
        rcases get?_snoc ha with ha1 | ⟨ha1, hf⟩ <;> rcases get?_snoc hb with hb1 | ⟨hb1, hf'⟩
        · exact hi.inj a b f ha1 hb1
        · subst hf'; exact absurd (hi.known a _ ha1) hnew
        · subst hf; exact absurd (hi.known b _ hb1) hnew
        · rw [ha1, hb1]
      · intro a f ha
        rcases get?_snoc ha with ha | ⟨_, rfl⟩
        · have := hi.known a f ha
          by_contra hx
          exact (get?_eq_none _ _).2 hx |> fun hn => by
            cases hq : get? st.zip f with
            | none => exact (get?_eq_none _ _).1 hq this
            | some v => rw [e1 _ _ hq] at hn; cases hn
        · simp [names]
      · intro p hpf hm
        by_cases hin : base p ∈ names z
        · exact get?_keep _ (h2 p hpf hin)
        · have : base p = g := by
            simp only [names, List.map_append, List.mem_append, List.map_cons, List.map_nil,
              List.mem_singleton] at hm hin
            exact hm.resolve_left hin
          exact absurd (this ▸ hcand) (hg.other p n k hpf ⟨i, d, fl, ks, hp⟩)

mutual
theorem save_ok (root : Obj P) (hc : Coherent root) (hg : Good base fs root) :
    ∀ (o : Obj P) (st st' : St B) (f : Str), Part root o → Inv base fs root st →
      save base fs o st = some (f, st') →
      Ext st.zip st'.zip ∧ Ext st.refs st'.refs ∧ Inv base fs root st' ∧ Rep base fs st' o f
  | .node i n d fl ks, st, st', f, hp, hi, h => by
    rw [save] at h
    split at h
    · cases h
    · rename_i kn st1 hk
      obtain ⟨h1, h2, h3, h4⟩ := saveAll_ok root hc hg ks st st1 kn
        (fun a ha => Part.kid hp ha) hi hk
      obtain ⟨g1, g2, g3, g4⟩ := write_ok base fs root hc hg hp h3 h4 h
      exact ⟨h1.trans g1, h2.trans g2, g3, g4⟩
theorem saveAll_ok (root : Obj P) (hc : Coherent root) (hg : Good base fs root) :
    ∀ (os : List (Obj P)) (st st' : St B) (kn : List Str), (∀ o ∈ os, Part root o) →
      Inv base fs root st → saveAll base fs os st = some (kn, st') →
      Ext st.zip st'.zip ∧ Ext st.refs st'.refs ∧ Inv base fs root st' ∧ RepAll base fs st' os kn
  | [], st, st', kn, _, hi, h => by
    rw [saveAll] at h
    injection h with h
    injection h with h h'
    subst h; subst h'
    exact ⟨Ext.refl _, Ext.refl _, hi, by rw [RepAll]; trivial⟩
  | o :: os, st, st', kn, hp, hi, h => by
    rw [saveAll] at h
    split at h
    · cases h
    · rename_i k st1 hk
      split at h
      · cases h
      · rename_i ks st2 hks
        injection h with h
        injection h with h h'
        subst h; subst h'
        obtain ⟨h1, h2, h3, h4⟩ := save_ok root hc hg o st st1 k (hp o List.mem_cons_self) hi hk
        obtain ⟨g1, g2, g3, g4⟩ := saveAll_ok root hc hg os st1 st2 ks
          (fun a ha => hp a (List.mem_cons_of_mem _ ha)) h3 hks
        refine ⟨h1.trans g1, h2.trans g2, g3, ?_⟩
        rw [RepAll]
        exact ⟨Rep.mono base fs g1 g2 o k h4, g4⟩
end

mutual
/-- How deep the references go. -/
def depth : Obj P → Nat
  | .node _ _ _ _ ks => depthAll ks + 1
/-- The deepest of a list. -/
def depthAll : List (Obj P) → Nat
  | [] => 0
  | o :: os => max (depth o) (depthAll os)
end

mutual
/-- What has been loaded for an object. -/
def Loaded (refs : List (Nat × Str)) (lr : List (Str × Obj B)) : Obj P → Obj B → Prop
  | .node i n d fl ks, o' =>
    ∃ f i' ks', get? refs i = some f ∧ get? lr f = some o' ∧ o' = .node i' n d (fl.map fs) ks' ∧
      LoadedAll refs lr ks ks'
/-- Likewise for lists. -/
def LoadedAll (refs : List (Nat × Str)) (lr : List (Str × Obj B)) :
    List (Obj P) → List (Obj B) → Prop
  | [], [] => True
  | o :: os, o' :: os' => Loaded refs lr o o' ∧ LoadedAll refs lr os os'
  | _, _ => False
end

mutual
theorem Loaded.mono {refs : List (Nat × Str)} {lr lr' : List (Str × Obj B)} (hz : Ext lr lr') :
    ∀ (o : Obj P) (o' : Obj B), Loaded fs refs lr o o' → Loaded fs refs lr' o o'
  | .node i n d fl ks, o', h => by
    rw [Loaded] at h ⊢
    obtain ⟨f, i', ks', h1, h2, h3, h4⟩ := h
    exact ⟨f, i', ks', h1, hz _ _ h2, h3, LoadedAll.mono hz ks ks' h4⟩
theorem LoadedAll.mono {refs : List (Nat × Str)} {lr lr' : List (Str × Obj B)} (hz : Ext lr lr') :
    ∀ (os : List (Obj P)) (os' : List (Obj B)), LoadedAll fs refs lr os os' →
      LoadedAll fs refs lr' os os'
  | [], [], _ => by rw [LoadedAll]; trivial
  | [], _ :: _, h => by rw [LoadedAll] at h; exact h.elim; all_goals simp
  | _ :: _, [], h => by rw [LoadedAll] at h; exact h.elim; all_goals simp
  | o :: os, o' :: os', h => by
    rw [LoadedAll] at h ⊢
    exact ⟨Loaded.mono hz o o' h.1, LoadedAll.mono hz os os' h.2⟩
end

/-- Invariant while loading. -/
structure LInv (root : Obj P) (st : St B) (lr : List (Str × Obj B)) : Prop where
  good : ∀ a, Part root a → ∀ f o', get? st.refs a.id = some f → get? lr f = some o' →
    Loaded fs st.refs lr a o'
  lt : ∀ f o', get? lr f = some o' → o'.id < lr.length
  inj : ∀ f g o o', get? lr f = some o → get? lr g = some o' → o.id = o'.id → f = g

theorem readFiles_ok (z : List (Str × Entry B)) : ∀ fl : List P,
    (∀ p ∈ fl, get? z (base p) = some (.bytes (fs p))) →
    readFiles z (fl.map base) = some (fl.map fs) := by
  intro fl
  induction fl with
  | nil => intro _; rfl
  | cons p fl ih =>
    intro h
    rw [List.map_cons, readFiles, h p List.mem_cons_self]
    simp only
    rw [ih fun q hq => h q (List.mem_cons_of_mem _ hq)]
    rfl

mutual
theorem load_ok (root : Obj P) (hc : Coherent root) (st : St B) (hi : Inv base fs root st) :
    ∀ (o : Obj P) (f : Str) (m : Nat) (lr : List (Str × Obj B)), Part root o →
      Rep base fs st o f → depth o ≤ m → LInv fs root st lr →
      ∃ o' lr', load st.zip m f lr = some (o', lr') ∧ Ext lr lr' ∧ LInv fs root st lr' ∧
        Loaded fs st.refs lr' o o'
  | .node i n d fl ks, f, m, lr, hp, hr, hd, hl => by
    have hr' := hr
    rw [Rep] at hr'
    obtain ⟨hid, kn, hz, hfz, hks⟩ := hr'
    obtain ⟨m, rfl⟩ : ∃ m', m = m' + 1 := ⟨m - 1, by rw [depth] at hd; omega⟩
    have hd' : depthAll ks ≤ m := by rw [depth] at hd; omega
    obtain ⟨ks', lr1, h1, h2, h3, h4⟩ := loadAll_ok root hc st hi ks kn m lr
      (fun a ha => Part.kid hp ha) hks hd' hl
    have hload : load st.zip (m + 1) f lr =
        some (make f ⟨n, d, fl.map base, kn⟩ (fl.map fs) ks' lr1) := by
      rw [load, hz]
      simp only
      rw [h1, readFiles_ok base fs st.zip fl hfz]
    rw [hload]
    unfold make
    cases hx : get? lr1 f with
    | some o' => exact ⟨o', lr1, rfl, h2, h3, h3.good _ hp f o' hid hx⟩
    | none =>
      have hnot := (get?_eq_none lr1 f).1 hx
      simp only
      have e : Ext lr1 (lr1 ++ [(f, Obj.node lr1.length n d (fl.map fs) ks')]) := Ext.append _ _
      have hme : Loaded fs st.refs (lr1 ++ [(f, Obj.node lr1.length n d (fl.map fs) ks')])
          (.node i n d fl ks) (.node lr1.length n d (fl.map fs) ks') := by
        rw [Loaded]
        exact ⟨f, lr1.length, ks', hid, get?_new _ hnot, rfl, LoadedAll.mono fs e ks ks' h4⟩
      refine ⟨_, _, rfl, h2.trans e, ⟨?_, ?_, ?_⟩, hme⟩
      · intro a ha g o' hg ho
        rcases get?_snoc ho with ho | ⟨rfl, rfl⟩
        · exact Loaded.mono fs e a o' (h3.good a ha g o' hg ho)
        · have : a = .node i n d fl ks := hc a _ ha hp (hi.inj _ _ _ hg hid)
          rw [this]; exact hme
      · intro g o' ho
        rw [List.length_append]
        rcases get?_snoc ho with ho | ⟨_, rfl⟩
        · have := h3.lt g o' ho
          simp only [List.length_cons, List.length_nil]; omega
        · simp [Obj.id]
      · intro g g' a b ha hb hab
        rcases get?_snoc ha with ha1 | ⟨rfl, rfl⟩ <;> rcases get?_snoc hb with hb1 | ⟨rfl, rfl⟩
        · exact h3.inj g g' a b ha1 hb1 hab
        · have := h3.lt g a ha1
          rw [hab] at this
          simp [Obj.id] at this
        · have := h3.lt g' b hb1
          rw [← hab] at this
          simp [Obj.id] at this
        · rfl
theorem loadAll_ok (root : Obj P) (hc : Coherent root) (st : St B) (hi : Inv base fs root st) :
    ∀ (os : List (Obj P)) (kn : List Str) (m : Nat) (lr : List (Str × Obj B)),
      (∀ o ∈ os, Part root o) → RepAll base fs st os kn → depthAll os ≤ m → LInv fs root st lr →
      ∃ os' lr', mapSt (load st.zip m) kn lr = some (os', lr') ∧ Ext lr lr' ∧
        LInv fs root st lr' ∧ LoadedAll fs st.refs lr' os os'
  | [], [], m, lr, _, _, _, hl =>
    ⟨[], lr, rfl, Ext.refl _, hl, by rw [LoadedAll]; trivial⟩
  | [], _ :: _, _, _, _, h, _, _ => by rw [RepAll] at h; exact h.elim; all_goals simp
  | _ :: _, [], _, _, _, h, _, _ => by rw [RepAll] at h; exact h.elim; all_goals simp
  | o :: os, f :: kn, m, lr, hp, h, hd, hl => by
    rw [RepAll] at h
    rw [depthAll] at hd
    obtain ⟨o', lr1, h1, h2, h3, h4⟩ := load_ok root hc st hi o f m lr (hp o List.mem_cons_self)
      h.1 (by omega) hl
    obtain ⟨os', lr2, g1, g2, g3, g4⟩ := loadAll_ok root hc st hi os kn m lr1
      (fun a ha => hp a (List.mem_cons_of_mem _ ha)) h.2 (by omega) h3
    refine ⟨o' :: os', lr2, ?_, h2.trans g2, g3, ?_⟩
    · rw [mapSt, h1]
      simp only
      rw [g1]
    · rw [LoadedAll]
      exact ⟨Loaded.mono fs g2 o o' h4, g4⟩
end

/-- The new id of an object. -/
def newId (refs : List (Nat × Str)) (lr : List (Str × Obj B)) (i : Nat) : Nat :=
  (((get? refs i).bind (get? lr)).map Obj.id).getD 0

mutual
theorem same_of_loaded (refs : List (Nat × Str)) (lr : List (Str × Obj B)) :
    ∀ (o : Obj P) (o' : Obj B), Loaded fs refs lr o o' → Same (newId refs lr) fs o o'
  | .node i n d fl ks, o', h => by
    rw [Loaded] at h
    obtain ⟨f, i', ks', h1, h2, rfl, h4⟩ := h
    rw [Same]
    refine ⟨?_, rfl, rfl, rfl, sameAll_of_loaded refs lr ks ks' h4⟩
    simp [newId, h1, h2, Obj.id]
theorem sameAll_of_loaded (refs : List (Nat × Str)) (lr : List (Str × Obj B)) :
    ∀ (os : List (Obj P)) (os' : List (Obj B)), LoadedAll fs refs lr os os' →
      SameAll (newId refs lr) fs os os'
  | [], [], _ => by rw [SameAll]; trivial
  | [], _ :: _, h => by rw [LoadedAll] at h; exact h.elim; all_goals simp
  | _ :: _, [], h => by rw [LoadedAll] at h; exact h.elim; all_goals simp
  | o :: os, o' :: os', h => by
    rw [LoadedAll] at h
    rw [SameAll]
    exact ⟨same_of_loaded refs lr o o' h.1, sameAll_of_loaded refs lr os os' h.2⟩
end

theorem loadedAll_mem {refs : List (Nat × Str)} {lr : List (Str × Obj B)} :
    ∀ (os : List (Obj P)) (os' : List (Obj B)), LoadedAll fs refs lr os os' → ∀ o ∈ os,
      ∃ o', Loaded fs refs lr o o'
  | [], _, _, o, ho => by cases ho
  | _ :: _, [], h, _, _ => by rw [LoadedAll] at h; exact h.elim; all_goals simp
  | a :: os, a' :: os', h, o, ho => by
    rw [LoadedAll] at h
    rcases List.mem_cons.1 ho with rfl | ho
    · exact ⟨a', h.1⟩
    · exact loadedAll_mem os os' h.2 o ho

theorem part_loaded {root : Obj P} {refs : List (Nat × Str)} {lr : List (Str × Obj B)} {o' : Obj B}
    (h : Loaded fs refs lr root o') {a : Obj P} (ha : Part root a) :
    ∃ a', Loaded fs refs lr a a' := by
  induction ha with
  | self => exact ⟨o', h⟩
  | kid _ hk ih =>
    obtain ⟨a', ha'⟩ := ih
    rw [Loaded] at ha'
    obtain ⟨f, i', ks', h1, h2, h3, h4⟩ := ha'
    exact loadedAll_mem fs _ _ h4 _ hk

end save

end Verif.Persist
