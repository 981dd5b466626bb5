import Verif.Fields.EnvFileModel
import Mathlib.Data.List.Basic
import Mathlib.Tactic.Tauto

/-!
# C229: environment objects from a file
-/
namespace Verif.Fields.EnvFile

/-- A class can be made from the file, whatever is given to it. -/
def Makes (can : Nat → List String → Bool) (c : Nat) : Prop := ∀ names, can c names = true

/-- Being a kind of is reflexive and transitive. -/
def Classes.Order (K : Classes) : Prop := (∀ a, K.isa a a = true) ∧ ∀ a b c, K.isa a b = true → K.isa b c = true → K.isa a c = true

/-- None was made that an earlier one would do for. -/
def Once (K : Classes) (env : List Obj) : Prop := env.Pairwise fun a b => K.isa a.cls b.cls = false

/-- What an object refers to is in the list and of the class that is needed; everything that is needed is referred to, once. -/
def RefsRight (K : Classes) (env : List Obj) : Prop :=
  ∀ o ∈ env, (∀ p ∈ o.refs, ∃ klass o', (p.1, klass) ∈ K.req o.cls ∧ env[p.2]? = some o' ∧ K.isa o'.cls klass = true) ∧
    (∀ q ∈ K.req o.cls, q.1 ∈ o.refs.map Prod.fst) ∧ (o.refs.map Prod.fst).Nodup

/-- C229: by default all known gridded classes are tried. An object of every class that the file has is there, none twice, and they refer to
each other as they should. -/
def C229_claim : Prop :=
  ∀ (K : Classes) (can : Nat → List String → Bool) (known : List Nat) (L : Option (List Nat)), K.Order →
    let env := envFromFile K can L
    (∀ c ∈ L.getD known, K.gridded c = true → Makes can c → ∃ o ∈ env, K.isa o.cls c = true) ∧ Once K env ∧ RefsRight K env

/-- Winds that know of ice (0) need coverage by ice (1). -/
def ice : Classes := ⟨fun a b => a = b, fun _ => true, fun c => if c = 0 then [("ice_concentration", 1)] else []⟩

theorem ice_order : ice.Order := ⟨fun a => by simp [ice], fun a b c h1 h2 => by simp_all [ice]⟩

/-- The wind is made twice, and the second takes the first for the coverage by ice. -/
theorem C229_counterexample : ¬ C229_claim := by
  intro h
  have := (h ice (fun _ _ => true) [] (some [0]) ice_order).2.1
  have hx : envFromFile ice (fun _ _ => true) (some [0]) = [⟨0, []⟩, ⟨0, [("ice_concentration", 0)]⟩] := by rfl
  rw [hx] at this
  simp [Once, ice] at this

/-- By default nothing is made from any file. -/
theorem C229_default (K : Classes) (can : Nat → List String → Bool) (iceAware : Nat → Bool) :
    envFromFile K can none = [] ∧ iceEnvFromFile K can iceAware = [] := ⟨rfl, rfl⟩

/-! ### References that are found -/

theorem has_put (kw : Kw) (r : String) (o : Option Nat) : (kw.put r o).has r = true := by simp [Kw.put, Kw.has]

theorem mem_put {kw : Kw} {r : String} {o : Option Nat} {p : String × Option Nat} (h : p ∈ kw.put r o) : p ∈ kw ∨ p = (r, o) := by
  simp only [Kw.put, List.mem_append, List.mem_filter, List.mem_singleton] at h
  tauto

theorem put_keys (kw : Kw) (r : String) (o : Option Nat) (s : String) (h : s ∈ kw.map Prod.fst) : s ∈ (kw.put r o).map Prod.fst := by
  obtain ⟨p, hp, rfl⟩ := List.mem_map.mp h
  simp only [Kw.put, List.map_append, List.map_cons, List.map_nil, List.mem_append, List.mem_singleton]
  by_cases hr : p.1 = r
  · exact .inr hr
  · exact .inl (List.mem_map.mpr ⟨p, List.mem_filter.mpr ⟨hp, by simpa using hr⟩, rfl⟩)

theorem put_nodup (kw : Kw) (r : String) (o : Option Nat) (h : (kw.map Prod.fst).Nodup) : ((kw.put r o).map Prod.fst).Nodup := by
  simp only [Kw.put, List.map_append, List.map_cons, List.map_nil]
  rw [List.nodup_append]
  refine ⟨h.sublist (List.filter_sublist.map _), by simp, ?_⟩
  intro a ha b hb
  rw [List.mem_singleton] at hb
  subst hb
  obtain ⟨p, hp, rfl⟩ := List.mem_map.mp ha
  simpa using (List.mem_filter.mp hp).2

theorem has_iff (kw : Kw) (r : String) : kw.has r = true ↔ r ∈ kw.map Prod.fst := by
  simp [Kw.has, List.any_eq_true]

theorem scan_keys (K : Classes) (klass : Nat) (r : String) (l : List (Obj × Nat)) (kw : Kw) :
    (∀ s ∈ kw.map Prod.fst, s ∈ (l.foldl (fun kw p => if K.isa p.1.cls klass then kw.put r (some p.2) else kw) kw).map Prod.fst) ∧
    ((kw.map Prod.fst).Nodup → ((l.foldl (fun kw p => if K.isa p.1.cls klass then kw.put r (some p.2) else kw) kw).map Prod.fst).Nodup) := by
  induction l generalizing kw with
  | nil => exact ⟨fun s h => h, fun h => h⟩
  | cons a t ih =>
    rw [List.foldl_cons]
    by_cases ha : K.isa a.1.cls klass = true
    · rw [if_pos ha]
      obtain ⟨h1, h2⟩ := ih (kw.put r (some a.2))
      exact ⟨fun s h => h1 s (put_keys kw r _ s h), fun h => h2 (put_nodup kw r _ h)⟩
    · rw [if_neg ha]
      exact ih kw

theorem scan_spec (K : Classes) (klass : Nat) (r : String) (l : List (Obj × Nat)) (kw : Kw) :
    (∀ p ∈ l.foldl (fun kw p => if K.isa p.1.cls klass then kw.put r (some p.2) else kw) kw,
      p ∈ kw ∨ ∃ q ∈ l, p = (r, some q.2) ∧ K.isa q.1.cls klass = true) ∧
    (kw.has r = true ∨ (∃ q ∈ l, K.isa q.1.cls klass = true) →
      Kw.has (l.foldl (fun kw p => if K.isa p.1.cls klass then kw.put r (some p.2) else kw) kw) r = true) := by
  induction l generalizing kw with
  | nil => simp
  | cons a t ih =>
    rw [List.foldl_cons]
    by_cases ha : K.isa a.1.cls klass = true
    · rw [if_pos ha]
      obtain ⟨h1, h2⟩ := ih (kw.put r (some a.2))
      refine ⟨fun p hp => ?_, fun _ => h2 (.inl (has_put ..))⟩
      rcases h1 p hp with h | ⟨q, hq, h⟩
      · rcases mem_put h with h | rfl
        · exact .inl h
        · exact .inr ⟨a, by simp, rfl, ha⟩
      · exact .inr ⟨q, by simp [hq], h⟩
    · rw [if_neg ha]
      obtain ⟨h1, h2⟩ := ih kw
      refine ⟨fun p hp => ?_, fun h => h2 ?_⟩
      · rcases h1 p hp with h | ⟨q, hq, h⟩
        · exact .inl h
        · exact .inr ⟨q, by simp [hq], h⟩
      · rcases h with h | ⟨q, hq, h⟩
        · exact .inl h
        · rcases List.mem_cons.mp hq with rfl | hq
          · exact absurd h ha
          · exact .inr ⟨q, hq, h⟩

/-- What is given: objects of the list so far, of the classes needed. -/
def GoodKw (K : Classes) (c : Nat) (env : List Obj) (kw : Kw) : Prop :=
  ∀ p ∈ kw, ∃ klass i o', p.2 = some i ∧ (p.1, klass) ∈ K.req c ∧ env[i]? = some o' ∧ K.isa o'.cls klass = true

theorem fill_ready (K : Classes) (can : Nat → List String → Bool) (c : Nat) (env : List Obj) (rest : List (String × Nat)) (kw : Kw)
    (hsub : ∀ p ∈ rest, p ∈ K.req c) (h : ∀ p ∈ rest, ∃ o ∈ env, K.isa o.cls p.2 = true) (hk : GoodKw K c env kw) (hn : (kw.map Prod.fst).Nodup) :
    (fill K can c rest (env, kw)).1 = env ∧ GoodKw K c env (fill K can c rest (env, kw)).2 ∧ ((fill K can c rest (env, kw)).2.map Prod.fst).Nodup ∧
      (∀ s ∈ kw.map Prod.fst, s ∈ (fill K can c rest (env, kw)).2.map Prod.fst) ∧ ∀ p ∈ rest, p.1 ∈ (fill K can c rest (env, kw)).2.map Prod.fst := by
  induction rest generalizing kw with
  | nil => exact ⟨rfl, hk, hn, fun s h => h, by simp⟩
  | cons p t ih =>
    obtain ⟨r, klass⟩ := p
    obtain ⟨s1, s2⟩ := scan_spec K klass r env.zipIdx kw
    have hhas : (scan K klass r env kw).has r = true := by
      apply s2
      obtain ⟨o, ho, h⟩ := h (r, klass) (by simp)
      obtain ⟨i, hi⟩ := List.mem_iff_getElem?.mp ho
      exact .inr ⟨(o, i), by rw [List.mem_zipIdx_iff_getElem?]; exact hi, h⟩
    simp only [fill, hhas, if_true]
    obtain ⟨k1, k2⟩ := scan_keys K klass r env.zipIdx kw
    obtain ⟨i1, i2, i3, i4, i5⟩ := ih (scan K klass r env kw) (fun p hp => hsub p (by simp [hp])) (fun p hp => h p (by simp [hp])) (by
      intro p hp
      rcases s1 p hp with h' | ⟨q, hq, rfl, h'⟩
      · exact hk p h'
      · exact ⟨klass, q.2, q.1, rfl, hsub _ (by simp), List.mem_zipIdx_iff_getElem?.mp hq, h'⟩) (k2 hn)
    refine ⟨i1, i2, i3, fun s hs => i4 s (k1 s hs), ?_⟩
    intro p hp
    rcases List.mem_cons.mp hp with rfl | hp
    · exact i4 _ ((has_iff _ _).mp hhas)
    · exact i5 p hp

theorem given_keys {K : Classes} {c : Nat} {env : List Obj} {kw : Kw} (hk : GoodKw K c env kw) : kw.given.map Prod.fst = kw.map Prod.fst := by
  induction kw with
  | nil => rfl
  | cons p t ih =>
    obtain ⟨_, i, _, e, _⟩ := hk p (by simp)
    have := ih (fun q hq => hk q (by simp [hq]))
    simp only [Kw.given] at this ⊢
    rw [List.filterMap_cons, e]
    simp [this]

theorem given_good {K : Classes} {c : Nat} {env : List Obj} {kw : Kw} (hk : GoodKw K c env kw) :
    ∀ p ∈ kw.given, ∃ klass o', (p.1, klass) ∈ K.req c ∧ env[p.2]? = some o' ∧ K.isa o'.cls klass = true := by
  intro p hp
  obtain ⟨q, hq, h⟩ := List.mem_filterMap.mp hp
  obtain ⟨klass, i, o', e, h1, h2, h3⟩ := hk q hq
  rw [e] at h
  simp only [Option.map_some, Option.some.injEq] at h
  subst h
  exact ⟨klass, o', h1, h2, h3⟩

/-- Every need of a class in the list is met by a class before it that can be made. -/
def Ready (K : Classes) (can : Nat → List String → Bool) : List Nat → List Nat → Prop
  | _, [] => True
  | before, c :: rest => (∀ p ∈ K.req c, ∃ d ∈ before, K.gridded d = true ∧ Makes can d ∧ K.isa d p.2 = true) ∧ Ready K can (c :: before) rest

theorem attempt_some {can : Nat → List String → Bool} {c : Nat} {kw : Kw} (h : Makes can c) : attempt can c kw = some ⟨c, kw.given⟩ := by
  rw [attempt, if_pos (h _)]

theorem attempt_eq {can : Nat → List String → Bool} {c : Nat} {kw : Kw} {o : Obj} (h : attempt can c kw = some o) : o = ⟨c, kw.given⟩ := by
  simp only [attempt] at h
  split at h
  · exact (Option.some.inj h).symm
  · cases h

theorem all_ready (K : Classes) (hK : K.Order) (can : Nat → List String → Bool) (L before : List Nat) (env : List Obj) (hr : Ready K can before L)
    (hb : ∀ d ∈ before, K.gridded d = true → Makes can d → ∃ o ∈ env, K.isa o.cls d = true) (ho : Once K env) (hf : RefsRight K env) :
    Once K (makeAll K can L env) ∧ RefsRight K (makeAll K can L env) := by
  induction L generalizing before env with
  | nil => exact ⟨ho, hf⟩
  | cons c t ih =>
    obtain ⟨r1, r2⟩ := hr
    simp only [makeAll]
    by_cases hc : (K.gridded c && !(env.any fun o => K.isa o.cls c)) = true
    · rw [if_pos hc]
      simp only [Bool.and_eq_true, Bool.not_eq_true', List.any_eq_false] at hc
      obtain ⟨f1, f2, f3, _, f5⟩ := fill_ready K can c env (K.req c) [] (fun p h => h) (by
        intro p hp
        obtain ⟨d, hd, g, m, i⟩ := r1 p hp
        obtain ⟨o, ho, h⟩ := hb d hd g m
        exact ⟨o, ho, hK.2 _ _ _ h i⟩) (by intro p hp; simp at hp) (by simp)
      cases ha : attempt can c (fill K can c (K.req c) (env, [])).2 with
      | none =>
        simp only [f1]
        refine ih (c :: before) env r2 ?_ ho hf
        intro d hd g m
        rcases List.mem_cons.mp hd with rfl | hd
        · rw [attempt_some m] at ha; cases ha
        · exact hb d hd g m
      | some o =>
        obtain rfl := attempt_eq ha
        simp only [f1]
        refine ih (c :: before) _ r2 ?_ ?_ ?_
        · intro d hd g m
          rcases List.mem_cons.mp hd with rfl | hd
          · exact ⟨_, List.mem_append_right _ (List.mem_singleton.mpr rfl), hK.1 _⟩
          · obtain ⟨o, ho, h⟩ := hb d hd g m
            exact ⟨o, by simp [ho], h⟩
        · refine List.pairwise_append.mpr ⟨ho, by simp, ?_⟩
          intro a ha b hb
          rw [List.mem_singleton] at hb; subst hb
          exact Bool.eq_false_iff.mpr (hc.2 a ha)
        · intro o hmem
          rcases List.mem_append.mp hmem with hmem | hmem
          · obtain ⟨g1, g2⟩ := hf o hmem
            refine ⟨fun p hp => ?_, g2⟩
            obtain ⟨k, o', h1, h2, h3⟩ := g1 p hp
            exact ⟨k, o', h1, by rw [List.getElem?_append_left (List.getElem?_eq_some_iff.mp h2).1]; exact h2, h3⟩
          · rw [List.mem_singleton] at hmem; subst hmem
            refine ⟨fun p hp => ?_, ?_, ?_⟩
            · obtain ⟨k, o', h1, h2, h3⟩ := given_good f2 p hp
              exact ⟨k, o', h1, by rw [List.getElem?_append_left (List.getElem?_eq_some_iff.mp h2).1]; exact h2, h3⟩
            · intro q hq
              simp only [given_keys f2]
              exact f5 q hq
            · simp only [given_keys f2]
              exact f3
    · rw [if_neg hc]
      refine ih (c :: before) env r2 ?_ ho hf
      intro d hd g m
      rcases List.mem_cons.mp hd with rfl | hd
      · simp only [g, Bool.true_and, Bool.not_eq_true', Bool.not_eq_false] at hc
        obtain ⟨o, ho, h⟩ := List.any_eq_true.mp hc
        exact ⟨o, ho, h⟩
      · exact hb d hd g m

theorem fill_mono (K : Classes) (can : Nat → List String → Bool) (c : Nat) (rest : List (String × Nat)) (env : List Obj) (kw : Kw) :
    ∀ o ∈ env, o ∈ (fill K can c rest (env, kw)).1 := by
  induction rest generalizing env kw with
  | nil => exact fun o h => h
  | cons p t ih =>
    obtain ⟨r, klass⟩ := p
    intro o ho
    simp only [fill]
    split
    · exact ih _ _ o ho
    · split
      · exact ih _ _ o (by simp [ho])
      · exact ih _ _ o ho

theorem makeAll_mono (K : Classes) (can : Nat → List String → Bool) (L : List Nat) (env : List Obj) :
    ∀ o ∈ env, o ∈ makeAll K can L env := by
  induction L generalizing env with
  | nil => exact fun o h => h
  | cons c t ih =>
    intro o ho
    simp only [makeAll]
    split
    · have := fill_mono K can c (K.req c) env [] o ho
      split
      · exact ih _ o (by simp [this])
      · exact ih _ o this
    · exact ih _ o ho

/-- With a list of classes, what the file has is there, for all lists. -/
theorem C229_all (K : Classes) (hK : K.Order) (can : Nat → List String → Bool) (L : List Nat) (c : Nat) (hc : c ∈ L) (hg : K.gridded c = true)
    (hm : Makes can c) : ∃ o ∈ envFromFile K can (some L), K.isa o.cls c = true := by
  suffices h : ∀ (L : List Nat) (env : List Obj), c ∈ L → ∃ o ∈ makeAll K can L env, K.isa o.cls c = true from h L [] hc
  intro L
  induction L with
  | nil => intro env h; simp at h
  | cons d t ih =>
    intro env h
    by_cases hd : c = d
    · subst hd
      simp only [makeAll, hg, Bool.true_and]
      split
      · rw [attempt_some hm]
        exact ⟨_, makeAll_mono K can t _ _ (List.mem_append_right _ (List.mem_singleton.mpr rfl)), hK.1 _⟩
      · rename_i hn
        simp only [Bool.not_eq_true', Bool.not_eq_false] at hn
        obtain ⟨o, ho, h⟩ := List.any_eq_true.mp hn
        exact ⟨o, makeAll_mono K can t _ _ ho, h⟩
    · have h : c ∈ t := by
        rcases List.mem_cons.mp h with h | h
        · exact absurd h hd
        · exact h
      simp only [makeAll]
      split
      · split <;> exact ih _ h
      · exact ih _ h

/-- C229: with a list in which every class comes after those that it needs, and these can be made. Missing: the default (`C229_default`), and
lists in another order (`C229_itself`). -/
theorem C229_partial (K : Classes) (hK : K.Order) (can : Nat → List String → Bool) (L : List Nat) (hr : Ready K can [] L) :
    (∀ c ∈ L, K.gridded c = true → Makes can c → ∃ o ∈ envFromFile K can (some L), K.isa o.cls c = true) ∧
    Once K (envFromFile K can (some L)) ∧ RefsRight K (envFromFile K can (some L)) := by
  obtain ⟨h1, h2⟩ := all_ready K hK can L [] [] hr (by simp) (by simp [Once]) (by simp [RefsRight])
  exact ⟨fun c hc hg hm => C229_all K hK can L c hc hg hm, h1, h2⟩

example : Ready ice (fun _ _ => true) [] [1, 0] := by
  refine ⟨by simp [ice], ?_, trivial⟩
  intro p hp
  simp only [ice, if_true, List.mem_singleton] at hp
  subst hp
  exact ⟨1, by simp, rfl, fun _ => rfl, rfl⟩

example : envFromFile ice (fun _ _ => true) (some [1, 0]) = [⟨1, []⟩, ⟨0, [("ice_concentration", 0)]⟩] := by rfl

/-- A class that comes first and needs one thing: it is there twice, and the second refers to the first. -/
theorem C229_itself (K : Classes) (can : Nat → List String → Bool) (c k : Nat) (r : String) (t : List Nat) (hq : K.req c = [(r, k)])
    (hg : K.gridded c = true) (hm : Makes can c) :
    ∃ env, envFromFile K can (some (c :: t)) = env ∧ (⟨c, []⟩ : Obj) ∈ env ∧ (⟨c, [(r, 0)]⟩ : Obj) ∈ env := by
  refine ⟨_, rfl, ?_⟩
  have hs : scan K k r [] [] = [] := rfl
  have h1 : envFromFile K can (some (c :: t)) = makeAll K can t [⟨c, []⟩, ⟨c, [(r, 0)]⟩] := by
    simp [envFromFile, makeAll, hg, hq, fill, scan, attempt_some hm, Kw.has, Kw.put, Kw.given]
  rw [h1]
  exact ⟨makeAll_mono K can t _ _ (by simp), makeAll_mono K can t _ _ (by simp)⟩

end Verif.Fields.EnvFile
