import Verif.Persist.SaveLocModel
/-!
# C290-C292: where an object is saved
-/
namespace Verif.Persist.SaveLoc

/-- The place a save to a path ends at, as the documentation has it: in a folder a file named after the object, else the path with the suffix of a save file. -/
def place {C : Type} (fs : FS C) (p name : Path) : Path := if isDir fs p then inDir p name else withSuffix p

/-- The schemas write without an exception, at names that are not yet in the archive (`gen_unique_filename`) and are none of the version files. -/
structure Writes {C : Type} (o : Obj C) : Prop where
  ok : ∀ old, (o.write old).ok = true
  fresh : ∀ old, ∀ e ∈ (o.write old).entries, e.1 ∉ old ∧ e.1 ≠ versionTxt ∧ e.1 ≠ pygnomeTxt

/-- All files written for the object can be read from the archive. -/
def Holds {C : Type} (o : Obj C) (old : List Path) (es : Entries C) : Prop :=
  (∀ n, n ∈ (o.write old).entries.map Prod.fst → read es n = read (o.write old).entries n) ∧
  read es versionTxt = some o.version ∧ read es pygnomeTxt = some o.pygnome

theorem read_append {C : Type} (a b : Entries C) (n : Path) : read (a ++ b) n = (read b n).or (read a n) := by
  unfold read
  rw [List.filter_append, List.getLast?_append]
  cases (b.filter (fun e => e.1 == n)).getLast? <;> simp

theorem read_absent {C : Type} (a : Entries C) (n : Path) (h : n ∉ a.map Prod.fst) : read a n = none := by
  unfold read
  have : a.filter (fun e => e.1 == n) = [] := by
    rw [List.filter_eq_nil_iff]
    intro e he hc
    rw [beq_iff_eq] at hc
    exact h (List.mem_map.2 ⟨e, he, hc⟩)
  rw [this]; rfl

theorem version_ne : versionTxt ≠ pygnomeTxt := by decide

theorem read_versions {C : Type} (v p : C) (n : Path) : read [(versionTxt, v), (pygnomeTxt, p)] n =
    if n = versionTxt then some v else if n = pygnomeTxt then some p else none := by
  by_cases h1 : n = versionTxt
  · subst h1
    rw [if_pos rfl]
    unfold read
    rw [List.filter_cons_of_pos (by simp), List.filter_cons_of_neg (by simp [Ne.symm version_ne])]
    rfl
  · rw [if_neg h1]
    by_cases h2 : n = pygnomeTxt
    · subst h2
      rw [if_pos rfl]
      unfold read
      rw [List.filter_cons_of_neg (by simp [version_ne]), List.filter_cons_of_pos (by simp)]
      rfl
    · rw [if_neg h2]
      apply read_absent
      simp [h1, h2]

theorem filled_holds {C : Type} (o : Obj C) (h : Writes o) (old : Entries C) : Holds o (old.map Prod.fst) (filled o old) := by
  have e : filled o old = old ++ (o.write (old.map Prod.fst)).entries ++ [(versionTxt, o.version), (pygnomeTxt, o.pygnome)] := by
    unfold filled; simp only; rw [if_pos (h.ok _)]
  rw [e]
  refine ⟨?_, ?_, ?_⟩
  · intro n hn
    obtain ⟨x, hx, rfl⟩ := List.mem_map.1 hn
    obtain ⟨f1, f2, f3⟩ := h.fresh _ x hx
    rw [read_append, read_versions, if_neg f2, if_neg f3, Option.none_or, read_append, read_absent old x.1 f1, Option.or_none]
  · rw [read_append, read_versions, if_pos rfl]; rfl
  · rw [read_append, read_versions, if_neg (Ne.symm version_ne), if_pos rfl]; rfl

/-- earlier files of an archive that is added to are as before -/
theorem filled_keeps {C : Type} (o : Obj C) (h : Writes o) (old : Entries C) (n : Path) (hn : n ∈ old.map Prod.fst) (h1 : n ≠ versionTxt) (h2 : n ≠ pygnomeTxt) :
    read (filled o old) n = read old n := by
  have e : filled o old = old ++ (o.write (old.map Prod.fst)).entries ++ [(versionTxt, o.version), (pygnomeTxt, o.pygnome)] := by
    unfold filled; simp only; rw [if_pos (h.ok _)]
  rw [e, read_append, read_versions, if_neg h1, if_neg h2, Option.none_or, read_append, read_absent (o.write (old.map Prod.fst)).entries, Option.none_or]
  intro hc
  obtain ⟨x, hx, rfl⟩ := List.mem_map.1 hc
  exact (h.fresh _ x hx).1 hn

/-- C290. The place: a path that ends in `.zip` or `.gnome` is taken as it is, any other gets `.gnome`; in a folder `d` it is `d/m.gnome` where `m` is the name of
the object without the characters that a file name may not have, and no other is left out. -/
theorem C290_place (p d n : Path) :
    ((∃ q, p = q ++ ".zip".toList ∨ p = q ++ ".gnome".toList) → withSuffix p = p) ∧
    ((∀ q, p ≠ q ++ ".zip".toList ∧ p ≠ q ++ ".gnome".toList) → withSuffix p = p ++ ".gnome".toList) ∧
    (∃ m, inDir d n = d ++ '/' :: m ++ ".gnome".toList ∧ m.Sublist n ∧ (∀ c ∈ m, c ∉ "\\/*?:\"<>|".toList) ∧
      ∀ c, c ∉ "\\/*?:\"<>|".toList → m.count c = n.count c) := by
  have hb : ∀ c, bad c = true ↔ c ∈ "\\/*?:\"<>|".toList := by
    intro c
    have : "\\/*?:\"<>|".toList = ['\\', '/', '*', '?', ':', '"', '<', '>', '|'] := by decide
    rw [this]
    simp only [bad, Bool.or_eq_true, beq_iff_eq, List.mem_cons, List.not_mem_nil, or_false, or_assoc]
  refine ⟨?_, ?_, sanitize n, ?_, List.filter_sublist, ?_, ?_⟩
  · rintro ⟨q, hq | hq⟩
    · unfold withSuffix; rw [if_pos (Or.inl ⟨q, hq.symm⟩)]
    · unfold withSuffix; rw [if_pos (Or.inr ⟨q, hq.symm⟩)]
  · intro h
    unfold withSuffix
    rw [if_neg]
    · rfl
    · rintro (⟨q, hq⟩ | ⟨q, hq⟩)
      · exact (h q).1 hq.symm
      · exact (h q).2 hq.symm
  · unfold inDir
    simp [dotGnome]
  · intro c hc
    have := (List.mem_filter.1 hc).2
    rw [← hb c]
    simpa using this
  · intro c hc
    unfold sanitize
    apply List.count_filter
    have : bad c ≠ true := fun h => hc ((hb c).1 h)
    simpa using this

/-- C290. With overwriting allowed and a place that can be written to, a save to a path puts exactly the files of the object into the archive at the place of the
documentation, returns that place, and touches nothing else. -/
theorem C290_overwrite {C : Type} (parent : Path → Bool) (o : Obj C) (h : Writes o) (p : Path) (fs : FS C) (hp : parent (place fs p o.name) = true)
    (hd : isDir fs (place fs p o.name) = false) : ∃ es fs', save parent o (.path p) true fs = (.saved (place fs p o.name), fs') ∧
      fs' (place fs p o.name) = some (.zip es) ∧ Holds o [] es ∧
      (∀ n ∈ es.map Prod.fst, n ∈ (o.write []).entries.map Prod.fst ∨ n = versionTxt ∨ n = pygnomeTxt) ∧
      ∀ q, q ≠ place fs p o.name → fs' q = fs q := by
  have key : save parent o (.path p) true fs = writeTo parent o (place fs p o.name) [] fs := by
    unfold save place
    simp only
    by_cases hi : isDir fs p = true
    · rw [if_pos hi, if_neg (by simp), if_pos hi]
    · rw [if_neg hi, if_pos trivial, if_neg hi]
  refine ⟨filled o [], fs.set (place fs p o.name) (some (.zip (filled o []))), ?_, ?_, filled_holds o h [], ?_, ?_⟩
  · rw [key]
    unfold writeTo
    rw [if_pos ⟨hp, hd⟩, if_pos (h.ok _)]
  · simp [FS.set]
  · intro n hn
    unfold filled at hn
    simp only at hn
    rw [if_pos (h.ok _)] at hn
    simp only [List.nil_append, List.map_append, List.mem_append, List.map_cons, List.map_nil, List.mem_cons, List.not_mem_nil, or_false] at hn
    exact hn
  · intro q hq
    simp [FS.set, hq]

/-- C290. Without overwriting, a save into a folder is refused when the file is there, and a save to an archive adds to it: what was in it can be read as before. -/
theorem C290_keep {C : Type} (parent : Path → Bool) (o : Obj C) (h : Writes o) (p : Path) (fs : FS C) :
    (isDir fs p = true → (fs (inDir p o.name)).isSome = true → save parent o (.path p) false fs = (.valueError, fs)) ∧
    (isDir fs p = true → fs (inDir p o.name) = none → parent (inDir p o.name) = true →
      save parent o (.path p) false fs = save parent o (.path p) true fs) ∧
    (isDir fs p = false → ∀ old, fs (withSuffix p) = some (.zip old) → parent (withSuffix p) = true →
      ∃ es fs', save parent o (.path p) false fs = (.saved (withSuffix p), fs') ∧ fs' (withSuffix p) = some (.zip es) ∧
        Holds o (old.map Prod.fst) es ∧ (∀ n ∈ old.map Prod.fst, n ≠ versionTxt → n ≠ pygnomeTxt → read es n = read old n) ∧
        ∀ q, q ≠ withSuffix p → fs' q = fs q) ∧
    (isDir fs p = false → ∀ c, fs (withSuffix p) = some (.other c) → save parent o (.path p) false fs = (.valueError, fs)) := by
  refine ⟨?_, ?_, ?_, ?_⟩
  · intro hd he
    unfold save; simp only
    rw [if_pos hd, if_pos ⟨he, trivial⟩]
  · intro hd he _
    unfold save; simp only
    rw [if_pos hd, if_pos hd, if_neg (by simp [he]), if_neg (by simp [he])]
  · intro hd old ho hp
    refine ⟨filled o old, fs.set (withSuffix p) (some (.zip (filled o old))), ?_, by simp [FS.set], filled_holds o h old,
      fun n hn h1 h2 => filled_keeps o h old n hn h1 h2, fun q hq => by simp [FS.set, hq]⟩
    unfold save; simp only
    rw [if_neg (by simp [hd]), if_neg (by simp)]
    have : isZip fs (withSuffix p) = some old := by unfold isZip; rw [ho]
    rw [this]
    simp only
    unfold writeTo
    rw [if_pos ⟨hp, by unfold isDir; rw [ho]⟩, if_pos (h.ok _)]
  · intro hd c hc
    unfold save; simp only
    rw [if_neg (by simp [hd]), if_neg (by simp)]
    have : isZip fs (withSuffix p) = none := by unfold isZip; rw [hc]
    rw [this]

/-- C290. Without a place, the files are in an open archive and the disk is as it was. -/
theorem C290_none {C : Type} (parent : Path → Bool) (o : Obj C) (h : Writes o) (overwrite : Bool) (fs : FS C) :
    ∃ es, save parent o .none overwrite fs = (.open es, fs) ∧ Holds o [] es := by
  refine ⟨filled o [], ?_, filled_holds o h []⟩
  unfold save; simp only
  rw [if_pos (h.ok _)]

/-- C290, the rest of the documentation: a file that does not exist is created whatever `overwrite` says, and an open archive is added to. -/
def C290_claim : Prop :=
  ∀ (parent : Path → Bool) (o : Obj Nat) (fs : FS Nat), Writes o → (∀ p, parent p = true) →
    (∀ p, isDir fs p = false → fs (withSuffix p) = none → ∃ q fs', save parent o (.path p) false fs = (.saved q, fs')) ∧
    (∀ es, ∃ es' fs', save parent o (.archive es) false fs = (.open es', fs'))

def sample : Obj Nat := ⟨"Model".toList, fun old => ⟨if "Model.json".toList ∈ old then [] else [("Model.json".toList, 1)], true⟩, 5, 7⟩

theorem sample_writes : Writes sample := by
  refine ⟨fun _ => rfl, ?_⟩
  intro old e he
  unfold sample at he
  simp only at he
  split at he
  · simp at he
  · rename_i h
    simp only [List.mem_cons, List.not_mem_nil, or_false] at he
    subst he
    exact ⟨h, by decide, by decide⟩

/-- A new file without overwriting is refused as existing; an open archive is refused. -/
theorem C290_counterexample : ¬ C290_claim ∧
    (∀ p : Path, save (fun _ => true) sample (.path p) false (fun _ => none) = (.valueError, fun _ => none)) ∧
    ∀ es : Entries Nat, save (fun _ => true) sample (.archive es) false (fun _ => none) = (.typeError, fun _ => none) := by
  refine ⟨fun h => ?_, fun p => rfl, fun es => rfl⟩
  obtain ⟨_, h2⟩ := h (fun _ => true) sample (fun _ => none) sample_writes (fun _ => rfl)
  obtain ⟨es', fs', h3⟩ := h2 []
  have h4 := congrArg Prod.fst h3
  exact absurd h4 nofun

/-- C291, claim: a save that does not succeed leaves every file as it was. -/
def C291_claim : Prop :=
  ∀ (parent : Path → Bool) (o : Obj Nat) (loc : Loc Nat) (overwrite : Bool) (fs : FS Nat),
    (∀ p, (save parent o loc overwrite fs).1 ≠ .saved p) → (save parent o loc overwrite fs).2 = fs

/-- C291. A save that is refused leaves every file as it was. Missing for the full claim: an exception while the files of the object are written. -/
theorem C291_refused_partial {C : Type} (parent : Path → Bool) (o : Obj C) (loc : Loc C) (overwrite : Bool) (fs : FS C)
    (h : ∀ p, (save parent o loc overwrite fs).1 ≠ .saved p) (hw : ∀ old, (o.write old).ok = true) : (save parent o loc overwrite fs).2 = fs := by
  have key : ∀ q old, (∀ p, (writeTo parent o q old fs).1 ≠ .saved p) → (writeTo parent o q old fs).2 = fs := by
    intro q old hq
    unfold writeTo at hq ⊢
    split
    · rename_i hc
      exfalso
      apply hq q
      rw [if_pos hc, if_pos (hw _)]
    · rfl
  unfold save at h ⊢
  cases loc with
  | none => rfl
  | archive es => rfl
  | path p =>
    simp only at h ⊢
    by_cases hd : isDir fs p = true
    · rw [if_pos hd] at h ⊢
      by_cases hc : (fs (inDir p o.name)).isSome = true ∧ overwrite = false
      · rw [if_pos hc]
      · rw [if_neg hc] at h ⊢
        exact key _ _ h
    · rw [if_neg hd] at h ⊢
      by_cases ho : overwrite = true
      · rw [if_pos ho] at h ⊢
        exact key _ _ h
      · rw [if_neg ho] at h ⊢
        cases hz : isZip fs (withSuffix p) with
        | none => simp only
        | some old =>
          simp only [hz] at h ⊢
          exact key _ _ h

/-- C291. Even one that raises an exception while writing touches no other file, and when it adds to an archive what was in it can be read as before. -/
theorem C291_others {C : Type} (parent : Path → Bool) (o : Obj C) (p : Path) (overwrite : Bool) (fs : FS C) (q : Path) (hq : q ≠ place fs p o.name) :
    (save parent o (.path p) overwrite fs).2 q = fs q := by
  have key : ∀ t old, q ≠ t → (writeTo parent o t old fs).2 q = fs q := by
    intro t old ht
    unfold writeTo
    split
    · simp [FS.set, ht]
    · rfl
  unfold save place at *
  simp only
  by_cases hd : isDir fs p = true
  · rw [if_pos hd] at hq ⊢
    split
    · rfl
    · exact key _ _ hq
  · rw [if_neg hd] at hq ⊢
    split
    · exact key _ _ hq
    · split
      · exact key _ _ hq
      · rfl

/-- The earlier save file is gone when the new one cannot be written. -/
theorem C291_counterexample : ¬ C291_claim ∧
    (save (fun _ => true) ⟨"M".toList, fun _ => ⟨[], false⟩, 5, 7⟩ (.path "a.gnome".toList) true
      (fun q => if q = "a.gnome".toList then some (.zip [("Model.json".toList, 1)]) else none)).2 "a.gnome".toList = some (.zip ([] : Entries Nat)) := by
  have k : (save (fun _ => true) ⟨"M".toList, fun _ => ⟨[], false⟩, 5, 7⟩ (.path "a.gnome".toList) true
      (fun q => if q = "a.gnome".toList then some (.zip [("Model.json".toList, 1)]) else none)).2 "a.gnome".toList = some (.zip ([] : Entries Nat)) := by
    rfl
  refine ⟨fun h => ?_, k⟩
  have := h (fun _ => true) ⟨"M".toList, fun _ => ⟨[], false⟩, 5, 7⟩ (.path "a.gnome".toList) true
    (fun q => if q = "a.gnome".toList then some (.zip [("Model.json".toList, 1)]) else none) (by
      intro p hc
      have e : (save (fun _ => true) ⟨"M".toList, fun _ => ⟨[], false⟩, 5, 7⟩ (.path "a.gnome".toList) true
        (fun q => if q = "a.gnome".toList then some (.zip [("Model.json".toList, 1)]) else none)).1 = (.failed : Res Nat) := rfl
      rw [e] at hc
      exact absurd hc nofun)
  rw [this] at k
  simp only [if_pos] at k
  injection k with k
  injection k with k
  simp at k

/-- C292, claim: a model saved in the middle of a run leaves every file but the save file as it was. -/
def C292_claim : Prop :=
  ∀ (parent : Path → Bool) (o : Obj Nat) (m : MidRun Nat) (p : Path) (overwrite : Bool) (fs : FS Nat) (q : Path), Writes o → q ≠ place fs p o.name →
    (saveModel parent o (some m) (.path p) overwrite fs).2 q = fs q

theorem isZip_of {C : Type} {fs : FS C} {p : Path} {es : Entries C} (h : fs p = some (.zip es)) : isZip fs p = some es := by
  unfold isZip; rw [h]

/-- what a save that succeeds says -/
theorem save_saved {C : Type} (parent : Path → Bool) (o : Obj C) (p t : Path) (overwrite : Bool) (fs fs' : FS C)
    (h : save parent o (.path p) overwrite fs = (.saved t, fs')) : t = place fs p o.name ∧ ∃ es, fs' t = some (.zip es) := by
  have key : ∀ q old, writeTo parent o q old fs = (.saved t, fs') → t = q ∧ ∃ es, fs' t = some (.zip es) := by
    intro q old hq
    unfold writeTo at hq
    split at hq
    · split at hq
      · injection hq with h1 h2
        injection h1 with h1
        subst h1 h2
        exact ⟨rfl, _, by simp [FS.set]; rfl⟩
      · injection hq with h1 h2
        exact absurd h1 nofun
    · injection hq with h1 h2
      exact absurd h1 nofun
  unfold save place at *
  simp only at h
  by_cases hd : isDir fs p = true
  · rw [if_pos hd] at h ⊢
    split at h
    · injection h with h1 h2
      exact absurd h1 nofun
    · exact key _ _ h
  · rw [if_neg hd] at h ⊢
    split at h
    · exact key _ _ h
    · split at h
      · exact key _ _ h
      · injection h with h1 h2
        exact absurd h1 nofun

/-- C292. A model saved in the middle of a run: its archive also holds the state of the elements (and of the uncertain ones), and other files are as before, if the
working directory has none of the two names that are used. Missing for the full claim: such files are lost. -/
theorem C292_partial {C : Type} (parent : Path → Bool) (o : Obj C) (m : MidRun C) (p : Path) (overwrite : Bool) (fs fs1 : FS C) (t : Path)
    (hs : save parent o (.path p) overwrite fs = (.saved t, fs1)) (h1 : fs ncName = none) (h2 : fs ncUncertain = none) :
    ∃ es fs', fs1 t = some (.zip es) ∧ saveModel parent o (some m) (.path p) overwrite fs = (.saved t, fs') ∧
      fs' t = some (.zip (es ++ m.entries)) ∧ read (es ++ m.entries) ncName = some m.state ∧
      (∀ u, m.uncertain = some u → read (es ++ m.entries) ncUncertain = some u) ∧
      (∀ n, n ≠ ncName → n ≠ ncUncertain → read (es ++ m.entries) n = read es n) ∧
      ∀ q, q ≠ t → fs' q = fs q := by
  obtain ⟨ht, es, hes⟩ := save_saved parent o p t overwrite fs fs1 hs
  have hne : ncName ≠ ncUncertain := by decide
  refine ⟨es, (tidy fs1).set t (some (.zip (es ++ m.entries))), hes, ?_, by simp [FS.set], ?_, ?_, ?_, ?_⟩
  · unfold saveModel
    simp only [hs]
    rw [isZip_of hes]
  · rw [read_append]
    have : read m.entries ncName = some m.state := by
      unfold MidRun.entries
      have e : ∀ rest : Entries C, (∀ x ∈ rest, x.1 ≠ ncName) → read ((ncName, m.state) :: rest) ncName = some m.state := by
        intro rest hr
        have := read_append [(ncName, m.state)] rest ncName
        rw [List.singleton_append] at this
        rw [this, read_absent rest, Option.none_or]
        · simp [read]
        · intro hc
          obtain ⟨x, hx, hxn⟩ := List.mem_map.1 hc
          exact hr x hx hxn
      apply e
      cases m.uncertain with
      | none => simp
      | some u => simp [Ne.symm hne]
    rw [this]; rfl
  · intro u hu
    rw [read_append]
    have : read m.entries ncUncertain = some u := by
      unfold MidRun.entries
      rw [hu]
      simp only
      have := read_append [(ncName, m.state)] [(ncUncertain, u)] ncUncertain
      rw [List.singleton_append] at this
      rw [this]
      simp [read]
    rw [this]; rfl
  · intro n hn1 hn2
    rw [read_append, read_absent m.entries n, Option.none_or]
    unfold MidRun.entries
    cases m.uncertain <;> simp [hn1, hn2]
  · intro q hq
    have hq' : q ≠ place fs p o.name := by rw [← ht]; exact hq
    have ho := C291_others parent o p overwrite fs q hq'
    rw [hs] at ho
    simp only [FS.set, tidy, hq, if_false]
    by_cases e1 : q = ncUncertain
    · rw [if_pos e1, e1, h2]
    · rw [if_neg e1]
      by_cases e2 : q = ncName
      · rw [if_pos e2, e2, h1]
      · rw [if_neg e2]; exact ho

/-- C292. Without a place, the open archive holds the state as well. -/
theorem C292_open {C : Type} (parent : Path → Bool) (o : Obj C) (h : Writes o) (m : MidRun C) (overwrite : Bool) (fs : FS C) (h1 : fs ncName = none)
    (h2 : fs ncUncertain = none) : ∃ es, save parent o .none overwrite fs = (.open es, fs) ∧
      saveModel parent o (some m) .none overwrite fs = (.open (es ++ m.entries), fs) := by
  obtain ⟨es, he, _⟩ := C290_none parent o h overwrite fs
  refine ⟨es, he, ?_⟩
  unfold saveModel
  simp only [he]
  congr 1
  funext q
  simp only [tidy, FS.set]
  split
  · rename_i e; rw [e, h2]
  · split
    · rename_i e; rw [e, h1]
    · rfl

/-- A file `spills_data_arrays.nc` in the working directory is lost. -/
theorem C292_counterexample : ¬ C292_claim ∧
    ((saveModel (fun _ => true) sample (some ⟨3, none⟩) (.path "a.gnome".toList) true (fun q => if q = ncName then some (.other 9) else none)).2 ncName).isNone = true := by
  have k : ((saveModel (fun _ => true) sample (some ⟨3, none⟩) (.path "a.gnome".toList) true (fun q => if q = ncName then some (.other 9) else none)).2
      ncName).isNone = true := rfl
  refine ⟨fun h => ?_, k⟩
  have := h (fun _ => true) sample ⟨3, none⟩ "a.gnome".toList true (fun q => if q = ncName then some (.other 9) else none) ncName sample_writes (by decide)
  rw [this] at k
  simp at k

example : inDir "out".toList "spill: A/B".toList = "out/spill AB.gnome".toList := by decide

example : withSuffix "my.save".toList = "my.save.gnome".toList ∧ withSuffix "my.zip".toList = "my.zip".toList := by decide

end Verif.Persist.SaveLoc
