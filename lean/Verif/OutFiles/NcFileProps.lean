import Verif.OutFiles.NcFileModel
import Mathlib.Data.List.TakeWhile

/-!
# C332, C333: the files of a netCDF output
-/
namespace Verif.OutFiles.NcFile

variable {α : Type}

/-! ## Names -/

theorem takeWhile_rev_app (c : Char) (a b : Str) (hb : c ∉ b) (ha : a = [] ∨ ∃ r, a = r ++ [c]) :
    ((a ++ b).reverse.takeWhile (· ≠ c)).reverse = b := by
  have h : ∀ x ∈ b.reverse, decide (x ≠ c) = true := by
    intro x hx
    simp only [List.mem_reverse] at hx
    simp only [decide_eq_true_eq]
    rintro rfl
    exact hb hx
  rw [List.reverse_append, List.takeWhile_append_of_pos h]
  rcases ha with rfl | ⟨r, rfl⟩
  · simp
  · simp

theorem splitExt_app (p : Str) : (splitExt p).1 ++ (splitExt p).2 = p := by
  unfold splitExt
  split
  · exact List.take_append_drop _ _
  · simp

/-- C332 -/
theorem C332_names (d s e : Str) (z : Bool) (hd : d = [] ∨ ∃ r, d = r ++ ['/']) (hs : '/' ∉ s) (hs' : ∃ c ∈ s, c ≠ '.')
    (he : '/' ∉ e) (he' : '.' ∉ e) :
    make (d ++ (s ++ '.' :: e)) z =
      ⟨if z then d ++ (s ++ ".zip".toList) else d ++ (s ++ '.' :: e), d ++ (s ++ '.' :: e),
        d ++ (s ++ ("_uncertain".toList ++ '.' :: e)), d ++ (s ++ ".zip".toList), z⟩ := by
  have hb : baseName (d ++ (s ++ '.' :: e)) = s ++ '.' :: e := by
    apply takeWhile_rev_app _ _ _ _ hd
    simp [hs, he]
  have ha : afterDot (s ++ '.' :: e) = e := by
    have := takeWhile_rev_app '.' (s ++ ['.']) e he' (Or.inr ⟨s, rfl⟩)
    simpa [afterDot] using this
  have hf : beforeDot (s ++ '.' :: e) = s := by
    unfold beforeDot
    rw [ha]
    simp
  have hx : splitExt (d ++ (s ++ '.' :: e)) = (d ++ s, '.' :: e) := by
    unfold splitExt
    rw [hb, ha, hf, if_pos]
    · have hl : (d ++ (s ++ '.' :: e)).length - (e.length + 1) = (d ++ s).length := by
        simp only [List.length_append, List.length_cons]
        omega
      rw [hl, ← List.append_assoc, List.take_left, List.drop_left]
    · refine ⟨by simp, ?_⟩
      rw [List.any_eq_true]
      obtain ⟨c, hc, hn⟩ := hs'
      exact ⟨c, hc, by simpa using hn⟩
  unfold make
  rw [hx]
  cases z <;> simp

theorem unc_ne (f : Str) (z : Bool) : (make f z).unc ≠ f := by
  intro h
  have h1 : (make f z).unc.length = f.length := by rw [h]
  have h2 : (splitExt f).1.length + (splitExt f).2.length = f.length := by
    rw [← List.length_append, splitExt_app]
  simp only [make, List.length_append] at h1
  have : "_uncertain".toList.length = 10 := by decide
  omega

theorem zip_ne_unc (f : Str) (z : Bool) : (make f z).zip ≠ (make f z).unc := by
  intro h
  simp only [make] at h
  have h := List.append_cancel_left h
  rw [show ".zip".toList = ['.', 'z', 'i', 'p'] by decide, show "_uncertain".toList = '_' :: "uncertain".toList by decide] at h
  simp at h

theorem zip_ne (f : Str) (z : Bool) (h : (splitExt f).2 ≠ ".zip".toList) : (make f z).zip ≠ f := by
  intro h'
  apply h
  simp only [make] at h'
  have := splitExt_app f
  exact (List.append_cancel_left (h'.trans this.symm)).symm

/-! ## The run -/

theorem steps_eq (o : Nc) (u : Bool) (hn : o.unc ≠ o.forecast) (ds : List (α × α)) (fs : FS α) (l m : List α)
    (hl : fs o.forecast = some (.nc l)) (hm : u = true → fs o.unc = some (.nc m)) :
    ∃ fs', steps o u ds fs = some fs' ∧ fs' o.forecast = some (.nc (l ++ ds.map (·.1))) ∧
      (u = true → fs' o.unc = some (.nc (m ++ ds.map (·.2)))) ∧ (u = false → fs' o.unc = fs o.unc) ∧
      ∀ p, p ≠ o.forecast → p ≠ o.unc → fs' p = fs p := by
  induction ds generalizing fs l m with
  | nil => exact ⟨fs, rfl, by simpa using hl, by simpa using hm, fun _ => rfl, fun _ _ _ => rfl⟩
  | cons d r ih =>
    cases u with
    | false =>
      have hw : write o false fs d = some (put fs o.forecast (.nc (l ++ [d.1]))) := by
        simp [write, add, hl]
      obtain ⟨fs', h1, h2, _, h3, h4⟩ := ih (put fs o.forecast (.nc (l ++ [d.1]))) (l ++ [d.1]) [] (by simp [put]) (by simp)
      refine ⟨fs', by simp [steps, hw, h1], by simpa using h2, by simp, fun h => ?_, fun p hp hp' => ?_⟩
      · rw [h3 h]
        simp [put, hn]
      · rw [h4 p hp hp']
        simp [put, hp]
    | true =>
      have hm := hm rfl
      have hw : write o true fs d = some (put (put fs o.forecast (.nc (l ++ [d.1]))) o.unc (.nc (m ++ [d.2]))) := by
        simp [write, add, hl, put, hn, hm]
      obtain ⟨fs', h1, h2, h3, _, h4⟩ := ih (put (put fs o.forecast (.nc (l ++ [d.1]))) o.unc (.nc (m ++ [d.2])))
        (l ++ [d.1]) (m ++ [d.2]) (by simp [put, hn.symm]) (by simp [put])
      refine ⟨fs', by simp [steps, hw, h1], by simpa using h2, fun h => by simpa using h3 h, by simp, fun p hp hp' => ?_⟩
      rw [h4 p hp hp']
      simp [put, hp, hp']

theorem before_post (o : Nc) (u : Bool) (hn : o.unc ≠ o.forecast) (ds : List (α × α)) (fs : FS α) :
    ∃ fs', (prepare o u fs).bind (steps o u ds) = some fs' ∧ fs' o.forecast = some (.nc (ds.map (·.1))) ∧
      fs' o.unc = (if u then some (.nc (ds.map (·.2))) else none) ∧
      ∀ p, p ≠ o.forecast → p ≠ o.unc → fs' p = if p = o.filename then none else fs p := by
  cases u with
  | false =>
    have hp : prepare o false fs = some (put (clean o fs) o.forecast (.nc [])) := by
      simp [prepare, create, clean, rm]
    obtain ⟨fs', h1, h2, _, h3, h4⟩ := steps_eq o false hn ds (put (clean o fs) o.forecast (.nc [])) [] [] (by simp [put]) (by simp)
    refine ⟨fs', by simp [hp, h1], by simpa using h2, ?_, fun p hp hp' => ?_⟩
    · rw [h3 rfl]
      simp [put, hn, clean, rm]
    · rw [h4 p hp hp']
      simp [put, hp, clean, rm, hp']
  | true =>
    have hp : prepare o true fs = some (put (put (clean o fs) o.forecast (.nc [])) o.unc (.nc [])) := by
      simp [prepare, create, clean, rm, put, hn]
    obtain ⟨fs', h1, h2, h3, _, h4⟩ := steps_eq o true hn ds (put (put (clean o fs) o.forecast (.nc [])) o.unc (.nc [])) [] []
      (by simp [put, hn.symm]) (by simp [put])
    refine ⟨fs', by simp [hp, h1], by simpa using h2, by simpa using h3 rfl, fun p hp hp' => ?_⟩
    rw [h4 p hp hp']
    simp [put, hp, clean, rm, hp']

/-- C332 -/
theorem C332_plain (f : Str) (u : Bool) (ds : List (α × α)) (fs : FS α) :
    ∃ fs', run (make f false) u ds fs = some fs' ∧ (make f false).filename = f ∧ fs' f = some (.nc (ds.map (·.1))) ∧
      fs' (make f false).unc = (if u then some (.nc (ds.map (·.2))) else none) ∧
      ∀ p, p ≠ f → p ≠ (make f false).unc → fs' p = fs p := by
  obtain ⟨fs', h1, h2, h3, h4⟩ := before_post (make f false) u (unc_ne f false) ds fs
  refine ⟨fs', by rw [run, h1]; rfl, rfl, h2, h3, fun p hp hp' => ?_⟩
  rw [h4 p hp hp']
  exact if_neg hp

/-- C332 -/
theorem C332_zip (f : Str) (u : Bool) (ds : List (α × α)) (fs : FS α) (hz : (splitExt f).2 ≠ ".zip".toList) :
    ∃ fs', run (make f true) u ds fs = some fs' ∧
      fs' (make f true).filename = some (.zip ((baseName f, some (ds.map (·.1))) ::
        (if u then [(baseName (make f true).unc, some (ds.map (·.2)))] else []))) ∧
      fs' f = none ∧ fs' (make f true).unc = none ∧
      ∀ p, p ≠ f → p ≠ (make f true).unc → p ≠ (make f true).filename → fs' p = fs p := by
  have hn := unc_ne f true
  have hzu := zip_ne_unc f true
  have hzf := zip_ne f true hz
  obtain ⟨fs1, h1, h2, h3, h4⟩ := before_post (make f true) u hn ds fs
  have hfc : (make f true).forecast = f := rfl
  have hfn : (make f true).filename = (make f true).zip := rfl
  have hzo : (make f true).zipOut = true := rfl
  rw [hfn]
  rw [hfc, hfn] at h4
  rw [hfc] at h2
  generalize hzz : (make f true).zip = zp at *
  generalize huu : (make f true).unc = up at *
  have hm : move (put fs1 zp (.zip [])) f [] = some (rm (put fs1 zp (.zip [])) f, [(baseName f, some (ds.map (·.1)))]) := by
    simp [move, put, hzf.symm, h2, stepsOf]
  cases u with
  | false =>
    refine ⟨close (rm (put fs1 zp (.zip [])) f) zp [(baseName f, some (ds.map (·.1)))], ?_, ?_, ?_, ?_, ?_⟩
    · simp only [run, h1, post, hzo, zipFiles, hzz, hfc, hm, if_true, Option.bind_some]
      rfl
    · simp [close, rm, put, hzf]
    · simp [close, rm, put, hzf, hzf.symm]
    · simp [close, rm, put, hzf, hzu.symm, hn, h3]
    · intro p hp hp' hq
      simp [close, rm, put, hzf, hp, hq, h4 p hp hp']
  | true =>
    refine ⟨close (rm (rm (put fs1 zp (.zip [])) f) up) zp
      [(baseName f, some (ds.map (·.1))), (baseName up, some (ds.map (·.2)))], ?_, ?_, ?_, ?_, ?_⟩
    · have hm2 : move (rm (put fs1 zp (.zip [])) f) up [(baseName f, some (ds.map (·.1)))] =
          some (rm (rm (put fs1 zp (.zip [])) f) up, [(baseName f, some (ds.map (·.1))), (baseName up, some (ds.map (·.2)))]) := by
        simp [move, rm, put, hn, hzu.symm, h3, stepsOf]
      simp only [run, h1, post, hzo, zipFiles, hzz, huu, hfc, hm, hm2, if_true, Option.bind_some, Option.map_some]
    · simp [close, rm, put, hzf, hzu]
    · simp [close, rm, put, hzf, hzf.symm, hzu]
    · simp [close, rm, put, hzf, hzu.symm, hzu]
    · intro p hp hp' hq
      simp [close, rm, put, hzf, hp, hq, hzu, hp', h4 p hp hp']

/-- What `File` at the reported name means: the steps of the run, in the file or in the first member of the archive. -/
def Holds (o : Nc) (u : Bool) (ds : List (α × α)) (fs : FS α) : Prop :=
  if o.zipOut then
    ∃ n m, fs o.filename = some (.zip ((n, some (ds.map (·.1))) :: (if u then [(m, some (ds.map (·.2)))] else [])))
  else fs o.filename = some (.nc (ds.map (·.1))) ∧ (u = true → fs o.unc = some (.nc (ds.map (·.2))))

/-- The changes that can be made to an outputter before a run: its file name, `zip_output`, saving and loading it. -/
inductive Made : Nc → Prop
  | new (f : Str) (z : Bool) : Made (make f z)
  | name {o : Nc} (h : Made o) (f : Str) : Made (setName o f)
  | zip {o : Nc} (h : Made o) (z : Bool) : Made (setZip o z)
  | load {o : Nc} (h : Made o) : Made (reload o)

/-- C332 -/
def C332_claim : Prop :=
  ∀ (o : Nc) (u : Bool) (ds : List (Nat × Nat)) (fs : FS Nat), Made o → ∃ fs', run o u ds fs = some fs' ∧ Holds o u ds fs'

/-- Changes after which the names agree still: loading one that is not zipped, loading before `zip_output` was ever set. -/
inductive Plain : Nc → Prop
  | new (f : Str) : Plain (make f false)
  | load {o : Nc} (h : Plain o) : Plain (reload o)

theorem plain_eq {o : Nc} (h : Plain o) : o = make o.filename false := by
  induction h with
  | new f => rfl
  | load h ih =>
    rw [ih]
    rfl

/-- C332 -/
theorem C332_partial (o : Nc) (u : Bool) (ds : List (α × α)) (fs : FS α)
    (h : Plain o ∨ ∃ f, o = make f true ∧ (splitExt f).2 ≠ ".zip".toList) :
    ∃ fs', run o u ds fs = some fs' ∧ Holds o u ds fs' := by
  rcases h with h | ⟨f, rfl, hz⟩
  · rw [plain_eq h]
    obtain ⟨fs', h1, _, h2, h3, _⟩ := C332_plain o.filename u ds fs
    refine ⟨fs', h1, ?_⟩
    unfold Holds
    rw [if_neg (by simp [make])]
    refine ⟨h2, fun hu => ?_⟩
    rw [h3, if_pos hu]
  · obtain ⟨fs', h1, h2, _⟩ := C332_zip f u ds fs hz
    refine ⟨fs', h1, ?_⟩
    unfold Holds
    rw [if_pos (by simp [make])]
    exact ⟨_, _, h2⟩

/-- C332 -/
theorem C332_counterexample_name (f g : Str) (u : Bool) (ds : List (α × α)) (fs : FS α) (hg : g ≠ f)
    (hu : g ≠ (make f false).unc) :
    ∃ fs', run (setName (make f false) g) u ds fs = some fs' ∧ fs' g = none ∧ fs' f = some (.nc (ds.map (·.1))) := by
  obtain ⟨fs', h1, h2, h3, h4⟩ := before_post (setName (make f false) g) u (unc_ne f false) ds fs
  refine ⟨fs', by rw [run, h1]; rfl, ?_, h2⟩
  rw [h4 g hg hu]
  exact if_pos rfl

/-- C332 -/
theorem C332_counterexample_zip (f : Str) (u : Bool) (ds : List (α × α)) (fs : FS α) (hz : (splitExt f).2 ≠ ".zip".toList) :
    ∃ fs', run (setZip (make f true) false) u ds fs = some fs' ∧ fs' (setZip (make f true) false).filename = none := by
  obtain ⟨fs', h1, h2, h3, h4⟩ := before_post (setZip (make f true) false) u (unc_ne f true) ds fs
  refine ⟨fs', by rw [run, h1]; rfl, ?_⟩
  rw [h4 (setZip (make f true) false).filename (zip_ne f true hz) (zip_ne_unc f true)]
  exact if_pos rfl

/-- C332 -/
theorem C332_counterexample : ¬ C332_claim := by
  intro h
  obtain ⟨fs', h1, h2⟩ := h (setName (make "a.nc".toList false) "b.nc".toList) false [] (fun _ => none) (.name (.new _ _) _)
  obtain ⟨fs2, h3, h4, _⟩ := C332_counterexample_name "a.nc".toList "b.nc".toList false [] (fun _ => (none : Option (File Nat)))
    (by decide) (by decide)
  rw [h1] at h3
  cases h3
  unfold Holds at h2
  rw [if_neg (by decide)] at h2
  have h5 := h2.1
  rw [show (setName (make "a.nc".toList false) "b.nc".toList).filename = "b.nc".toList from rfl, h4] at h5
  cases h5

/-- C333 -/
def C333_claim : Prop :=
  ∀ (f : Str) (z u : Bool) (ds : List (Nat × Nat)) (fs : FS Nat), (splitExt f).2 ≠ ".zip".toList →
    ∃ fs', run (reload (make f z)) u ds fs = some fs' ∧ Holds (make f z) u ds fs'

/-- C333 -/
theorem C333_partial (f : Str) : reload (make f false) = make f false := rfl

/-- An outputter whose name is that of its archive: the file is lost. -/
theorem run_lost (o : Nc) (u : Bool) (hn : o.unc ≠ o.forecast) (hz : o.zip = o.forecast) (hf : o.filename = o.forecast)
    (ho : o.zipOut = true) (ds : List (α × α)) (fs : FS α) :
    ∃ fs', run o u ds fs = some fs' ∧ fs' o.forecast = none ∧ fs' o.unc = none ∧
      ∀ p, p ≠ o.forecast → p ≠ o.unc → fs' p = fs p := by
  obtain ⟨fs1, h1, h2, h3, h4⟩ := before_post o u hn ds fs
  rw [hf] at h4
  have hm : move (put fs1 o.forecast (.zip [])) o.forecast [] =
      some (rm (put fs1 o.forecast (.zip [])) o.forecast, [(baseName o.forecast, none)]) := by
    simp [move, put, stepsOf]
  cases u with
  | false =>
    refine ⟨rm (put fs1 o.forecast (.zip [])) o.forecast, ?_, ?_, ?_, ?_⟩
    · simp [run, h1, post, ho, zipFiles, hz, hm, close, rm]
    · simp [rm]
    · simp [rm, put, hn, h3]
    · intro p hp hp'
      simp [rm, put, hp, h4 p hp hp']
  | true =>
    refine ⟨rm (rm (put fs1 o.forecast (.zip [])) o.forecast) o.unc, ?_, ?_, ?_, ?_⟩
    · have hm2 : move (rm (put fs1 o.forecast (.zip [])) o.forecast) o.unc [(baseName o.forecast, none)] =
          some (rm (rm (put fs1 o.forecast (.zip [])) o.forecast) o.unc,
            [(baseName o.forecast, none), (baseName o.unc, some (ds.map (·.2)))]) := by
        simp [move, rm, put, hn, h3, stepsOf]
      simp [run, h1, post, ho, zipFiles, hz, hm, hm2, close, rm, hn.symm]
    · simp [rm, hn.symm]
    · simp [rm]
    · intro p hp hp'
      simp [rm, put, hp, hp', h4 p hp hp']

/-- C333 -/
theorem C333_lost (d s e : Str) (hd : d = [] ∨ ∃ r, d = r ++ ['/']) (hs : '/' ∉ s) (hs' : ∃ c ∈ s, c ≠ '.')
    (he : '/' ∉ e) (he' : '.' ∉ e) (u : Bool) (ds : List (α × α)) (fs : FS α) :
    ∃ fs', run (reload (make (d ++ (s ++ '.' :: e)) true)) u ds fs = some fs' ∧
      fs' (d ++ (s ++ ".zip".toList)) = none ∧ fs' (d ++ (s ++ "_uncertain.zip".toList)) = none ∧
      ∀ p, p ≠ d ++ (s ++ ".zip".toList) → p ≠ d ++ (s ++ "_uncertain.zip".toList) → fs' p = fs p := by
  have h1 := C332_names d s e true hd hs hs' he he'
  have h2 := C332_names d s "zip".toList true hd hs hs' (by decide) (by decide)
  have hr : reload (make (d ++ (s ++ '.' :: e)) true) = make (d ++ (s ++ '.' :: "zip".toList)) true := by
    rw [h1]
    rfl
  have hz : ".zip".toList = '.' :: "zip".toList := by decide
  rw [hr]
  have h := run_lost (make (d ++ (s ++ '.' :: "zip".toList)) true) u (unc_ne _ _) (by rw [h2, hz]) (by rw [h2, hz]; rfl) rfl ds fs
  rw [h2] at h
  rw [h2, hz, show "_uncertain.zip".toList = "_uncertain".toList ++ '.' :: "zip".toList by decide]
  exact h

/-- C333 -/
theorem C333_counterexample : ¬ C333_claim := by
  intro h
  obtain ⟨fs', h1, h2⟩ := h "a.nc".toList true false [] (fun _ => none) (by decide)
  obtain ⟨fs2, h3, h4, _⟩ := C333_lost [] "a".toList "nc".toList (Or.inl rfl) (by decide) ⟨'a', by decide, by decide⟩ (by decide)
    (by decide) false [] (fun _ => (none : Option (File Nat)))
  have he : ([] : Str) ++ ("a".toList ++ '.' :: "nc".toList) = "a.nc".toList := by decide
  rw [he, h1] at h3
  cases h3
  unfold Holds at h2
  rw [if_pos (by decide)] at h2
  obtain ⟨n, m, h5⟩ := h2
  rw [show (make "a.nc".toList true).filename = [] ++ ("a".toList ++ ".zip".toList) by decide, h4] at h5
  cases h5

/-! ## Cases that meet the hypotheses -/

example : make "out/run.1.nc".toList true =
    ⟨"out/run.1.zip".toList, "out/run.1.nc".toList, "out/run.1_uncertain.nc".toList, "out/run.1.zip".toList, true⟩ := by decide

example : make "a.b/run".toList false =
    ⟨"a.b/run".toList, "a.b/run".toList, "a.b/run_uncertain".toList, "a.b/run.zip".toList, false⟩ := by decide

example : (splitExt "out/.hidden".toList).2 = [] := by decide

example : (splitExt "run.nc".toList).2 ≠ ".zip".toList := by decide

example : Plain (reload (make "run.nc".toList false)) := .load (.new _)

end Verif.OutFiles.NcFile
