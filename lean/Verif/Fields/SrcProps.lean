import Verif.Fields.SrcModel
/-!
# C322: A gridded object has its data and its grid from the sources named for them
# C323: An ice-aware current has its ice from the ice file

Spec of C322 (documentation of `init_from_netCDF`): `filename` is the default source and has the lowest priority; a data set comes first, then `data_file` and `grid_file`; a grid or time axis that is given is used.
-/
namespace Verif.Fields.Src

/-- The data should come from this file. -/
def DataFrom (r : Req) (f : File) : Prop :=
  r.dataset = some f ∨ (r.dataset = none ∧ (r.dataFile = some f ∨ (r.dataFile = none ∧ r.filename = some f)))

/-- The grid should come from this file. -/
def GridFrom (r : Req) (f : File) : Prop :=
  r.grid = some f ∨ (r.grid = none ∧ (r.gridFile = some f ∨ (r.gridFile = none ∧ (r.dataset = some f ∨ (r.dataset = none ∧ r.filename = some f)))))

/-- The times should come from this file. -/
def TimeFrom (r : Req) (f : File) : Prop := r.time = some f ∨ (r.time = none ∧ DataFrom r f)

/-- An object is made from the right sources. -/
def Right (r : Req) (m : Made) : Prop := DataFrom r m.data ∧ GridFrom r m.grid ∧ TimeFrom r m.time

/-- The claim: whatever is made has its parts from the right sources. -/
def C322_claim : Prop := ∀ (has : File → Quantity → Bool) (q : Quantity) (r : Req) (m : Made), load has q r = .ok m → Right r m

/-- C322, false: `filename` replaces `data_file` and `grid_file`. -/
theorem C322_counterexample : ¬ C322_claim := by
  intro h
  have := (h (fun _ _ => true) .flow { filename := some 1, dataFile := some 2 } ⟨1, 1, 1⟩ rfl).1
  revert this
  unfold DataFrom
  decide

/-- … always. -/
theorem C322_name (has : File → Quantity → Bool) (q : Quantity) (r : Req) (f d g : File) (hf : r.filename = some f) :
    load has q { r with dataFile := some d, gridFile := some g } = load has q r := by
  obtain ⟨fn, df, gf, ds, gr, ti⟩ := r
  simp only at hf
  subst hf
  rfl

/-- The named sources do not compete: with `filename` no other file. -/
def Apart (r : Req) : Prop := r.filename ≠ none → r.dataFile = none ∧ r.gridFile = none ∧ r.dataset = none

/-- C322, if `filename` is not given with another file: what is made is right, and it is made if all that is needed is named and the quantity is there. -/
theorem C322_partial (has : File → Quantity → Bool) (q : Quantity) (r : Req) (ha : Apart r) :
    (∀ m, load has q r = .ok m → Right r m ∧ has m.data q = true) ∧
    (∀ d g, DataFrom r d → GridFrom { r with grid := none } g → has d q = true → ∃ m, load has q r = .ok m) := by
  obtain ⟨fn, df, gf, ds, gr, ti⟩ := r
  unfold Apart at ha
  constructor
  · intro m hm
    unfold load at hm
    have key : ∀ a b, sets (byName ⟨fn, df, gf, ds, gr, ti⟩) = .ok (a, b) → DataFrom ⟨fn, df, gf, ds, gr, ti⟩ a ∧ GridFrom ⟨fn, df, gf, ds, none, ti⟩ b := by
      intro a b h
      unfold DataFrom GridFrom
      cases fn with
      | some f =>
        obtain ⟨h1, h2, h3⟩ := ha (by simp)
        simp only at h1 h2 h3
        subst h1 h2 h3
        simp only [byName, sets, dset, Except.bind, Except.map, Except.ok.injEq, Prod.mk.injEq] at h
        simp [← h.1, ← h.2]
      | none =>
        cases ds with
        | some d =>
          simp only [byName, sets, Except.ok.injEq, Prod.mk.injEq] at h
          obtain ⟨rfl, rfl⟩ := h
          cases gf <;> simp
        | none =>
          cases df <;> cases gf <;> simp_all [byName, sets, dset, Except.bind, Except.map]
    cases hs : sets (byName ⟨fn, df, gf, ds, gr, ti⟩) with
    | error e => rw [hs] at hm; cases hm
    | ok s =>
      obtain ⟨a, b⟩ := s
      obtain ⟨k1, k2⟩ := key a b hs
      rw [hs] at hm
      simp only [Except.bind] at hm
      split at hm
      · rename_i hh
        simp only [Except.ok.injEq] at hm
        subst hm
        refine ⟨⟨k1, ?_, ?_⟩, hh⟩
        · cases gr with
          | none => exact k2
          | some g => exact Or.inl rfl
        · cases ti with
          | none => exact Or.inr ⟨rfl, k1⟩
          | some t => exact Or.inl rfl
      · cases hm
  · intro d g hd hg hh
    have key : ∃ b, sets (byName ⟨fn, df, gf, ds, gr, ti⟩) = .ok (d, b) := by
      unfold DataFrom at hd
      unfold GridFrom at hg
      simp only at hd hg ha
      cases fn with
      | some f =>
        obtain ⟨h1, h2, h3⟩ := ha (by simp)
        subst h1 h2 h3
        simp only [reduceCtorEq, true_and, false_or, Option.some.injEq] at hd
        subst hd
        exact ⟨f, rfl⟩
      | none =>
        cases ds with
        | some x =>
          simp only [Option.some.injEq, reduceCtorEq, false_and, or_false] at hd
          subst hd
          exact ⟨_, rfl⟩
        | none =>
          cases df with
          | none => simp at hd
          | some x =>
            cases gf with
            | none => simp at hg
            | some y =>
              simp only [reduceCtorEq, true_and, Option.some.injEq, false_and, or_false, false_or] at hd
              subst hd
              exact ⟨y, rfl⟩
    obtain ⟨b, hb⟩ := key
    unfold load
    rw [hb]
    simp only [Except.bind, hh, if_true]
    exact ⟨_, rfl⟩

example : Apart { dataFile := some 1, gridFile := some 2 } ∧ load (fun f _ => f == 1) .flow { dataFile := some 1, gridFile := some 2 } = .ok ⟨1, 2, 1⟩ :=
  ⟨fun h => absurd rfl h, rfl⟩

/-- The claim of C323: the ice that is not given comes from the ice file if there is one, else from where the current comes from. -/
def C323_claim : Prop := ∀ (has : File → Quantity → Bool) (f : File) (ice : Option File) (conc vel : Option Made),
  has f .flow = true → has (ice.getD f) .iceConc = true → has (ice.getD f) .iceVel = true →
  ∃ cur c v, iceCurrent has { filename := some f } ice conc vel = .ok (cur, c, v) ∧ cur.data = f ∧ (conc = none → c.data = ice.getD f) ∧ (vel = none → v.data = ice.getD f)

/-- C323, false: the data of an ice file are not looked at. -/
theorem C323_counterexample : ¬ C323_claim := by
  intro h
  obtain ⟨cur, c, v, h1, -⟩ := h (fun f q => if f = 1 then q == .flow else q != .flow) 1 (some 2) none none rfl rfl rfl
  have : iceCurrent (fun f q => if f = 1 then q == .flow else q != .flow) { filename := some 1 } (some 2) none none = .error .name := rfl
  rw [this] at h1
  cases h1

/-- Whatever is in the ice file, the ice is that of the file of the current, and if it has none that is an error. -/
theorem C323_ignored (has : File → Quantity → Bool) (f i : File) (hf : has f .flow = true) :
    iceCurrent has { filename := some f } (some i) none none =
      if has f .iceConc = true ∧ has f .iceVel = true then .ok (⟨f, f, f⟩, ⟨f, f, f⟩, ⟨f, f, f⟩) else .error .name := by
  cases h1 : has f .iceConc <;> cases h2 : has f .iceVel <;>
    simp [iceCurrent, iceReq, orLoad, shared, byName, load, sets, hf, h1, h2, Except.bind, Except.map]

/-- C323, without an ice file; ice that is given is used, with or without one. -/
theorem C323_partial (has : File → Quantity → Bool) (f : File) (conc vel : Option Made) (hf : has f .flow = true) (hc : has f .iceConc = true) (hv : has f .iceVel = true) :
    iceCurrent has { filename := some f } none conc vel = .ok (⟨f, f, f⟩, conc.getD ⟨f, f, f⟩, vel.getD ⟨f, f, f⟩) ∧
    iceWind has { filename := some f } conc = .ok (⟨f, f, f⟩, conc.getD ⟨f, f, f⟩) := by
  cases conc <;> cases vel <;> simp [iceCurrent, iceWind, iceReq, orLoad, shared, byName, load, sets, hf, hc, hv, Except.bind, Except.map]

/-- With both kinds of ice given, any ice file does. -/
theorem C323_given (has : File → Quantity → Bool) (f : File) (ice : Option File) (c v : Made) (hf : has f .flow = true) :
    iceCurrent has { filename := some f } ice (some c) (some v) = .ok (⟨f, f, f⟩, c, v) := by
  cases ice <;> simp [iceCurrent, iceReq, orLoad, shared, byName, load, sets, hf, Except.bind, Except.map]

/-- Currents and winds of two files, for data and grid, are always an error if there may be ice; without ice they are made. -/
theorem C323_two (has : File → Quantity → Bool) (d g : File) (hd : has d .flow = true) (ice : Option File) (conc vel : Option Made) :
    load has .flow { dataFile := some d, gridFile := some g } = .ok ⟨d, g, d⟩ ∧
    iceCurrent has { dataFile := some d, gridFile := some g } ice conc vel = .error .key ∧ iceWind has { dataFile := some d, gridFile := some g } conc = .error .key := by
  refine ⟨?_, rfl, rfl⟩
  simp [load, byName, sets, dset, hd, Except.bind, Except.map]

/-- What the file does not have is asked for under its own name: without it, and if it is not given, there is an error. -/
theorem C323_lacks (has : File → Quantity → Bool) (f : File) (conc vel : Option Made) :
    (has f .flow = false → iceCurrent has { filename := some f } none conc vel = .error .name ∧ iceWind has { filename := some f } conc = .error .name) ∧
    (has f .iceConc = false → iceCurrent has { filename := some f } none none vel = .error .name ∧ iceWind has { filename := some f } none = .error .name) ∧
    (has f .flow = true → has f .iceVel = false → has f .iceConc = true → iceCurrent has { filename := some f } none conc none = .error .name) := by
  refine ⟨fun h => ?_, fun h => ?_, fun h1 h2 h3 => ?_⟩
  · simp [iceCurrent, iceWind, shared, byName, load, sets, h, Except.bind]
  · cases hf : has f .flow <;> simp [iceCurrent, iceWind, iceReq, orLoad, shared, byName, load, sets, hf, h, Except.bind, Except.map]
  · cases conc <;> simp [iceCurrent, iceReq, orLoad, shared, byName, load, sets, h1, h2, h3, Except.bind, Except.map]

example : (fun (f : File) (_ : Quantity) => f == 1) 1 .flow = true := rfl

end Verif.Fields.Src
