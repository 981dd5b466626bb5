import Verif.Fields.NamesModel
/-
C233: which variables of a file an environment object takes depends on the file
only, and the components belong together.
-/
namespace Verif.Fields.Names

variable {α : Type} [DecidableEq α]

/-- The claim for two components, written in pairs (`us[i]` with `vs[i]`): for a
file that has both or none of each pair, the same pair is taken in every run,
and the two belong together. -/
def C233_claim : Prop :=
  ∀ (up : String → String) (us vs : List String), us.length = vs.length → us.Nodup → vs.Nodup →
    ∀ (file : List String),
      (∀ (i : Nat) (u v : String), us[i]? = some u → vs[i]? = some v → (u ∈ file ↔ v ∈ file)) →
      (∀ n ∈ file, n ∈ us ∨ n ∈ vs) →
      ∀ lu lv lu' lv', Capitalized up us lu → Capitalized up vs lv → Capitalized up us lu' → Capitalized up vs lv' →
        (pick lu file = pick lu' file) ∧
        ∀ (i : Nat) (u : String), us[i]? = some u → pick lu file = some u → pick lv file = vs[i]?

/-- Names of currents, as written (a part of them). -/
def exU : List String := ["u", "U", "water_u"]
def exV : List String := ["v", "V", "water_v"]
def exFile : List String := ["u", "v", "water_u", "water_v"]

/-- Capitals of the names above. -/
def exUp (s : String) : String :=
  if s = "u" then "U" else if s = "v" then "V" else if s = "water_u" then "WATER_U"
  else if s = "water_v" then "WATER_V" else s

/-- The orders shown in the documentation of the module (names.py 67-69): `water_u`
before `u`, and `v` before `water_v`. -/
def docU : List String := ["water_u", "WATER_U", "u", "U"]
def docV : List String := ["V", "v", "water_v", "WATER_V"]

theorem exU_cap : Capitalized exUp exU docU := by
  refine ⟨by decide, ?_⟩
  intro x
  have e : withCapitals exUp exU = ["u", "U", "water_u", "U", "U", "WATER_U"] := by decide
  rw [e]
  constructor
  · intro h
    simp only [docU, List.mem_cons, List.not_mem_nil, or_false] at h
    rcases h with rfl | rfl | rfl | rfl <;> decide
  · intro h
    simp only [List.mem_cons, List.not_mem_nil, or_false] at h
    rcases h with rfl | rfl | rfl | rfl | rfl | rfl <;> decide

theorem exV_cap : Capitalized exUp exV docV := by
  refine ⟨by decide, ?_⟩
  intro x
  have e : withCapitals exUp exV = ["v", "V", "water_v", "V", "V", "WATER_V"] := by decide
  rw [e]
  constructor
  · intro h
    simp only [docV, List.mem_cons, List.not_mem_nil, or_false] at h
    rcases h with rfl | rfl | rfl | rfl <;> decide
  · intro h
    simp only [List.mem_cons, List.not_mem_nil, or_false] at h
    rcases h with rfl | rfl | rfl | rfl | rfl | rfl <;> decide

/-- With the orders of the documentation, a file with the currents of two models gives
the eastward current of one and the northward current of the other. -/
theorem C233_counterexample_mixed :
    pick docU exFile = some "water_u" ∧ pick docV exFile = some "v" := by decide

theorem C233_counterexample : ¬ C233_claim := by
  intro h
  have h1 := (h exUp exU exV rfl (by decide) (by decide) exFile
    (by
      intro i u v hu hv
      rcases i with _ | _ | _ | i
      · simp [exU] at hu
        simp [exV] at hv
        subst hu hv
        decide
      · simp [exU] at hu
        simp [exV] at hv
        subst hu hv
        decide
      · simp [exU] at hu
        simp [exV] at hv
        subst hu hv
        decide
      · simp [exU] at hu)
    (by decide) docU docV docU docV exU_cap exV_cap exU_cap exV_cap).2 2 "water_u" rfl C233_counterexample_mixed.1
  revert h1
  decide

/-- What holds in every order: a variable is taken exactly if the file has a variable of one
of the names or its capitals; and what is taken is one of those. -/
theorem C233_found_partial (up : α → α) (names l file : List α) (h : Capitalized up names l) :
    ((pick l file).isSome = true ↔ ∃ n ∈ names, n ∈ file ∨ up n ∈ file) ∧
    ∀ x, pick l file = some x → x ∈ file ∧ (x ∈ names ∨ ∃ n ∈ names, up n = x) := by
  have hm : ∀ x, x ∈ l ↔ (x ∈ names ∨ ∃ n ∈ names, up n = x) := by
    intro x
    rw [h.mem, withCapitals, List.mem_append, List.mem_map]
  constructor
  · rw [pick, List.find?_isSome]
    constructor
    · rintro ⟨x, hx, hf⟩
      have hf' := of_decide_eq_true hf
      rcases (hm x).mp hx with h1 | ⟨n, hn, rfl⟩
      · exact ⟨x, h1, Or.inl hf'⟩
      · exact ⟨n, hn, Or.inr hf'⟩
    · rintro ⟨n, hn, hf | hf⟩
      · exact ⟨n, (hm n).mpr (Or.inl hn), decide_eq_true hf⟩
      · exact ⟨up n, (hm _).mpr (Or.inr ⟨n, hn, rfl⟩), decide_eq_true hf⟩
  · intro x hx
    exact ⟨of_decide_eq_true (List.find?_some (p := fun n => decide (n ∈ file)) hx), (hm x).mp (List.mem_of_find?_eq_some hx)⟩

/-- What holds: when the file has one variable only of those names, that one is taken, in every order. -/
theorem C233_single_partial (up : α → α) (names l file : List α) (h : Capitalized up names l) (x : α)
    (hx : x ∈ file) (hn : x ∈ names ∨ ∃ n ∈ names, up n = x)
    (hu : ∀ y ∈ file, (y ∈ names ∨ ∃ n ∈ names, up n = y) → y = x) :
    pick l file = some x := by
  have h1 := C233_found_partial up names l file h
  have h2 : (pick l file).isSome = true := by
    rw [h1.1]
    rcases hn with hn | ⟨n, hn, e⟩
    · exact ⟨x, hn, Or.inl hx⟩
    · exact ⟨n, hn, Or.inr (e ▸ hx)⟩
  obtain ⟨y, hy⟩ := Option.isSome_iff_exists.mp h2
  rw [hy, hu y (h1.2 y hy).1 (h1.2 y hy).2]

/-- The choice depends on the order whenever the file has two of the names: for each of the two
there is an order in which it is taken. -/
theorem C233_depends (names file : List α) (x : α) (hx : x ∈ names) (hf : x ∈ file) :
    ∃ l, IsSetList names l ∧ pick l file = some x := by
  refine ⟨x :: (names.dedup.erase x), ⟨?_, ?_⟩, ?_⟩
  · rw [List.nodup_cons]
    exact ⟨(List.nodup_dedup names).not_mem_erase, (List.nodup_dedup names).erase x⟩
  · intro y
    rw [List.mem_cons]
    by_cases e : y = x
    · simp [e, hx]
    · rw [List.mem_erase_of_ne e, List.mem_dedup]
      simp [e]
  · simp [pick, hf]

/-- In the order in which the names are written the components belong together, for files that
have both or none of each pair. -/
theorem C233_written (us vs file : List α) (hl : us.length = vs.length)
    (hp : ∀ (i : Nat) (u v : α), us[i]? = some u → vs[i]? = some v → (u ∈ file ↔ v ∈ file)) :
    (pick us file = none ∧ pick vs file = none) ∨
    ∃ (i : Nat) (u v : α), us[i]? = some u ∧ vs[i]? = some v ∧ pick us file = some u ∧ pick vs file = some v := by
  induction us generalizing vs with
  | nil =>
    cases vs with
    | nil => left; exact ⟨rfl, rfl⟩
    | cons _ _ => simp at hl
  | cons u us ih =>
    cases vs with
    | nil => simp at hl
    | cons v vs =>
      have h0 := hp 0 u v rfl rfl
      by_cases hu : u ∈ file
      · right
        refine ⟨0, u, v, rfl, rfl, ?_, ?_⟩
        · simp [pick, hu]
        · simp [pick, h0.mp hu]
      · have hv : v ∉ file := fun h => hu (h0.mpr h)
        have e1 : pick (u :: us) file = pick us file := by simp [pick, hu]
        have e2 : pick (v :: vs) file = pick vs file := by simp [pick, hv]
        rw [e1, e2]
        rcases ih vs (by simpa using hl) (fun i => hp (i + 1)) with h | ⟨i, a, b, h1, h2, h3, h4⟩
        · exact Or.inl h
        · exact Or.inr ⟨i + 1, a, b, h1, h2, h3, h4⟩

example : pick docU ["time", "u", "v"] = some "u" ∧ pick docV ["time", "u", "v"] = some "v" := by decide
example : pick docU ["time", "u", "v"] = some "u" :=
  C233_single_partial exUp exU docU _ exU_cap "u" (by decide) (by decide)
    (by
      intro y hy h
      rcases List.mem_cons.mp hy with rfl | hy
      · exfalso; revert h; decide
      rcases List.mem_cons.mp hy with rfl | hy
      · rfl
      rcases List.mem_cons.mp hy with rfl | hy
      · exfalso; revert h; decide
      · simp at hy)
example : pick exU exFile = some "u" ∧ pick exV exFile = some "v" := by decide

/-- Every component gets a variable, or none, of its own: that of its names which is the first in the file. -/
theorem C233_components (ls : List (List α)) (file : List α) :
    (pickAll ls file).length = ls.length ∧
      ∀ (i : Nat) (l : List α), ls[i]? = some l →
        ((pickAll ls file)[i]? = some none ↔ ∀ n ∈ l, n ∉ file) ∧
        ∀ v, (pickAll ls file)[i]? = some (some v) ↔
          v ∈ file ∧ ∃ before after, l = before ++ v :: after ∧ ∀ n ∈ before, n ∉ file := by
  refine ⟨by simp [pickAll], fun i l hl => ⟨?_, fun v => ?_⟩⟩
  · simp [pickAll, hl, pick, List.find?_eq_none]
  · simp only [pickAll, List.getElem?_map, hl, Option.map_some, Option.some.injEq, pick, List.find?_eq_some_iff_append,
      decide_eq_true_eq, Bool.not_eq_true', decide_eq_false_iff_not]

example : pickAll [docU, docV, ["w"]] exFile = [some "water_u", some "v", none] := by decide

end Verif.Fields.Names
