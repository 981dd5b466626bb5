import Mathlib.Data.List.Basic
import Mathlib.Data.List.Nodup
import Mathlib.Data.List.Induction
import Verif.Run.SwitchModel

/-!
# C168, C169, C170: which weatherers are used in a run
-/

namespace Verif.Run
open Verif.Weath

/-- Some weatherer that is switched on works with the area of the oil. -/
def needed (l : List V) : Bool := l.any fun v => v.on && v.area

/-- The members with a role. -/
def withRole (r : Role) (l : List V) : List V := l.filter fun v => decide (v.role = r)

/-- The id of the last member with a role. -/
def lastId (r : Role) (l : List V) : Option Nat := (withRole r l).getLast?.map fun v => v.w.id

/-- What the loop leaves of a member. -/
def quiet (v : V) : V := match v.role with
  | .none => v
  | _ => { v with on := false }

theorem quiet_id (v : V) : (quiet v).w = v.w := by unfold quiet; cases v.role <;> rfl
theorem quiet_role (v : V) : (quiet v).role = v.role := by unfold quiet; cases h : v.role <;> simp [h]

theorem lastId_append (r : Role) (l : List V) (v : V) :
    lastId r (l ++ [v]) = if v.role = r then some v.w.id else lastId r l := by
  unfold lastId withRole
  by_cases h : v.role = r <;> simp [List.filter_append, h]

theorem lastId_two (r : Role) (l : List V) (v u : V) :
    lastId r (l ++ [v, u]) = if u.role = r then some u.w.id else if v.role = r then some v.w.id else lastId r l := by
  rw [show l ++ [v, u] = (l ++ [v]) ++ [u] by simp, lastId_append, lastId_append]

theorem pass_eq (l : List V) : pass l = ⟨needed l, lastId .spreading l, lastId .langmuir l, l.map quiet⟩ := by
  induction l using List.reverseRecOn with
  | nil => rfl
  | append_singleton l v ih =>
    unfold pass at ih ⊢
    rw [List.foldl_append, ih]
    simp only [List.foldl_cons, List.foldl_nil, visit, lastId_append, List.map_append, List.map_cons, List.map_nil]
    have hn : needed (l ++ [v]) = (if v.on then needed l || v.area else needed l) := by
      unfold needed
      rw [List.any_append]
      cases h1 : v.on <;> cases h2 : v.area <;> simp [h1, h2]
    cases h : v.role <;> simp [hn, quiet, h]

/-- The state of a member after step 1. -/
def settle (l : List V) (v : V) : V := match v.role with
  | .none => v
  | r => { v with on := needed l && decide (lastId r l = some v.w.id) }

/-- The new members after step 1. -/
def extra (i j : Nat) (l : List V) : List V :=
  (if needed l && (lastId .spreading l).isNone then [newSpread i] else []) ++
  (if needed l && (lastId .langmuir l).isNone then [newLang j] else [])

theorem mem_lastId {r : Role} {l : List V} {k : Nat} (h : lastId r l = some k) :
    ∃ v ∈ l, v.role = r ∧ v.w.id = k := by
  unfold lastId withRole at h
  rw [Option.map_eq_some_iff] at h
  obtain ⟨v, hv, hk⟩ := h
  have := List.mem_of_getLast? hv
  rw [List.mem_filter] at this
  exact ⟨v, this.1, by simpa using this.2, hk⟩

theorem id_inj {l : List V} (hn : (l.map fun v => v.w.id).Nodup) {a b : V} (ha : a ∈ l) (hb : b ∈ l)
    (h : a.w.id = b.w.id) : a = b := List.inj_on_of_nodup_map hn ha hb h

theorem special_eq (i j : Nat) (l : List V) (hn : (l.map fun v => v.w.id).Nodup)
    (hi : ∀ v ∈ l, v.w.id ≠ i) :
    special i j l = l.map (settle l) ++ extra i j l := by
  unfold special
  rw [pass_eq]
  by_cases hN : needed l = true
  · simp only [hN, if_true]
    have key : ∀ (f : V → V), (∀ v ∈ l, f v = settle l v) → l.map f = l.map (settle l) :=
      fun f hf => List.map_congr_left hf
    cases hs : lastId .spreading l with
    | none =>
      have nos : ∀ v ∈ l, v.role ≠ .spreading := by
        intro v hv hr
        unfold lastId withRole at hs
        rw [Option.map_eq_none_iff, List.getLast?_eq_none_iff, List.filter_eq_nil_iff] at hs
        exact hs v hv (by simpa using hr)
      cases hl : lastId .langmuir l with
      | none =>
        have nol : ∀ v ∈ l, v.role ≠ .langmuir := by
          intro v hv hr
          unfold lastId withRole at hl
          rw [Option.map_eq_none_iff, List.getLast?_eq_none_iff, List.filter_eq_nil_iff] at hl
          exact hl v hv (by simpa using hr)
        have : l.map quiet = l.map (settle l) := by
          apply key
          intro v hv
          have h1 := nos v hv; have h2 := nol v hv
          unfold quiet settle
          cases hr : v.role <;> simp_all
        simp [extra, hN, hs, hl, this]
      | some k =>
        obtain ⟨u, hu, hur, huk⟩ := mem_lastId hl
        have : turnOn (l.map quiet) k = l.map (settle l) := by
          unfold turnOn
          rw [List.map_map]
          apply key
          intro v hv
          have h1 := nos v hv
          simp only [Function.comp_apply, quiet_id]
          by_cases hk : v.w.id = k
          · have : v = u := id_inj hn hv hu (by rw [hk, huk])
            subst this
            simp [quiet, settle, hur, hN, hl, hk]
          · simp only [hk, if_false]
            unfold quiet settle
            cases hr : v.role <;> simp_all
            intro e; exact hk e.symm
        have hnew : ¬ (newSpread i).w.id = k := by
          rw [← huk]; exact fun e => hi u hu e.symm
        have : turnOn (l.map quiet ++ [newSpread i]) k = l.map (settle l) ++ [newSpread i] := by
          rw [← this]; unfold turnOn; simp [hnew]
        simp [extra, hN, hs, hl, this]
    | some k =>
      obtain ⟨u, hu, hur, huk⟩ := mem_lastId hs
      cases hl : lastId .langmuir l with
      | none =>
        have nol : ∀ v ∈ l, v.role ≠ .langmuir := by
          intro v hv hr
          unfold lastId withRole at hl
          rw [Option.map_eq_none_iff, List.getLast?_eq_none_iff, List.filter_eq_nil_iff] at hl
          exact hl v hv (by simpa using hr)
        have : turnOn (l.map quiet) k = l.map (settle l) := by
          unfold turnOn
          rw [List.map_map]
          apply key
          intro v hv
          have h1 := nol v hv
          simp only [Function.comp_apply, quiet_id]
          by_cases hk : v.w.id = k
          · have : v = u := id_inj hn hv hu (by rw [hk, huk])
            subst this
            simp [quiet, settle, hur, hN, hs, hk]
          · simp only [hk, if_false]
            unfold quiet settle
            cases hr : v.role <;> simp_all
            intro e; exact hk e.symm
        simp [extra, hN, hs, hl, this]
      | some m =>
        obtain ⟨x, hx, hxr, hxm⟩ := mem_lastId hl
        have hkm : k ≠ m := by
          intro e
          have : u = x := id_inj hn hu hx (by rw [huk, hxm, e])
          rw [this, hxr] at hur; exact absurd hur (by decide)
        have : turnOn (turnOn (l.map quiet) k) m = l.map (settle l) := by
          unfold turnOn
          rw [List.map_map, List.map_map]
          apply key
          intro v hv
          simp only [Function.comp_apply, quiet_id]
          by_cases hk : v.w.id = k
          · have : v = u := id_inj hn hv hu (by rw [hk, huk])
            subst this
            simp [quiet, settle, hur, hN, hs, hk, hkm]
          · by_cases hm : v.w.id = m
            · have : v = x := id_inj hn hv hx (by rw [hm, hxm])
              subst this
              simp [quiet, settle, hxr, hN, hl, hm, Ne.symm hkm]
            · simp only [hk, hm, if_false, quiet_id]
              unfold quiet settle
              cases hr : v.role <;> simp_all
              · exact fun e => hk e.symm
              · exact fun e => hm e.symm
        simp [extra, hN, hs, hl, this]
  · simp only [Bool.not_eq_true] at hN
    simp only [hN, Bool.false_eq_true, if_false]
    simp only [extra, hN, Bool.false_and, Bool.false_eq_true, if_false, List.append_nil]
    apply List.map_congr_left
    intro v _
    unfold quiet settle
    cases hr : v.role <;> simp [hN]

theorem settle_w (l : List V) (v : V) : (settle l v).w = v.w := by unfold settle; cases v.role <;> rfl
theorem settle_role (l : List V) (v : V) : (settle l v).role = v.role := by unfold settle; cases h : v.role <;> simp [h]
theorem settle_area (l : List V) (v : V) : (settle l v).area = v.area := by unfold settle; cases h : v.role <;> simp
theorem settle_none (l : List V) (v : V) (h : v.role = .none) : settle l v = v := by unfold settle; simp [h]
theorem settle_on (l : List V) (v : V) (h : v.role ≠ .none) :
    (settle l v).on = (needed l && decide (lastId v.role l = some v.w.id)) := by
  unfold settle; cases hr : v.role <;> simp_all

theorem none_lastId {r : Role} {l : List V} : lastId r l = none ↔ ∀ v ∈ l, v.role ≠ r := by
  unfold lastId withRole
  rw [Option.map_eq_none_iff, List.getLast?_eq_none_iff, List.filter_eq_nil_iff]
  simp

/-- Number of members with a role that are switched on. -/
def inUse (r : Role) (l : List V) : Nat := l.countP fun v => decide (v.role = r) && v.on

/-- No id occurs twice, and `i` and `j` are new. -/
structure Ids (i j : Nat) (l : List V) : Prop where
  nodup : (l.map fun v => v.w.id).Nodup
  fi : ∀ v ∈ l, v.w.id ≠ i
  fj : ∀ v ∈ l, v.w.id ≠ j
  ij : i ≠ j

theorem count_settled {l : List V} (hn : (l.map fun v => v.w.id).Nodup) {r : Role} (hr : r ≠ .none) (hN : needed l = true)
    {k : Nat} (hk : lastId r l = some k) : inUse r (l.map (settle l)) = 1 := by
  obtain ⟨u, hu, hur, huk⟩ := mem_lastId hk
  have nd : l.Nodup := List.Nodup.of_map _ hn
  unfold inUse
  rw [List.countP_map]
  have : ∀ v ∈ l, ((fun v => decide (v.role = r) && v.on) ∘ settle l) v = true ↔ decide (v = u) = true := by
    intro v hv
    simp only [Function.comp_apply, settle_role, Bool.and_eq_true, decide_eq_true_eq]
    constructor
    · rintro ⟨h1, h2⟩
      rw [settle_on l v (by rw [h1]; exact hr), h1, hN, hk] at h2
      simp at h2
      exact id_inj hn hv hu (by rw [← h2, huk])
    · rintro rfl
      refine ⟨hur, ?_⟩
      rw [settle_on l v (by rw [hur]; exact hr), hur, hN, hk, huk]
      simp
  rw [List.countP_congr this]
  have := List.count_eq_one_of_mem nd hu
  unfold List.count at this
  convert this using 2
  funext v
  rw [beq_eq_decide]

theorem count_none {l : List V} {r : Role} (hk : lastId r l = none) : inUse r (l.map (settle l)) = 0 := by
  rw [none_lastId] at hk
  unfold inUse
  rw [List.countP_eq_zero]
  intro v hv
  obtain ⟨u, hu, rfl⟩ := List.mem_map.mp hv
  simp [settle_role, hk u hu]

theorem count_idle {l : List V} {r : Role} (hr : r ≠ .none) (hN : needed l = false) : inUse r (l.map (settle l)) = 0 := by
  unfold inUse
  rw [List.countP_eq_zero]
  intro v hv
  obtain ⟨u, hu, rfl⟩ := List.mem_map.mp hv
  simp only [settle_role, Bool.and_eq_true, decide_eq_true_eq, not_and]
  intro h
  rw [settle_on l u (by rw [h]; exact hr), hN]; simp

theorem inUse_append (r : Role) (a b : List V) : inUse r (a ++ b) = inUse r a + inUse r b := List.countP_append ..

theorem inUse_setup (i j : Nat) (l : List V) (r : Role) : inUse r (setup i j l) = inUse r (special i j l) :=
  (List.mergeSort_perm _ _).countP_eq _

/-- **C168**.  In a run exactly one object that spreads the oil and exactly one for Langmuir cells are switched on if some
weatherer that is switched on works with the area of the oil; otherwise none.  (Made if there was none.) -/
theorem C168 (i j : Nat) (l : List V) (h : Ids i j l) (r : Role) (hr : r ≠ .none) :
    inUse r (setup i j l) = if (∃ v ∈ l, v.on = true ∧ v.area = true) then 1 else 0 := by
  have hN : (∃ v ∈ l, v.on = true ∧ v.area = true) ↔ needed l = true := by
    unfold needed; simp
  rw [inUse_setup, special_eq i j l h.nodup h.fi, inUse_append]
  by_cases hn : needed l = true
  · rw [if_pos (hN.mpr hn)]
    have ex : inUse r (extra i j l) = if (lastId r l).isNone then 1 else 0 := by
      unfold extra
      rw [inUse_append, hn]
      cases r with
      | none => exact absurd rfl hr
      | spreading =>
        cases h1 : lastId .spreading l <;> cases h2 : lastId .langmuir l <;> simp [inUse, newSpread, newLang]
      | langmuir =>
        cases h1 : lastId .spreading l <;> cases h2 : lastId .langmuir l <;> simp [inUse, newSpread, newLang]
    rw [ex]
    cases hk : lastId r l with
    | none => rw [count_none hk]; simp
    | some k => rw [count_settled h.nodup hr hn hk]; simp
  · rw [if_neg (fun e => hn (hN.mp e))]
    simp only [Bool.not_eq_true] at hn
    rw [count_idle hr hn]
    simp [extra, hn, inUse]

/-- **C168**, everything else: the other weatherers are as before, and no object is lost. -/
theorem C168_others (i j : Nat) (l : List V) (h : Ids i j l) :
    (∀ v, v.role = .none → (v ∈ setup i j l ↔ v ∈ l)) ∧
    (∀ v ∈ l, ∃ u ∈ setup i j l, u.w = v.w ∧ u.role = v.role ∧ u.area = v.area) ∧
    (∀ u ∈ setup i j l, (∃ v ∈ l, u.w = v.w) ∨ u = newSpread i ∨ u = newLang j) := by
  have hm : ∀ u, u ∈ setup i j l ↔ u ∈ l.map (settle l) ++ extra i j l := by
    intro u
    rw [← special_eq i j l h.nodup h.fi]
    exact (List.mergeSort_perm _ _).mem_iff
  have hx : ∀ u ∈ extra i j l, u = newSpread i ∨ u = newLang j := by
    intro u hu
    unfold extra at hu
    rw [List.mem_append] at hu
    rcases hu with hu | hu
    · split at hu
      · left; simpa using hu
      · simp at hu
    · split at hu
      · right; simpa using hu
      · simp at hu
  refine ⟨?_, ?_, ?_⟩
  · intro v hv
    rw [hm, List.mem_append]
    constructor
    · rintro (h1 | h1)
      · obtain ⟨u, hu, rfl⟩ := List.mem_map.mp h1
        rw [settle_role] at hv
        rw [settle_none l u hv]; exact hu
      · rcases hx v h1 with rfl | rfl <;> exact absurd hv (by simp [newSpread, newLang])
    · intro h1
      exact Or.inl (List.mem_map.mpr ⟨v, h1, settle_none l v hv⟩)
  · intro v hv
    exact ⟨settle l v, (hm _).mpr (List.mem_append_left _ (List.mem_map_of_mem hv)), settle_w l v, settle_role l v, settle_area l v⟩
  · intro u hu
    rcases List.mem_append.mp ((hm u).mp hu) with h1 | h1
    · obtain ⟨v, hv, rfl⟩ := List.mem_map.mp h1
      exact Or.inl ⟨v, hv, settle_w l v⟩
    · exact Or.inr (hx u h1)

/-- An evaporation that is on, a spreading object that is off: it is switched on, and Langmuir is made. -/
def evap : V := ⟨⟨1, .Evaporation⟩, .none, true, true⟩
def fayOff : V := ⟨⟨2, .FayGravityViscous⟩, .spreading, true, false⟩

example : Ids 10 11 [evap, fayOff] ∧ (∃ v ∈ [evap, fayOff], v.on = true ∧ v.area = true) ∧
    special 10 11 [evap, fayOff] = [evap, { fayOff with on := true }, newLang 11] := by
  refine ⟨⟨by decide, by decide, by decide, by decide⟩, by decide, by decide⟩

/-! ## C169: the user's switches -/

/-- **C169**, as one would expect: what the user has switched off stays off in a run, what is on stays on. -/
def C169_claim : Prop := ∀ (i j : Nat) (l : List V), Ids i j l → ∀ v ∈ l, v ∈ setup i j l

/-- A spreading object that the user has switched off is switched on. -/
theorem C169_counterexample : ¬ C169_claim := by
  intro h
  have := h 10 11 [evap, fayOff] ⟨by decide, by decide, by decide, by decide⟩ fayOff (by simp)
  rw [setup, (List.mergeSort_perm _ _).mem_iff] at this
  revert this; decide

/-- Of two that spread only the last added is used, even if the user has switched the last off. -/
theorem C169_counterexample_two :
    let constant : V := ⟨⟨3, .ConstantArea⟩, .spreading, true, true⟩
    ∃ u ∈ setup 10 11 [evap, constant, fayOff], u.w.id = 3 ∧ u.on = false := by
  refine ⟨⟨⟨3, .ConstantArea⟩, .spreading, true, false⟩, ?_, rfl, rfl⟩
  rw [setup, (List.mergeSort_perm _ _).mem_iff]
  decide

/-- What holds: the state of any member is its own but for those that spread and for Langmuir; of those only the last one
is on, if needed. -/
theorem C169_partial (i j : Nat) (l : List V) (h : Ids i j l) :
    (∀ v ∈ l, v.role = .none → v ∈ setup i j l) ∧
    (∀ v ∈ l, ∀ u ∈ setup i j l, v.role ≠ .none → u.w.id = v.w.id →
      (u.on = true ↔ (∃ x ∈ l, x.on = true ∧ x.area = true) ∧
        (l.filter fun x => decide (x.role = v.role)).getLast? = some v)) := by
  refine ⟨fun v hv hr => ((C168_others i j l h).1 v hr).mpr hv, ?_⟩
  intro v hv u hu hr hid
  rw [setup, (List.mergeSort_perm _ _).mem_iff, special_eq i j l h.nodup h.fi, List.mem_append] at hu
  have hN : (∃ v ∈ l, v.on = true ∧ v.area = true) ↔ needed l = true := by
    unfold needed; simp
  have huv : u = settle l v := by
    rcases hu with h1 | h1
    · obtain ⟨x, hx, rfl⟩ := List.mem_map.mp h1
      rw [settle_w] at hid
      rw [id_inj h.nodup hx hv hid]
    · unfold extra at h1
      rw [List.mem_append] at h1
      rcases h1 with h1 | h1
      · split at h1
        · simp only [List.mem_singleton] at h1
          rw [h1] at hid
          exact absurd hid.symm (h.fi v hv)
        · simp at h1
      · split at h1
        · simp only [List.mem_singleton] at h1
          rw [h1] at hid
          exact absurd hid.symm (h.fj v hv)
        · simp at h1
  rw [huv, settle_on l v hr, hN, Bool.and_eq_true, decide_eq_true_eq]
  apply and_congr_right
  intro _
  unfold lastId withRole
  rw [Option.map_eq_some_iff]
  constructor
  · rintro ⟨a, ha, hav⟩
    have := List.mem_of_getLast? ha
    rw [List.mem_filter] at this
    rw [ha, id_inj h.nodup this.1 hv hav]
  · intro e
    exact ⟨v, e, rfl⟩

/-! ## C170: the next run -/

/-- **C170**, as one would expect: a second run uses the same weatherers as the first. -/
def C170_claim : Prop := ∀ (i j i' j' : Nat) (l : List V), Ids i j l → Ids i' j' (setup i j l) →
  (∀ v ∈ l, v.role ≠ .none → v.area = true) → ∀ v, v ∈ setup i' j' (setup i j l) ↔ v ∈ setup i j l

theorem leV_trans (a b c : V) (h1 : leV a b = true) (h2 : leV b c = true) : leV a c = true := by
  simp only [leV, decide_eq_true_eq] at *; omega

theorem leV_total (a b : V) : (leV a b || leV b a) = true := by
  simp only [leV, Bool.or_eq_true, decide_eq_true_eq]; omega

/-- A step 1 that has nothing left to do. -/
def Settled (l : List V) : Prop :=
  (∀ v ∈ l, v.role ≠ .none → v.on = (needed l && decide (lastId v.role l = some v.w.id))) ∧
  (needed l = true → (lastId .spreading l).isSome ∧ (lastId .langmuir l).isSome)

theorem special_settled (i j : Nat) (l : List V) (h : Settled l) (hn : (l.map fun v => v.w.id).Nodup)
    (hi : ∀ v ∈ l, v.w.id ≠ i) : special i j l = l := by
  rw [special_eq i j l hn hi]
  have h1 : l.map (settle l) = l := by
    conv_rhs => rw [← List.map_id l]
    apply List.map_congr_left
    intro v hv
    unfold settle
    cases hr : v.role with
    | none => simp
    | spreading =>
      have := h.1 v hv (by rw [hr]; decide)
      rw [hr] at this
      simp only [id]
      rw [← this, ← hr]
    | langmuir =>
      have := h.1 v hv (by rw [hr]; decide)
      rw [hr] at this
      simp only [id]
      rw [← this, ← hr]
  rw [h1]
  unfold extra
  cases hN : needed l with
  | false => simp
  | true =>
    obtain ⟨a, b⟩ := h.2 hN
    rw [Option.isSome_iff_ne_none] at a b
    cases e1 : lastId .spreading l <;> cases e2 : lastId .langmuir l <;> simp_all

theorem needed_perm {a b : List V} (h : a.Perm b) : needed a = needed b := by
  unfold needed
  exact Bool.eq_iff_iff.mpr (by simp [h.mem_iff])

theorem lastId_map_settle (l : List V) (r : Role) : lastId r (l.map (settle l)) = lastId r l := by
  unfold lastId withRole
  rw [List.filter_map]
  have : ((fun v => decide (v.role = r)) ∘ settle l) = fun v => decide (v.role = r) := by
    funext v; simp [settle_role]
  rw [this, List.getLast?_map, Option.map_map]
  congr 1
  funext v; simp [settle_w]

theorem settled_special (i j : Nat) (l : List V) (h : Ids i j l) (ha : ∀ v ∈ l, v.role ≠ .none → v.area = true) :
    Settled (special i j l) := by
  rw [special_eq i j l h.nodup h.fi]
  have hla : ∀ r, lastId r (l.map (settle l) ++ extra i j l) =
      if needed l = true ∧ lastId r l = none then
        (match r with | .spreading => some i | .langmuir => some j | .none => lastId .none l)
      else lastId r l := by
    intro r
    unfold extra
    cases hN : needed l with
    | false => simp [lastId_map_settle]
    | true =>
      cases h1 : lastId .spreading l <;> cases h2 : lastId .langmuir l <;> cases r <;>
        simp [h1, h2, lastId_append, lastId_two, lastId_map_settle, newSpread, newLang]
  have hne : needed (l.map (settle l) ++ extra i j l) = needed l := by
    cases hN : needed l with
    | false =>
      unfold needed
      simp only [extra, hN, Bool.false_and, Bool.false_eq_true, if_false, List.append_nil]
      rw [List.any_eq_false]
      intro u hu
      obtain ⟨v, hv, rfl⟩ := List.mem_map.mp hu
      by_cases hr : v.role = .none
      · rw [settle_none l v hr]
        unfold needed at hN
        exact (List.any_eq_false.mp hN) v hv
      · rw [settle_on l v hr, hN]; simp
    | true =>
      unfold needed
      rw [List.any_eq_true]
      cases h1 : lastId .spreading l with
      | none =>
        exact ⟨newSpread i, List.mem_append_right _ (by simp [extra, hN, h1]), by simp [newSpread]⟩
      | some k =>
        obtain ⟨u, hu, hur, huk⟩ := mem_lastId h1
        refine ⟨settle l u, List.mem_append_left _ (List.mem_map_of_mem hu), ?_⟩
        rw [settle_area, ha u hu (by rw [hur]; decide), settle_on l u (by rw [hur]; decide), hur, hN, h1, huk]
        simp
  constructor
  · intro v hv hr
    rw [hne, hla]
    rcases List.mem_append.mp hv with h1 | h1
    · obtain ⟨u, hu, rfl⟩ := List.mem_map.mp h1
      rw [settle_role] at hr ⊢
      rw [settle_w, settle_on l u hr]
      have : lastId u.role l ≠ none := by
        rw [Ne, none_lastId]
        push Not
        exact ⟨u, hu, rfl⟩
      rw [if_neg (fun e => this e.2)]
    · have hN : needed l = true := by
        unfold extra at h1
        by_contra hc
        simp [hc] at h1
      unfold extra at h1
      rw [hN] at h1 ⊢
      rw [List.mem_append] at h1
      rcases h1 with h1 | h1
      · cases hs : lastId .spreading l with
        | none =>
          simp [hs] at h1
          subst h1
          simp [newSpread, hs]
        | some k => simp [hs] at h1
      · cases hs : lastId .langmuir l with
        | none =>
          simp [hs] at h1
          subst h1
          simp [newLang, hs]
        | some k => simp [hs] at h1
  · intro hN
    rw [hne] at hN
    rw [hla, hla]
    constructor
    · cases hs : lastId .spreading l <;> simp [hN]
    · cases hs : lastId .langmuir l <;> simp [hN]

/-- Members with the same role all of one class: the order of the run keeps their order. -/
theorem withRole_sort (l : List V) (r : Role) (h : ∀ a ∈ l, ∀ b ∈ l, a.role = r → b.role = r → a.w.cls = b.w.cls) :
    withRole r (l.mergeSort leV) = withRole r l := by
  have hs : (withRole r l).Sublist (l.mergeSort leV) := by
    apply List.sublist_mergeSort leV_trans leV_total
    · unfold withRole
      rw [List.pairwise_filter]
      apply List.Pairwise.imp_of_mem (R := fun _ _ => True)
      · intro a b ha hb _ h1 h2
        unfold leV
        rw [h a ha b hb (by simpa using h1) (by simpa using h2)]
        simp
      · exact List.pairwise_of_forall (fun _ _ => trivial)
    · exact List.filter_sublist
  have h2 : (withRole r l).Sublist (withRole r (l.mergeSort leV)) := by
    have := hs.filter (fun v => decide (v.role = r))
    unfold withRole at this ⊢
    rwa [List.filter_filter, show (fun v : V => decide (v.role = r) && decide (v.role = r)) = fun v => decide (v.role = r) by
      funext v; simp] at this
  have h3 : (withRole r (l.mergeSort leV)).length = (withRole r l).length :=
    ((List.mergeSort_perm _ _).filter _).length_eq
  exact (h2.eq_of_length h3.symm).symm

/-- First run Fay, second run the constant area. -/
def constantOn : V := ⟨⟨3, .ConstantArea⟩, .spreading, true, true⟩
def fayOn : V := ⟨⟨2, .FayGravityViscous⟩, .spreading, true, true⟩
def langOn : V := ⟨⟨4, .Langmuir⟩, .langmuir, true, true⟩

theorem sort_two : ([{ constantOn with on := false }, fayOn, langOn] : List V).mergeSort leV =
    [fayOn, { constantOn with on := false }, langOn] := by
  have p : ([fayOn, { constantOn with on := false }, langOn] : List V).Perm [{ constantOn with on := false }, fayOn, langOn] :=
    List.Perm.swap _ _ _
  have s1 : (([{ constantOn with on := false }, fayOn, langOn] : List V).mergeSort leV).Pairwise (fun a b => leV a b = true) :=
    List.pairwise_mergeSort leV_trans leV_total _
  have s2 : ([fayOn, { constantOn with on := false }, langOn] : List V).Pairwise (fun a b => leV a b = true) := by decide
  refine List.Perm.eq_of_pairwise ?_ s1 s2 ((List.mergeSort_perm _ _).trans p.symm)
  intro a b ha hb h1 h2
  have ha' := (List.mergeSort_perm _ _).mem_iff.mp ha
  simp only [List.mem_cons, List.not_mem_nil, or_false] at ha' hb
  rcases ha' with rfl | rfl | rfl <;> rcases hb with rfl | rfl | rfl <;> first | rfl | (revert h1 h2; decide)

/-- Two objects that spread: the first run uses Fay's, the second the constant area, since the order of the run has put it
last. -/
theorem C170_counterexample : ¬ C170_claim := by
  intro h
  have e1 : setup 10 11 [constantOn, fayOn, langOn] = [fayOn, { constantOn with on := false }, langOn] := by
    unfold setup
    rw [show special 10 11 [constantOn, fayOn, langOn] = [{ constantOn with on := false }, fayOn, langOn] by decide]
    exact sort_two
  have := (h 10 11 12 13 [constantOn, fayOn, langOn] ⟨by decide, by decide, by decide, by decide⟩
    (by rw [e1]; exact ⟨by decide, by decide, by decide, by decide⟩) (by decide) fayOn).mpr (by rw [e1]; decide)
  rw [e1, setup, (List.mergeSort_perm _ _).mem_iff] at this
  revert this; decide

/-- With all objects that spread of one class a second run uses the same weatherers in the same order. -/
theorem C170_partial (i j i' j' : Nat) (l : List V) (h : Ids i j l) (h' : Ids i' j' (setup i j l))
    (ha : ∀ v ∈ l, v.role ≠ .none → v.area = true)
    (hc : ∀ a ∈ l, ∀ b ∈ l, a.role ≠ .none → a.role = b.role → a.w.cls = b.w.cls) :
    setup i' j' (setup i j l) = setup i j l := by
  have hset := settled_special i j l h ha
  have hcls : ∀ r, r ≠ .none → ∀ a ∈ special i j l, ∀ b ∈ special i j l, a.role = r → b.role = r → a.w.cls = b.w.cls := by
    intro r hr a ha' b hb' h1 h2
    rw [special_eq i j l h.nodup h.fi] at ha' hb'
    have hx : ∀ u ∈ extra i j l, u.role = r → (lastId r l = none ∧ (u = newSpread i ∨ u = newLang j)) := by
      intro u hu hur
      unfold extra at hu
      rw [List.mem_append] at hu
      rcases hu with hu | hu
      · cases hs : lastId .spreading l with
        | none =>
          by_cases hN : needed l = true
          · simp [hs, hN] at hu; subst hu; exact ⟨by rw [← hur]; exact hs, Or.inl rfl⟩
          · simp [hN] at hu
        | some k => simp [hs] at hu
      · cases hs : lastId .langmuir l with
        | none =>
          by_cases hN : needed l = true
          · simp [hs, hN] at hu; subst hu; exact ⟨by rw [← hur]; exact hs, Or.inr rfl⟩
          · simp [hN] at hu
        | some k => simp [hs] at hu
    rcases List.mem_append.mp ha' with ha1 | ha1 <;> rcases List.mem_append.mp hb' with hb1 | hb1
    · obtain ⟨x, hx1, rfl⟩ := List.mem_map.mp ha1
      obtain ⟨y, hy1, rfl⟩ := List.mem_map.mp hb1
      rw [settle_role] at h1 h2
      rw [settle_w, settle_w]
      exact hc x hx1 y hy1 (by rw [h1]; exact hr) (by rw [h1, h2])
    · obtain ⟨x, hx1, rfl⟩ := List.mem_map.mp ha1
      rw [settle_role] at h1
      exact absurd h1 (none_lastId.mp (hx b hb1 h2).1 x hx1)
    · obtain ⟨x, hx1, rfl⟩ := List.mem_map.mp hb1
      rw [settle_role] at h2
      exact absurd h2 (none_lastId.mp (hx a ha1 h1).1 x hx1)
    · rcases (hx a ha1 h1).2 with rfl | rfl <;> rcases (hx b hb1 h2).2 with rfl | rfl <;> first | rfl | (rw [← h1] at h2; exact absurd h2 (by simp [newSpread, newLang]))
  have hs2 : Settled (setup i j l) := by
    have hn : needed (setup i j l) = needed (special i j l) := needed_perm (List.mergeSort_perm _ _)
    have hl : ∀ r, r ≠ .none → lastId r (setup i j l) = lastId r (special i j l) := by
      intro r hr
      unfold lastId setup
      rw [withRole_sort _ r (hcls r hr)]
    refine ⟨?_, ?_⟩
    · intro v hv hr
      rw [hn, hl v.role hr]
      exact hset.1 v ((List.mergeSort_perm _ _).mem_iff.mp hv) hr
    · intro hN
      rw [hl _ (by decide), hl _ (by decide)]
      exact hset.2 (hn ▸ hN)
  have hdef : setup i' j' (setup i j l) = (special i' j' (setup i j l)).mergeSort leV := rfl
  rw [hdef, special_settled i' j' _ hs2 h'.nodup h'.fi]
  exact List.mergeSort_of_pairwise (List.pairwise_mergeSort leV_trans leV_total _)

example : Ids 10 11 [evap, fayOff] ∧ (∀ v ∈ [evap, fayOff], v.role ≠ .none → v.area = true) ∧
    (∀ a ∈ [evap, fayOff], ∀ b ∈ [evap, fayOff], a.role ≠ .none → a.role = b.role → a.w.cls = b.w.cls) := by
  refine ⟨⟨by decide, by decide, by decide, by decide⟩, by decide, by decide⟩

end Verif.Run
