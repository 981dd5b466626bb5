import Verif.Oil.ElemModel
import Mathlib.Tactic.Linarith
import Mathlib.Tactic.Ring
import Mathlib.Tactic.FieldSimp
import Mathlib.Tactic.NormNum
import Mathlib.Tactic.Positivity
import Mathlib.Algebra.BigOperators.Group.List.Lemmas
/-!
# C123 new elements of an oil; C124 density of weathered oil; C125 averages and amounts of the mass balance
-/
namespace Verif.Oil

theorem dot_cons (a b : ℚ) (as bs : List ℚ) : dot (a :: as) (b :: bs) = a * b + dot as bs := by
  simp [dot]

theorem dot_map_mul (c : ℚ) (as bs : List ℚ) : dot as (bs.map (· * c)) = dot as bs * c := by
  induction as generalizing bs with
  | nil => simp [dot]
  | cons a as ih =>
    cases bs with
    | nil => simp [dot]
    | cons b bs => rw [List.map_cons, dot_cons, dot_cons, ih]; ring

theorem dot_map_div (c : ℚ) (as bs : List ℚ) : dot as (bs.map (· / c)) = dot as bs / c := by
  have : (fun x : ℚ => x / c) = fun x => x * c⁻¹ := by funext x; exact div_eq_mul_inv _ _
  rw [this, dot_map_mul, div_eq_mul_inv]

theorem sum_map_mul' (c : ℚ) (bs : List ℚ) : (bs.map (· * c)).sum = bs.sum * c := by
  induction bs with
  | nil => simp
  | cons b bs ih => rw [List.map_cons, List.sum_cons, List.sum_cons, ih]; ring

theorem dot_sub (as bs cs : List ℚ) (h : bs.length = cs.length) :
    dot as (List.zipWith (· - ·) bs cs) = dot as bs - dot as cs := by
  induction as generalizing bs cs with
  | nil => simp [dot]
  | cons a as ih =>
    cases bs with
    | nil => cases cs with
      | nil => simp [dot]
      | cons c cs => simp at h
    | cons b bs => cases cs with
      | nil => simp at h
      | cons c cs =>
        rw [List.zipWith_cons_cons, dot_cons, dot_cons, dot_cons, ih bs cs (by simpa using h)]
        ring

theorem dot_bounds (lo hi : ℚ) (as bs : List ℚ) (h : as.length = bs.length) (hb : ∀ b ∈ bs, 0 ≤ b)
    (ha : ∀ a ∈ as, lo ≤ a ∧ a ≤ hi) : lo * bs.sum ≤ dot as bs ∧ dot as bs ≤ hi * bs.sum := by
  induction as generalizing bs with
  | nil =>
    have : bs = [] := List.length_eq_zero_iff.1 (by simpa using h.symm)
    subst this
    simp [dot]
  | cons a as ih =>
    cases bs with
    | nil => simp at h
    | cons b bs =>
      rw [dot_cons, List.sum_cons]
      have i := ih bs (by simpa using h) (fun x hx => hb x (by simp [hx])) (fun x hx => ha x (by simp [hx]))
      have h0 := hb b (by simp)
      have h1 := ha a (by simp)
      constructor
      · nlinarith [i.1, mul_le_mul_of_nonneg_right h1.1 h0]
      · nlinarith [i.2, mul_le_mul_of_nonneg_right h1.2 h0]

/-! ### C123 -/

/-- what new elements should be like, given the water they are released into -/
structure AsIn (o : EOil) (w : Wat) (e e' : El) : Prop where
  mass : e'.mass = e.mass
  visc : e'.viscosity = o.viscAt w.temp
  dens : e'.density = min (o.rhoAt w.temp) w.rho
  comps : e'.comps = o.frac.map (fun f => f * e.mass)
  sum : o.frac.sum = 1 → e'.comps.sum = e.mass
  fate : e'.fate = if e.z = 0 ∧ e.inWater = true then .surface else .subsurf

/-- the full claim: new elements get the properties of the oil in the water of the environment; the others are left alone -/
def C123_claim : Prop := ∀ (o : EOil) (dflt w : Wat) (old new : List El), new ≠ [] →
  ∃ new', initElements o dflt (.dict (some w)) new.length (old ++ new) = old ++ new' ∧ List.Forall₂ (AsIn o w) new new'

theorem initDensity_eq (o : EOil) (w : Wat) : initDensity o (some w) = min (o.rhoAt w.temp) w.rho := by
  unfold initDensity
  simp only [Option.getD_some]
  split
  · rename_i h; rw [min_eq_right h.le]
  · rename_i h; rw [min_eq_left (not_lt.1 h)]

theorem initOne_asIn (o : EOil) (dflt w : Wat) (env : Env) (e : El) (h1 : pickWater o dflt env = some w)
    (h2 : pickWater o dflt .absent = some w) : AsIn o w e (initOne o dflt env e) := by
  refine ⟨rfl, ?_, ?_, rfl, ?_, ?_⟩
  · simp only [initOne, h1, Option.getD_some]
  · simp only [initOne, h2, initDensity_eq]
  · intro hs
    simp only [initOne]
    rw [sum_map_mul', hs, one_mul]
  · simp only [initOne]

theorem onLast_append (f : El → El) (old new : List El) (h : new ≠ []) :
    onLast new.length f (old ++ new) = old ++ new.map f := by
  unfold onLast
  have : new.length ≠ 0 := fun e => h (List.length_eq_zero_iff.1 e)
  rw [if_neg this, List.length_append, Nat.add_sub_cancel, List.take_left, List.drop_left]

/-- Holds when the oil's own water is that of the environment, or when no environment is given: then new elements get the
properties of the oil in that water (no denser than it), whatever was in the arrays, and the others are left alone. -/
theorem C123_new_partial (o : EOil) (dflt w : Wat) (env : Env) (old new : List El) (hn : new ≠ [])
    (h1 : pickWater o dflt env = some w) (h2 : pickWater o dflt .absent = some w) :
    ∃ new', initElements o dflt env new.length (old ++ new) = old ++ new' ∧ List.Forall₂ (AsIn o w) new new' := by
  refine ⟨new.map (initOne o dflt env), onLast_append _ old new hn, ?_⟩
  rw [List.forall₂_map_right_iff]
  exact List.forall₂_same.2 (fun e _ => initOne_asIn o dflt w env e h1 h2)

/-- in particular: the oil's own water is the one in the environment -/
theorem C123_same_water (o : EOil) (dflt w : Wat) (old new : List El) (hn : new ≠ []) (h : o.water = some w) :
    ∃ new', initElements o dflt (.dict (some w)) new.length (old ++ new) = old ++ new' ∧ List.Forall₂ (AsIn o w) new new' :=
  C123_new_partial o dflt w _ old new hn rfl (by simp [pickWater, h])

/-- Everything but the density holds for any environment with water. -/
theorem C123_but_density (o : EOil) (dflt w : Wat) (old new : List El) (hn : new ≠ []) :
    ∃ new', initElements o dflt (.dict (some w)) new.length (old ++ new) = old ++ new' ∧
      List.Forall₂ (fun e e' => e'.mass = e.mass ∧ e'.viscosity = o.viscAt w.temp ∧
        e'.comps = o.frac.map (fun f => f * e.mass) ∧
        e'.density = min (o.rhoAt (o.water.getD dflt).temp) (o.water.getD dflt).rho) new new' := by
  refine ⟨new.map (initOne o dflt (.dict (some w))), onLast_append _ old new hn, ?_⟩
  rw [List.forall₂_map_right_iff]
  refine List.forall₂_same.2 (fun e _ => ⟨rfl, by simp [initOne, pickWater], rfl, ?_⟩)
  have : pickWater o dflt .absent = some (o.water.getD dflt) := by
    unfold pickWater
    cases o.water <;> rfl
  simp only [initOne, this, initDensity_eq]

/-- an oil without water of its own, lighter when warm -/
def oilE : EOil := ⟨fun T => 1200 - T, fun T => 1000 - T, [1/4, 3/4], [800, 1000], none⟩

/-- False: in an environment with cold water, oil that has no water of its own gets the density it has at 300 K. -/
theorem C123_counterexample : ¬ C123_claim := by
  intro h
  obtain ⟨new', e, hf⟩ := h oilE ⟨300, 1024⟩ ⟨275, 1027⟩ [] [{ mass := 1 }] (by simp)
  have e' : new' = [initOne oilE ⟨300, 1024⟩ (.dict (some ⟨275, 1027⟩)) { mass := 1 }] := by
    exact e.symm
  subst e'
  cases hf with
  | cons h1 _ =>
    have := h1.dens
    norm_num [initOne, pickWater, oilE, initDensity] at this

/-! ### C124 -/

/-- the oil in an element: the components sum to its mass, which is positive, and none is negative -/
structure OilIn (o : EOil) (e : El) : Prop where
  mass : 0 < e.mass
  len : e.comps.length = o.frac.length
  len' : o.compRho.length = o.frac.length
  nonneg : ∀ c ∈ e.comps, 0 ≤ c
  sum : e.comps.sum = e.mass

theorem oilRho_eq (o : EOil) (T : ℚ) (e : El) (h : e.comps.length = o.frac.length) :
    oilRho o T e = kRho o T * (dot o.compRho e.comps / e.mass) := by
  unfold oilRho
  rw [← h, List.take_length, dot_map_div]

/-- Padding with zero components changes nothing. -/
theorem C124_padding (o : EOil) (w : Option Wat) (e : El) (zs : List ℚ) (h : e.comps.length = o.frac.length) :
    (recalcOne o w { e with comps := e.comps ++ zs }).density = (recalcOne o w e).density ∧
    (recalcOne o w { e with comps := e.comps ++ zs }).oilDensity = (recalcOne o w e).oilDensity := by
  have : ∀ T, oilRho o T { e with comps := e.comps ++ zs } = oilRho o T e := by
    intro T
    unfold oilRho
    simp only
    rw [← h, List.take_left, List.take_length]
  unfold recalcOne
  simp only [this, and_self]

/-- No element gets denser than the water. -/
theorem C124_cap (o : EOil) (w : Wat) (e : El) : (recalcOne o (some w) e).density ≤ w.rho := by
  unfold recalcOne
  simp only [Option.getD_some]
  split
  · exact le_refl _
  · rename_i h; exact not_lt.1 h

/-- The update leaves fresh oil with the density that new elements get. -/
theorem C124_fresh (o : EOil) (w : Wat) (e : El) (hm : e.mass ≠ 0) (hc : e.comps = o.frac.map (· * e.mass))
    (hf : e.fracWater = 0) (hd : dot o.compRho o.frac ≠ 0) :
    (recalcOne o (some w) e).density = min (o.rhoAt w.temp) w.rho ∧ (recalcOne o (some w) e).oilDensity = o.rhoAt w.temp := by
  have : oilRho o w.temp e = o.rhoAt w.temp := by
    rw [oilRho_eq _ _ _ (by rw [hc, List.length_map]), hc, dot_map_mul, kRho]
    field_simp
  unfold recalcOne
  simp only [Option.getD_some, this, hf, zero_mul, sub_zero, one_mul, zero_add, and_true]
  split
  · rename_i h; rw [min_eq_right h.le]
  · rename_i h; rw [min_eq_left (not_lt.1 h)]

/-- The density of the oil lies between those of its lightest and heaviest components, in the scale that gives fresh oil its
measured density. -/
theorem C124_range (o : EOil) (T lo hi : ℚ) (e : El) (h : OilIn o e) (hk : 0 ≤ kRho o T)
    (hr : ∀ r ∈ o.compRho, lo ≤ r ∧ r ≤ hi) : kRho o T * lo ≤ oilRho o T e ∧ oilRho o T e ≤ kRho o T * hi := by
  rw [oilRho_eq _ _ _ h.len]
  have b := dot_bounds lo hi o.compRho e.comps (by rw [h.len', h.len]) h.nonneg hr
  rw [h.sum] at b
  constructor
  · exact mul_le_mul_of_nonneg_left ((le_div_iff₀ h.mass).2 b.1) hk
  · exact mul_le_mul_of_nonneg_left ((div_le_iff₀ h.mass).2 b.2) hk

/-- Oil that loses matter lighter than itself on average gets denser. -/
theorem C124_light (o : EOil) (T : ℚ) (e e' : El) (loss : List ℚ) (h : OilIn o e) (hl : loss.length = e.comps.length)
    (hk : 0 ≤ kRho o T) (hc : e'.comps = List.zipWith (· - ·) e.comps loss) (hm : e'.mass = e.mass - loss.sum)
    (hpos : 0 < e'.mass) (hlight : dot o.compRho loss * e.mass ≤ dot o.compRho e.comps * loss.sum) :
    oilRho o T e ≤ oilRho o T e' := by
  have len' : e'.comps.length = o.frac.length := by
    rw [hc, List.length_zipWith, hl, Nat.min_self, h.len]
  rw [oilRho_eq _ _ _ h.len, oilRho_eq _ _ _ len', hc, dot_sub _ _ _ hl.symm]
  apply mul_le_mul_of_nonneg_left _ hk
  rw [div_le_div_iff₀ h.mass hpos, hm]
  nlinarith

/-- Taking up water brings the density of oil that floats closer to that of the water, and never beyond. -/
theorem C124_water (o : EOil) (w : Wat) (e e' : El) (hc : e'.comps = e.comps) (hm : e'.mass = e.mass)
    (hfl : oilRho o w.temp e ≤ w.rho) (h0 : e.fracWater ≤ e'.fracWater) (h1 : e'.fracWater ≤ 1) :
    (recalcOne o (some w) e).density ≤ (recalcOne o (some w) e').density ∧
    (recalcOne o (some w) e').density =
      w.rho - (1 - e'.fracWater) * (w.rho - oilRho o w.temp e) := by
  have er : oilRho o w.temp e' = oilRho o w.temp e := by unfold oilRho; rw [hc, hm]
  have key : ∀ x : El, oilRho o w.temp x = oilRho o w.temp e → x.fracWater ≤ 1 →
      (recalcOne o (some w) x).density = w.rho - (1 - x.fracWater) * (w.rho - oilRho o w.temp e) := by
    intro x hx hx1
    unfold recalcOne
    simp only [Option.getD_some, hx]
    rw [if_neg]
    · ring
    · have : 0 ≤ (1 - x.fracWater) * (w.rho - oilRho o w.temp e) := mul_nonneg (by linarith) (by linarith)
      rw [gt_iff_lt, not_lt]
      linarith
  rw [key e rfl (h0.trans h1), key e' er h1]
  refine ⟨?_, rfl⟩
  nlinarith

/-- The water taken up is not part of the density of the oil, which is that of the components; without water it is the density, but for the cap. -/
theorem C124_oil (o : EOil) (w : Wat) (e : El) (h : e.comps.length = o.frac.length) (x : ℚ) :
    (recalcOne o (some w) { e with fracWater := x }).oilDensity = kRho o w.temp * (dot o.compRho e.comps / e.mass) ∧
    (recalcOne o (some w) { e with fracWater := 0 }).density = min (recalcOne o (some w) e).oilDensity w.rho := by
  have hx : ∀ y, oilRho o w.temp { e with fracWater := y } = oilRho o w.temp e := fun _ => rfl
  unfold recalcOne
  simp only [Option.getD_some, hx, zero_mul, sub_zero, one_mul, zero_add]
  refine ⟨oilRho_eq _ _ _ h, ?_⟩
  split
  · rename_i h; rw [min_eq_right h.le]
  · rename_i h; rw [min_eq_left (not_lt.1 h)]

/-! ### C125 -/

theorem mass_cons (e : El) (l : List El) : mass (e :: l) = e.mass + mass l := by simp [mass]

theorem mass_append (l m : List El) : mass (l ++ m) = mass l + mass m := by simp [mass]

theorem mass_nonneg {l : List El} (h : ∀ e ∈ l, 0 ≤ e.mass) : 0 ≤ mass l := by
  apply List.sum_nonneg
  intro x hx
  obtain ⟨e, he, rfl⟩ := List.mem_map.1 hx
  exact h e he

theorem avg_eq (x : El → ℚ) (l : List El) : avg x l = (l.map (fun e => e.mass * x e)).sum / mass l := by
  unfold avg
  have gen : ∀ (M : ℚ) (l : List El), (l.map (fun e => e.mass / M * x e)).sum = (l.map (fun e => e.mass * x e)).sum / M := by
    intro M l
    induction l with
    | nil => simp
    | cons e l ih => rw [List.map_cons, List.map_cons, List.sum_cons, List.sum_cons, ih]; ring
  exact gen (mass l) l

theorem wsum_bounds (x : El → ℚ) (lo hi : ℚ) (l : List El) (h : ∀ e ∈ l, 0 ≤ e.mass)
    (hx : ∀ e ∈ l, 0 < e.mass → lo ≤ x e ∧ x e ≤ hi) :
    lo * mass l ≤ (l.map (fun e => e.mass * x e)).sum ∧ (l.map (fun e => e.mass * x e)).sum ≤ hi * mass l := by
  induction l with
  | nil => simp [mass]
  | cons e l ih =>
    have i := ih (fun e he => h e (by simp [he])) (fun e he => hx e (by simp [he]))
    rw [List.map_cons, List.sum_cons, mass_cons]
    have h0 := h e (by simp)
    rcases h0.lt_or_eq with h0' | h0'
    · have h1 := hx e (by simp) h0'
      constructor
      · nlinarith [i.1, mul_le_mul_of_nonneg_left h1.1 h0]
      · nlinarith [i.2, mul_le_mul_of_nonneg_left h1.2 h0]
    · rw [← h0']
      simpa using i

/-- The averages reported are averages by mass: between the least and the greatest value of an element with mass, and exact in
the sense that mass times average is the sum over the elements. -/
theorem C125_average (n : Nat) (l : List El) (b : Bal) (h : ∀ e ∈ l, 0 ≤ e.mass) (hm : 0 < mass l) (lo hi : ℚ) :
    ∃ d v, (aggregate n l b).avgDensity = some d ∧ (aggregate n l b).avgVisc = some v ∧
      d * mass l = (l.map (fun e => e.mass * e.density)).sum ∧ v * mass l = (l.map (fun e => e.mass * e.viscosity)).sum ∧
      ((∀ e ∈ l, 0 < e.mass → lo ≤ e.density ∧ e.density ≤ hi) → lo ≤ d ∧ d ≤ hi) ∧
      ((∀ e ∈ l, 0 < e.mass → lo ≤ e.viscosity ∧ e.viscosity ≤ hi) → lo ≤ v ∧ v ≤ hi) := by
  have bd : ∀ x : El → ℚ, (∀ e ∈ l, 0 < e.mass → lo ≤ x e ∧ x e ≤ hi) → lo ≤ avg x l ∧ avg x l ≤ hi := by
    intro x hx
    have := wsum_bounds x lo hi l h hx
    rw [avg_eq]
    exact ⟨(le_div_iff₀ hm).2 this.1, (div_le_iff₀ hm).2 this.2⟩
  refine ⟨avg (·.density) l, avg (·.viscosity) l, ?_, ?_, ?_, ?_, bd _, bd _⟩
  · unfold aggregate
    simp only [gt_iff_lt, hm, if_true]
    split <;> rfl
  · unfold aggregate
    simp only [gt_iff_lt, hm, if_true]
    split <;> rfl
  · rw [avg_eq, div_mul_cancel₀ _ hm.ne']
  · rw [avg_eq, div_mul_cancel₀ _ hm.ne']

/-- With no mass left the last averages stay. -/
theorem C125_no_mass (n : Nat) (l : List El) (b : Bal) (hm : mass l ≤ 0) :
    (aggregate n l b).avgDensity = b.avgDensity ∧ (aggregate n l b).avgVisc = b.avgVisc := by
  unfold aggregate
  simp only [gt_iff_lt, not_lt.2 hm, if_false]
  split <;> exact ⟨rfl, rfl⟩

/-- What floats is the mass of the elements in the water at the surface; it never exceeds the mass there is. -/
theorem C125_floating (n : Nat) (l : List El) (b : Bal) :
    (aggregate n l b).floating = (l.map (fun e => if e.inWater = true ∧ e.z = 0 then e.mass else 0)).sum ∧
    ((∀ e ∈ l, 0 ≤ e.mass) → (aggregate n l b).floating ≤ mass l ∧ 0 ≤ (aggregate n l b).floating) := by
  have e0 : (aggregate n l b).floating = mass (l.filter (fun e => e.inWater && decide (e.z = 0))) := by
    unfold aggregate
    dsimp only
    split <;> rfl
  have e1 : mass (l.filter (fun e => e.inWater && decide (e.z = 0))) =
      (l.map (fun e => if e.inWater = true ∧ e.z = 0 then e.mass else 0)).sum := by
    induction l with
    | nil => rfl
    | cons a l ih =>
      rw [List.map_cons, List.sum_cons, List.filter_cons]
      have ih' := ih (by unfold aggregate; dsimp only; split <;> rfl)
      by_cases h : a.inWater = true ∧ a.z = 0
      · rw [if_pos (by simp [h.1, h.2]), if_pos h, mass_cons, ih']
      · rw [if_neg (by simpa [Bool.and_eq_true, decide_eq_true_eq] using h), if_neg h, zero_add, ih']
  refine ⟨e0.trans e1, fun h => ?_⟩
  rw [e0]
  refine ⟨?_, mass_nonneg (fun e he => h e (List.mem_filter.1 he).1)⟩
  clear e0 e1
  induction l with
  | nil => simp
  | cons a l ih =>
    have i := ih (fun e he => h e (by simp [he]))
    have h0 := h a (by simp)
    rw [List.filter_cons, mass_cons]
    split
    · rw [mass_cons]; linarith
    · linarith

/-- total mass of the releases in a run, as it was when they were released -/
def releasedIn (evs : List Ev) : ℚ := (evs.map (fun
  | .release new => mass new
  | .step _ => 0)).sum

/-- The amount released reported is the mass of everything released so far, whatever happened to the elements since. -/
theorem C125_released (evs : List Ev) (s : List El × Bal) :
    ((run evs s).2.released).getD 0 = (s.2.released).getD 0 + releasedIn evs := by
  induction evs generalizing s with
  | nil => simp [run, releasedIn]
  | cons ev evs ih =>
    have e : run (ev :: evs) s = run evs (run1 ev s) := rfl
    have r : releasedIn (ev :: evs) = (match ev with | .release new => mass new | .step _ => 0) + releasedIn evs := by
      cases ev <;> simp [releasedIn]
    rw [e, ih, r, ← add_assoc]
    congr 1
    have agg0 : ∀ l b, (aggregate 0 l b).released = b.released := by
      intro l b
      unfold aggregate
      simp only [gt_iff_lt, lt_irrefl, if_false]
      split <;> rfl
    rcases s with ⟨l, b⟩
    cases ev with
    | step f => simp only [run1, agg0, add_zero]
    | release new =>
      simp only [run1]
      by_cases hn : new = []
      · subst hn
        simp only [List.length_nil, agg0]
        simp [mass]
      · have hl : new.length > 0 := List.length_pos_iff.2 hn
        have hd : (l ++ new).drop ((l ++ new).length - new.length) = new := by
          rw [List.length_append, Nat.add_sub_cancel, List.drop_left]
        have : ((aggregate new.length (l ++ new) b).released).getD 0 = b.released.getD 0 + mass new := by
          unfold aggregate
          rcases b with ⟨b1, b2, b3, b4, b5⟩
          by_cases hm : mass (l ++ new) > 0 <;> cases b5 <;> simp [hm, hl]
        exact this

/-- It never decreases as long as masses are not negative. -/
theorem C125_monotone (evs evs' : List Ev) (s : List El × Bal)
    (h : ∀ ev ∈ evs', ∀ new, ev = .release new → ∀ e ∈ new, 0 ≤ e.mass) :
    ((run evs s).2.released).getD 0 ≤ ((run (evs ++ evs') s).2.released).getD 0 := by
  rw [C125_released, C125_released]
  have e : releasedIn (evs ++ evs') = releasedIn evs + releasedIn evs' := by simp [releasedIn]
  have : 0 ≤ releasedIn evs' := by
    apply List.sum_nonneg
    intro x hx
    obtain ⟨ev, hev, rfl⟩ := List.mem_map.1 hx
    cases ev with
    | step f => exact le_refl _
    | release new => exact mass_nonneg (h _ hev new rfl)
  linarith

/-- The mass not subject to weathering reported is that of the elements marked so. -/
theorem C125_nonweathering (n : Nat) (l : List El) (b : Bal) :
    (aggregate n l b).nonWeath = mass (l.filter (fun e => e.fate = .nonWeather)) := by
  unfold aggregate
  dsimp only
  split <;> rfl

/-! concrete cases -/
example : (initElements { oilE with water := some ⟨275, 1027⟩ } ⟨300, 1024⟩ (.dict (some ⟨275, 1027⟩)) 1
    [{ mass := 7 }, { mass := 4 }]).map (fun e => (e.density, e.viscosity, e.comps)) =
    [(0, 0, []), (925, 725, [1, 3])] := by decide +kernel
example : OilIn oilE { mass := 4, comps := [1, 3] } :=
  ⟨by norm_num, rfl, rfl, by norm_num, by norm_num⟩
example : oilRho oilE 275 { mass := 4, comps := [1, 3] } = 925 ∧
    oilRho oilE 275 { mass := 3.5, comps := [0.5, 3] } > 925 := by decide +kernel
example : (aggregate 1 [{ mass := 3, density := 900 }, { mass := 1, density := 1000, z := 2 }] {}) =
    { avgDensity := some 925, avgVisc := some 0, floating := 3, nonWeath := 4, released := some 1 } := by decide +kernel

end Verif.Oil
