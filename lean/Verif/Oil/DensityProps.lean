import Verif.Oil.DensityModel
import Mathlib.Tactic.Linarith
import Mathlib.Tactic.NormNum
import Mathlib.Tactic.FieldSimp
import Mathlib.Tactic.Ring
import Mathlib.Tactic.Positivity
/-!
# C121: the density of an oil at a temperature
-/
namespace Verif.Oil

/-- Oil data that make sense: at least one measurement of fresh oil, no two at the same temperature, densities positive
and not increasing with temperature, temperatures and the pour point from 0 to 1000 K. -/
structure Good (o : DOil) : Prop where
  some_fresh : ∃ m ∈ o.meas, m.weath = 0
  distinct : (o.meas.filter (fun m => m.weath = 0)).Pairwise (fun a b => a.temp ≠ b.temp)
  pos : ∀ m ∈ o.meas, m.weath = 0 → 0 < m.rho
  mono : ∀ m ∈ o.meas, ∀ m' ∈ o.meas, m.weath = 0 → m'.weath = 0 → m.temp ≤ m'.temp → m'.rho ≤ m.rho
  warm : ∀ m ∈ o.meas, 0 ≤ m.temp ∧ m.temp ≤ 1000
  pour : 0 ≤ o.pour ∧ o.pour ≤ 1000

/-! ### the list of fresh measurements -/

theorem mem_fresh {ms : List Meas} {m : Meas} : m ∈ fresh ms ↔ m ∈ ms ∧ m.weath = 0 := by
  unfold fresh
  rw [(List.perm_insertionSort _ _).mem_iff, List.mem_filter]
  simp

instance : Std.Total (fun a b : Meas => a.temp ≤ b.temp) := ⟨fun a b => le_total a.temp b.temp⟩
instance : IsTrans Meas (fun a b : Meas => a.temp ≤ b.temp) := ⟨fun _ _ _ h h' => le_trans h h'⟩

theorem fresh_sorted {ms : List Meas}
    (h : (ms.filter (fun m => m.weath = 0)).Pairwise (fun a b => a.temp ≠ b.temp)) :
    (fresh ms).Pairwise (fun a b => a.temp < b.temp) := by
  have h1 : (fresh ms).Pairwise (fun a b => a.temp ≤ b.temp) := List.pairwise_insertionSort _ _
  have h2 : (fresh ms).Pairwise (fun a b => a.temp ≠ b.temp) :=
    ((List.perm_insertionSort _ _).pairwise_iff (fun {_ _} h => Ne.symm h)).2 h
  exact (h1.and h2).imp (fun h => lt_of_le_of_ne h.1 h.2)

theorem fresh_ne_nil {o : DOil} (g : Good o) : fresh o.meas ≠ [] := by
  obtain ⟨m, hm, hw⟩ := g.some_fresh
  have : m ∈ fresh o.meas := mem_fresh.2 ⟨hm, hw⟩
  intro h
  rw [h] at this
  cases this

/-! ### the two measurements around a temperature -/

theorem findIdx_at (p : List Meas) (b : Meas) (s : List Meas) (T : ℚ)
    (hp : ∀ m ∈ p, m.temp ≤ T) (hb : T < b.temp) :
    (p ++ b :: s).findIdx (fun m => decide (¬ T ≥ m.temp)) = p.length := by
  induction p with
  | nil => simp [List.findIdx_cons, hb]
  | cons a p ih =>
    have ha : a.temp ≤ T := hp a (by simp)
    have : ¬ T < a.temp := not_lt.2 ha
    rw [List.cons_append, List.findIdx_cons, ih (fun m hm => hp m (by simp [hm]))]
    simp [ha]

theorem bounding_low (l : List Meas) (a : Meas) (s : List Meas) (T : ℚ) (hl : l = a :: s)
    (h : ∀ m ∈ l, T < m.temp) : bounding l T = some (a, a) := by
  subst hl
  have hd : ∃ s', dbl (a :: s) = a :: s' ∧ ∀ m ∈ a :: s', T < m.temp := by
    unfold dbl
    split
    · refine ⟨s ++ a :: s, rfl, ?_⟩
      intro m hm
      simp only [List.mem_cons, List.mem_append] at hm
      apply h
      simp only [List.mem_cons]
      tauto
    · exact ⟨s, rfl, h⟩
  obtain ⟨s', e, h'⟩ := hd
  have ha := h' a (by simp)
  have n1 : ¬ (a :: s').all (fun m => decide (T ≥ m.temp)) = true := by
    simp [ha]
  have n2 : (a :: s').all (fun m => decide (¬ T ≥ m.temp)) = true := by
    rw [List.all_eq_true]
    intro m hm
    simp [h' m hm]
  have n3 : argmin (a :: s') T = 0 := by
    have := findIdx_at [] a s' T (by simp) ha
    simp only [List.nil_append, List.length_nil] at this
    unfold argmin
    simp only [this]
    simp
  have e0 : idx0 (a :: s') T = 0 := by
    unfold idx0
    rw [if_neg n1, n3]
    simp
  have e1 : idx1 (a :: s') T = 0 := by
    unfold idx1
    rw [if_pos n2]
  unfold bounding
  simp only [e, e0, e1, List.getElem?_cons_zero]

theorem bounding_high (l : List Meas) (p : List Meas) (z : Meas) (T : ℚ) (hl : l = p ++ [z])
    (h : ∀ m ∈ l, m.temp ≤ T) : bounding l T = some (z, z) := by
  subst hl
  have hd : ∃ p', dbl (p ++ [z]) = p' ++ [z] ∧ ∀ m ∈ p' ++ [z], m.temp ≤ T := by
    unfold dbl
    split
    · refine ⟨(p ++ [z]) ++ p, by simp, ?_⟩
      intro m hm
      simp only [List.mem_cons, List.mem_append] at hm
      apply h
      simp only [List.mem_cons, List.mem_append]
      tauto
    · exact ⟨p, rfl, h⟩
  obtain ⟨p', e, h'⟩ := hd
  have hz := h' z (by simp)
  have n1 : (p' ++ [z]).all (fun m => decide (T ≥ m.temp)) = true := by
    rw [List.all_eq_true]
    intro m hm
    simp [h' m hm]
  have n2 : ¬ (p' ++ [z]).all (fun m => decide (¬ T ≥ m.temp)) = true := by
    simp [hz]
  have e0 : idx0 (p' ++ [z]) T = p'.length := by
    unfold idx0
    rw [if_pos n1]
    simp
  have e1 : idx1 (p' ++ [z]) T = p'.length := by
    unfold idx1
    rw [if_neg n2, e0]
    simp
  unfold bounding
  simp only [e, e0, e1]
  simp

theorem bounding_mid (l p : List Meas) (a b : Meas) (s : List Meas) (T : ℚ) (hl : l = p ++ a :: b :: s)
    (hp : ∀ m ∈ p, m.temp ≤ T) (ha : a.temp ≤ T) (hb : T < b.temp) : bounding l T = some (a, b) := by
  subst hl
  have e : dbl (p ++ a :: b :: s) = p ++ a :: b :: s := by
    unfold dbl
    rw [if_neg]
    simp
    omega
  have n1 : ¬ (p ++ a :: b :: s).all (fun m => decide (T ≥ m.temp)) = true := by
    simp [hb]
  have n2 : ¬ (p ++ a :: b :: s).all (fun m => decide (¬ T ≥ m.temp)) = true := by
    simp [ha]
  have f : (p ++ a :: b :: s).findIdx (fun m => decide (¬ T ≥ m.temp)) = p.length + 1 := by
    have := findIdx_at (p ++ [a]) b s T (by
      intro m hm
      rw [List.mem_append, List.mem_singleton] at hm
      rcases hm with hm | hm
      · exact hp m hm
      · rw [hm]; exact ha) hb
    simpa using this
  have n3 : argmin (p ++ a :: b :: s) T = p.length + 1 := by
    unfold argmin
    simp only [f]
    rw [if_neg]
    simp
  have e0 : idx0 (p ++ a :: b :: s) T = p.length := by
    unfold idx0
    rw [if_neg n1, n3]
    simp
  have e1 : idx1 (p ++ a :: b :: s) T = p.length + 1 := by
    unfold idx1
    rw [if_neg n2, e0]
    simp
  unfold bounding
  simp only [e, e0, e1]
  have g0 : (p ++ a :: b :: s)[p.length]? = some a := by simp
  have g1 : (p ++ a :: b :: s)[p.length + 1]? = some b := by
    rw [List.getElem?_append_right (by omega)]
    simp
  rw [g0, g1]

/-- where a temperature lies among sorted measurements -/
theorem place (l : List Meas) (hs : l.Pairwise (fun a b => a.temp < b.temp)) (hne : l ≠ []) (T : ℚ) :
    (∀ m ∈ l, T < m.temp) ∨ (∀ m ∈ l, m.temp ≤ T) ∨
      ∃ p a b s, l = p ++ a :: b :: s ∧ (∀ m ∈ p, m.temp ≤ T) ∧ a.temp ≤ T ∧ T < b.temp := by
  induction l with
  | nil => exact absurd rfl hne
  | cons x l ih =>
    rcases lt_or_ge T x.temp with hx | hx
    · left
      intro m hm
      rcases List.mem_cons.1 hm with rfl | hm
      · exact hx
      · exact lt_trans hx ((List.pairwise_cons.1 hs).1 m hm)
    · rcases l with _ | ⟨y, l⟩
      · right; left
        intro m hm
        simp only [List.mem_singleton] at hm
        rw [hm]
        exact hx
      · rcases lt_or_ge T y.temp with hy | hy
        · right; right
          exact ⟨[], x, y, l, rfl, by simp, hx, hy⟩
        · rcases ih (List.pairwise_cons.1 hs).2 (by simp) with h | h | ⟨p, a, b, s, e, hp, ha, hb⟩
          · exact absurd (h y (by simp)) (not_lt.2 hy)
          · right; left
            intro m hm
            rcases List.mem_cons.1 hm with rfl | hm
            · exact hx
            · exact h m hm
          · right; right
            refine ⟨x :: p, a, b, s, by rw [e]; rfl, ?_, ha, hb⟩
            intro m hm
            rcases List.mem_cons.1 hm with rfl | hm
            · exact hx
            · exact hp m hm

/-- the coefficient of expansion used outside the measured range -/
def kDef (api : ℚ) : ℚ := if api > 30 then 0.0009 else 0.0008

theorem kDef_bounds (api : ℚ) : 0 < kDef api ∧ kDef api < 0.001 := by
  unfold kDef
  split <;> norm_num

theorem bounding_dbl (l : List Meas) (T : ℚ) :
    bounding (if l.length ≤ 1 then dbl l else l) T = bounding l T := by
  split
  · rename_i h
    have e : dbl (dbl l) = dbl l := by
      match l, h with
      | [], _ => rfl
      | [a], _ => rfl
    unfold bounding
    rw [e]
  · rfl

theorem rhoAt_eq (o : DOil) (T : ℚ) (b : Meas × Meas) (h : bounding (fresh o.meas) T = some b) :
    rhoAt o T = some (atTemp (refDensity b T).1 (refDensity b T).2 T (coeff o.api b T)) := by
  unfold rhoAt
  rw [h]
  simp only
  rw [bounding_dbl, h]

theorem rhoAt_low (o : DOil) (a : Meas) (T : ℚ) (h : bounding (fresh o.meas) T = some (a, a)) (ht : T < a.temp) :
    rhoAt o T = some (a.rho / (1 - kDef o.api * (a.temp - T))) := by
  rw [rhoAt_eq o T _ h]
  have n : ¬ T > a.temp := not_lt.2 ht.le
  unfold refDensity coeff kDef atTemp
  simp [n, ht]

theorem rhoAt_high (o : DOil) (a : Meas) (T : ℚ) (h : bounding (fresh o.meas) T = some (a, a)) (ht : a.temp ≤ T) :
    rhoAt o T = some (a.rho / (1 + kDef o.api * (T - a.temp))) := by
  rw [rhoAt_eq o T _ h]
  rcases ht.lt_or_eq with ht | ht
  · unfold refDensity coeff kDef atTemp
    simp only [gt_iff_lt, ht, and_self, if_true, true_or]
    congr 2
    ring
  · unfold refDensity coeff atTemp volExp
    simp [ht]

theorem rhoAt_mid (o : DOil) (a b : Meas) (T : ℚ) (h : bounding (fresh o.meas) T = some (a, b)) (ha : a.temp ≤ T)
    (hb : T < b.temp) :
    rhoAt o T = some (a.rho / (1 + (a.rho - b.rho) / (a.rho * (b.temp - a.temp)) * (T - a.temp))) := by
  rw [rhoAt_eq o T _ h]
  have n1 : ¬ T > b.temp := not_lt.2 hb.le
  have n2 : ¬ T < a.temp := not_lt.2 ha
  have n3 : a.temp ≠ b.temp := (lt_of_le_of_lt ha hb).ne
  unfold refDensity coeff volExp atTemp
  simp only [n1, n2, n3, and_false, false_and, or_self, if_false]
  congr 2
  ring

/-! ### the value within a gap -/

/-- between two measurements the value lies between theirs, and it falls -/
theorem mid_bounds {ra rb ta tb T : ℚ} (hra : 0 < ra) (hrb : 0 < rb) (hr : rb ≤ ra) (ha : ta ≤ T) (hb : T < tb) :
    rb ≤ ra / (1 + (ra - rb) / (ra * (tb - ta)) * (T - ta)) ∧
      ra / (1 + (ra - rb) / (ra * (tb - ta)) * (T - ta)) ≤ ra := by
  have hd : 0 < tb - ta := by linarith
  have hc : 0 ≤ (ra - rb) / (ra * (tb - ta)) := div_nonneg (by linarith) (by positivity)
  have h1 : 0 ≤ (ra - rb) / (ra * (tb - ta)) * (T - ta) := mul_nonneg hc (by linarith)
  have hden : 0 < 1 + (ra - rb) / (ra * (tb - ta)) * (T - ta) := by linarith
  have h2 : (ra - rb) / (ra * (tb - ta)) * (T - ta) ≤ (ra - rb) / ra := by
    calc (ra - rb) / (ra * (tb - ta)) * (T - ta) ≤ (ra - rb) / (ra * (tb - ta)) * (tb - ta) :=
          mul_le_mul_of_nonneg_left (by linarith) hc
      _ = (ra - rb) / ra := by field_simp
  constructor
  · rw [le_div_iff₀ hden]
    calc rb * (1 + (ra - rb) / (ra * (tb - ta)) * (T - ta)) ≤ rb * (1 + (ra - rb) / ra) :=
          mul_le_mul_of_nonneg_left (by linarith) hrb.le
      _ = (rb * (2 * ra - rb)) / ra := by field_simp; ring
      _ ≤ ra := by
          rw [div_le_iff₀ hra]
          nlinarith [sq_nonneg (ra - rb)]
  · rw [div_le_iff₀ hden]
    nlinarith

/-- a quotient falls when its denominator grows -/
theorem quot_anti {r x y : ℚ} (hr : 0 ≤ r) (hx : 0 < x) (h : x ≤ y) : r / y ≤ r / x :=
  div_le_div_of_nonneg_left hr hx h

theorem minTemp_aux (l : List ℚ) (p : ℚ) : l.foldl min p ≤ p ∧ (∀ t ∈ l, l.foldl min p ≤ t) ∧
    (l.foldl min p = p ∨ l.foldl min p ∈ l) := by
  induction l generalizing p with
  | nil => simp
  | cons a l ih =>
    obtain ⟨h1, h2, h3⟩ := ih (min p a)
    rw [List.foldl_cons]
    refine ⟨h1.trans (min_le_left _ _), ?_, ?_⟩
    · intro t ht
      rcases List.mem_cons.1 ht with rfl | ht
      · exact h1.trans (min_le_right _ _)
      · exact h2 t ht
    · rcases h3 with h3 | h3
      · rcases min_choice p a with h | h
        · left; rw [h3, h]
        · right; rw [h3, h]; simp
      · right; exact List.mem_cons_of_mem _ h3

theorem minTemp_nonneg {o : DOil} (g : Good o) : 0 ≤ minTemp o := by
  unfold minTemp
  rcases (minTemp_aux ((fresh o.meas).map (·.temp)) o.pour).2.2 with h | h
  · rw [h]; exact g.pour.1
  · obtain ⟨m, hm, e⟩ := List.mem_map.1 h
    rw [← e]
    exact (g.warm m (mem_fresh.1 hm).1).1

theorem minTemp_le {o : DOil} {m : Meas} (hm : m ∈ o.meas) (hw : m.weath = 0) : minTemp o ≤ m.temp :=
  (minTemp_aux _ o.pour).2.1 m.temp (List.mem_map.2 ⟨m, mem_fresh.2 ⟨hm, hw⟩, rfl⟩)

/-- what `rhoAt` gives in the three cases -/
inductive Case (o : DOil) (T r : ℚ) : Prop
  | low (a : Meas) (ha : a ∈ fresh o.meas) (h : ∀ m ∈ fresh o.meas, T < m.temp ∧ a.temp ≤ m.temp)
      (e : r = a.rho / (1 - kDef o.api * (a.temp - T)))
  | high (z : Meas) (hz : z ∈ fresh o.meas) (h : ∀ m ∈ fresh o.meas, m.temp ≤ T ∧ m.temp ≤ z.temp)
      (e : r = z.rho / (1 + kDef o.api * (T - z.temp)))
  | mid (a b : Meas) (ha : a ∈ fresh o.meas) (hb : b ∈ fresh o.meas) (h1 : a.temp ≤ T) (h2 : T < b.temp)
      (h : ∀ m ∈ fresh o.meas, m.temp ≤ a.temp ∨ b.temp ≤ m.temp)
      (e : r = a.rho / (1 + (a.rho - b.rho) / (a.rho * (b.temp - a.temp)) * (T - a.temp)))

theorem rhoAt_case {o : DOil} (g : Good o) (T : ℚ) : ∃ r, rhoAt o T = some r ∧ Case o T r := by
  have hs := fresh_sorted g.distinct
  have hne := fresh_ne_nil g
  rcases place _ hs hne T with h | h | ⟨p, a, b, s, e, hp, ha, hb⟩
  · obtain ⟨a, s, e⟩ := List.exists_cons_of_ne_nil hne
    have hb := bounding_low _ a s T e h
    have ha : a ∈ fresh o.meas := by rw [e]; simp
    refine ⟨_, rhoAt_low o a T hb (h a ha), .low a ha (fun m hm => ⟨h m hm, ?_⟩) rfl⟩
    rw [e] at hm hs
    rcases List.mem_cons.1 hm with rfl | hm
    · exact le_refl _
    · exact ((List.pairwise_cons.1 hs).1 m hm).le
  · obtain ⟨z, p, e⟩ : ∃ z p, fresh o.meas = p ++ [z] :=
      ⟨_, _, (List.dropLast_append_getLast hne).symm⟩
    have hb := bounding_high _ p z T e h
    have hz : z ∈ fresh o.meas := by rw [e]; simp
    refine ⟨_, rhoAt_high o z T hb (h z hz), .high z hz (fun m hm => ⟨h m hm, ?_⟩) rfl⟩
    rw [e] at hm hs
    rw [List.mem_append, List.mem_singleton] at hm
    rcases hm with hm | rfl
    · exact ((List.pairwise_append.1 hs).2.2 m hm z (by simp)).le
    · exact le_refl _
  · have hbd := bounding_mid _ p a b s T e hp ha hb
    refine ⟨_, rhoAt_mid o a b T hbd ha hb, .mid a b (by rw [e]; simp) (by rw [e]; simp) ha hb (fun m hm => ?_) rfl⟩
    rw [e] at hm hs
    have h1 := List.pairwise_append.1 hs
    have h2 := List.pairwise_cons.1 h1.2.1
    have h3 := List.pairwise_cons.1 h2.2
    simp only [List.mem_append, List.mem_cons] at hm
    rcases hm with hm | rfl | rfl | hm
    · left; exact (h1.2.2 m hm a (by simp)).le
    · left; exact le_refl _
    · right; exact le_refl _
    · right; exact (h3.1 m hm).le

/-- a value is positive, not above what was measured at lower temperatures and not below what was measured at higher -/
theorem case_bounds {o : DOil} (g : Good o) {T r : ℚ} (hT : 0 ≤ T) (c : Case o T r) :
    0 < r ∧ (∀ m ∈ fresh o.meas, m.temp ≤ T → r ≤ m.rho) ∧ (∀ m ∈ fresh o.meas, T ≤ m.temp → m.rho ≤ r) := by
  have hk := kDef_bounds o.api
  have mono : ∀ m ∈ fresh o.meas, ∀ m' ∈ fresh o.meas, m.temp ≤ m'.temp → m'.rho ≤ m.rho := fun m hm m' hm' h =>
    g.mono m (mem_fresh.1 hm).1 m' (mem_fresh.1 hm').1 (mem_fresh.1 hm).2 (mem_fresh.1 hm').2 h
  have pos : ∀ m ∈ fresh o.meas, 0 < m.rho := fun m hm => g.pos m (mem_fresh.1 hm).1 (mem_fresh.1 hm).2
  cases c with
  | low a ha h e =>
    have hta : T < a.temp := (h a ha).1
    have hwa := g.warm a (mem_fresh.1 ha).1
    have hden : 0 < 1 - kDef o.api * (a.temp - T) := by nlinarith [hwa.2]
    have hra := pos a ha
    have hr : a.rho ≤ r := by
      rw [e, le_div_iff₀ hden]
      have : 0 ≤ kDef o.api * (a.temp - T) := mul_nonneg hk.1.le (by linarith)
      nlinarith
    refine ⟨by rw [e]; positivity, fun m hm ht => absurd (h m hm).1 (not_lt.2 ht), fun m hm _ => ?_⟩
    exact (mono a ha m hm (h m hm).2).trans hr
  | high z hz h e =>
    have htz : z.temp ≤ T := (h z hz).1
    have hden : 1 ≤ 1 + kDef o.api * (T - z.temp) := by
      have : 0 ≤ kDef o.api * (T - z.temp) := mul_nonneg hk.1.le (by linarith)
      linarith
    have hrz := pos z hz
    have hr : r ≤ z.rho := by
      rw [e, div_le_iff₀ (by linarith)]
      nlinarith
    refine ⟨by rw [e]; exact div_pos hrz (by linarith), fun m hm _ => hr.trans (mono m hm z hz (h m hm).2), ?_⟩
    intro m hm ht
    have em : m.temp = T := le_antisymm (h m hm).1 ht
    have ez : z.temp = T := le_antisymm htz (em ▸ (h m hm).2)
    have : r = z.rho := by rw [e, ez]; simp
    rw [this]
    exact mono z hz m hm (by rw [ez, em])
  | mid a b ha hb h1 h2 h e =>
    have hra := pos a ha
    have hrb := pos b hb
    have hb' := mid_bounds hra hrb (mono a ha b hb (h1.trans h2.le)) h1 h2
    rw [← e] at hb'
    refine ⟨lt_of_lt_of_le hrb hb'.1, ?_, ?_⟩
    · intro m hm ht
      rcases h m hm with hm' | hm'
      · exact hb'.2.trans (mono m hm a ha hm')
      · exact absurd (lt_of_lt_of_le h2 hm') (not_lt.2 ht)
    · intro m hm ht
      rcases h m hm with hm' | hm'
      · have em : T = a.temp := le_antisymm (ht.trans hm') h1
        have : r = a.rho := by rw [e, em]; simp
        rw [this]
        exact mono a ha m hm (em ▸ ht)
      · exact (mono b hb m hm hm').trans hb'.1

/-! ### C121 -/

/-- The spec: what a user reads off the measurements. `Between o T r`: a density `r` at temperature `T` that no measurement of
fresh oil contradicts. -/
def Between (o : DOil) (T r : ℚ) : Prop :=
  0 < r ∧ (∀ m ∈ o.meas, m.weath = 0 → m.temp ≤ T → r ≤ m.rho) ∧ (∀ m ∈ o.meas, m.weath = 0 → T ≤ m.temp → m.rho ≤ r)

theorem clip_nonneg {o : DOil} (g : Good o) (T : ℚ) : 0 ≤ (if T < minTemp o then minTemp o else T) := by
  split
  · exact minTemp_nonneg g
  · rename_i h
    exact (minTemp_nonneg g).trans (not_lt.1 h)

/-- A density is always found, and it lies between those measured at the temperatures around. -/
theorem C121_between {o : DOil} (g : Good o) (T : ℚ) : ∃ r, densityAt o T = some r ∧ Between o T r := by
  obtain ⟨r, hr, c⟩ := rhoAt_case g (if T < minTemp o then minTemp o else T)
  have b := case_bounds g (clip_nonneg g T) c
  refine ⟨r, hr, b.1, ?_, ?_⟩
  · intro m hm hw ht
    refine b.2.1 m (mem_fresh.2 ⟨hm, hw⟩) ?_
    split
    · exact ht.trans (by linarith)
    · exact ht
  · intro m hm hw ht
    refine b.2.2 m (mem_fresh.2 ⟨hm, hw⟩) ?_
    split
    · exact minTemp_le hm hw
    · exact ht

/-- At a temperature where fresh oil was measured the density is the one measured. -/
theorem C121_measured {o : DOil} (g : Good o) (m : Meas) (hm : m ∈ o.meas) (hw : m.weath = 0) :
    densityAt o m.temp = some m.rho := by
  obtain ⟨r, hr, b⟩ := C121_between g m.temp
  rw [hr, le_antisymm (b.2.1 m hm hw (le_refl _)) (b.2.2 m hm hw (le_refl _))]

theorem rho_anti {o : DOil} (g : Good o) {T T' r r' : ℚ} (h0 : 0 ≤ T) (h : T ≤ T') (c : Case o T r) (c' : Case o T' r') :
    r' ≤ r := by
  have b := case_bounds g h0 c
  have b' := case_bounds g (h0.trans h) c'
  by_cases hex : ∃ m ∈ fresh o.meas, T ≤ m.temp ∧ m.temp ≤ T'
  · obtain ⟨m, hm, h1, h2⟩ := hex
    exact (b'.2.1 m hm h2).trans (b.2.2 m hm h1)
  · push Not at hex
    have hk := kDef_bounds o.api
    have pos : ∀ m ∈ fresh o.meas, 0 < m.rho := fun m hm => g.pos m (mem_fresh.1 hm).1 (mem_fresh.1 hm).2
    have inj : ∀ m ∈ fresh o.meas, ∀ m' ∈ fresh o.meas, m.temp = m'.temp → m = m' := by
      intro m hm m' hm' e
      by_contra hne
      have hs := fresh_sorted g.distinct
      have := List.Pairwise.forall_of_forall_of_flip (R := fun a b : Meas => a.temp = b.temp → a = b) (fun _ _ _ => rfl)
        (hs.imp (fun h e => absurd e h.ne)) (hs.imp (fun h e => absurd e h.ne'))
      exact hne (this hm hm' e)
    cases c with
    | low a ha hl e =>
      have : T' < a.temp := hex a ha (hl a ha).1.le
      cases c' with
      | low a' ha' hl' e' =>
        have : a' = a := inj _ ha' _ ha (le_antisymm (hl' a ha).2 (hl a' ha').2)
        subst this
        rw [e, e']
        have hwa := g.warm a' (mem_fresh.1 ha').1
        refine quot_anti (pos _ ha').le ?_ ?_
        · nlinarith [hwa.2]
        · nlinarith
      | high z hz hl' e' => exact absurd (hl' a ha).1 (not_le.2 this)
      | mid a' b' ha' hb' h1 h2 hl' e' =>
        exact absurd (hl a' ha').2 (not_le.2 (lt_of_le_of_lt h1 this))
    | high z hz hl e =>
      cases c' with
      | low a' ha' hl' e' => exact absurd ((hl a' ha').1.trans h) (not_le.2 (hl' a' ha').1)
      | high z' hz' hl' e' =>
        have : z' = z := inj _ hz' _ hz (le_antisymm (hl z' hz').2 (hl' z hz).2)
        subst this
        rw [e, e']
        have := (hl z' hz').1
        refine quot_anti (pos _ hz').le ?_ ?_
        · nlinarith
        · nlinarith
      | mid a' b' ha' hb' h1 h2 hl' e' =>
        exact absurd ((hl b' hb').1.trans h) (not_le.2 h2)
    | mid a b' ha hb h1 h2 hl e =>
      have hb2 : T' < b'.temp := hex b' hb h2.le
      cases c' with
      | low a' ha' hl' e' => exact absurd (h1.trans h) (not_le.2 (hl' a ha).1)
      | high z hz hl' e' => exact absurd (hl' b' hb).1 (not_le.2 hb2)
      | mid a' b'' ha' hb' h1' h2' hl' e' =>
        have ea : a' = a := by
          refine inj _ ha' _ ha (le_antisymm ?_ ?_)
          · rcases hl a' ha' with h | h
            · exact h
            · exact absurd (lt_of_le_of_lt h1' hb2) (not_lt.2 h)
          · rcases hl' a ha with h'' | h''
            · exact h''
            · exact absurd (h''.trans (h1.trans h)) (not_le.2 h2')
        have eb : b'' = b' := by
          refine inj _ hb' _ hb (le_antisymm ?_ ?_)
          · rcases hl' b' hb with h'' | h''
            · exact absurd ((h1'.trans_lt hb2).trans_le h'') (lt_irrefl _)
            · exact h''
          · rcases hl b'' hb' with h'' | h''
            · exact absurd ((h1.trans h).trans_lt (lt_of_lt_of_le h2' h'')) (lt_irrefl _)
            · exact h''
        subst ea eb
        rw [e, e']
        have hra := pos _ ha
        have hd : 0 < b''.temp - a'.temp := by linarith
        have hr : b''.rho ≤ a'.rho := g.mono a' (mem_fresh.1 ha).1 b'' (mem_fresh.1 hb).1 (mem_fresh.1 ha).2
          (mem_fresh.1 hb).2 (by linarith)
        have hc : 0 ≤ (a'.rho - b''.rho) / (a'.rho * (b''.temp - a'.temp)) :=
          div_nonneg (by linarith) (by positivity)
        refine quot_anti hra.le ?_ ?_
        · have := mul_nonneg hc (show 0 ≤ T - a'.temp by linarith)
          linarith
        · nlinarith

/-- Warmer oil is never denser, over all temperatures. -/
theorem C121_antitone {o : DOil} (g : Good o) {T T' r r' : ℚ} (h : T ≤ T') (hr : densityAt o T = some r)
    (hr' : densityAt o T' = some r') : r' ≤ r := by
  obtain ⟨q, hq, c⟩ := rhoAt_case g (if T < minTemp o then minTemp o else T)
  obtain ⟨q', hq', c'⟩ := rhoAt_case g (if T' < minTemp o then minTemp o else T')
  unfold densityAt at hr hr'
  rw [hq] at hr
  rw [hq'] at hr'
  cases hr
  cases hr'
  refine rho_anti g (clip_nonneg g T) ?_ c c'
  split <;> split <;> linarith

/-- Below the pour point and all measurements the density no longer changes. -/
theorem C121_solid (o : DOil) {T : ℚ} (h1 : T ≤ o.pour) (h2 : ∀ m ∈ o.meas, m.weath = 0 → T ≤ m.temp) :
    densityAt o T = densityAt o (minTemp o) := by
  have : T ≤ minTemp o := by
    unfold minTemp
    rcases (minTemp_aux ((fresh o.meas).map (·.temp)) o.pour).2.2 with h | h
    · rw [h]; exact h1
    · obtain ⟨m, hm, e⟩ := List.mem_map.1 h
      rw [← e]
      exact h2 m (mem_fresh.1 hm).1 (mem_fresh.1 hm).2
  unfold densityAt
  rw [if_neg (lt_irrefl _)]
  split
  · rfl
  · rename_i h
    rw [le_antisymm this (not_lt.1 h)]

/-- The order in which the measurements are listed does not matter. -/
theorem C121_order {o o' : DOil} (hp : o.meas.Perm o'.meas) (e1 : o.pour = o'.pour) (e2 : o.api = o'.api)
    (d : (o.meas.filter (fun m => m.weath = 0)).Pairwise (fun a b => a.temp ≠ b.temp)) (T : ℚ) :
    densityAt o T = densityAt o' T := by
  have d' : (o'.meas.filter (fun m => m.weath = 0)).Pairwise (fun a b => a.temp ≠ b.temp) :=
    ((hp.filter _).pairwise_iff (fun {_ _} h => Ne.symm h)).1 d
  have e : fresh o.meas = fresh o'.meas := by
    refine List.Perm.eq_of_pairwise (le := fun a b : Meas => a.temp < b.temp) ?_ (fresh_sorted d) (fresh_sorted d') ?_
    · intro a b _ _ h h'
      exact absurd h' (not_lt.2 h.le)
    · exact (List.perm_insertionSort _ _).trans ((hp.filter _).trans (List.perm_insertionSort _ _).symm)
  unfold densityAt rhoAt minTemp
  rw [e, e1, e2]

/-- Measurements of weathered oil do not count. -/
theorem C121_weathered (o : DOil) (m : Meas) (ms ms' : List Meas) (e : o.meas = ms ++ m :: ms') (hw : m.weath ≠ 0) (T : ℚ) :
    densityAt o T = densityAt { o with meas := ms ++ ms' } T := by
  have : fresh o.meas = fresh (ms ++ ms') := by
    unfold fresh
    rw [e, List.filter_append, List.filter_append, List.filter_cons_of_neg (by simpa using hw)]
  unfold densityAt rhoAt minTemp
  rw [this]

/-- Asking for many temperatures at once gives what asking one by one gives (up to 1000 K). -/
theorem C121_array {o : DOil} (g : Good o) (Ts : List ℚ) (h : ∀ T ∈ Ts, T ≤ 1000) :
    densitiesAt o Ts = Ts.map (densityAt o) := by
  have hm : minTemp o ≤ 1000 := ((minTemp_aux _ o.pour).1).trans g.pour.2
  unfold densitiesAt densityAt
  apply List.map_congr_left
  intro T hT
  have hT := h T hT
  congr 1
  split
  · rename_i hl
    rw [max_eq_right hl.le, min_eq_left hm]
  · rename_i hl
    rw [max_eq_left (not_lt.1 hl), min_eq_left hT]

/-- the full claim: the density depends continuously on the temperature -/
def C121_claim : Prop := ∀ o : DOil, Good o → ∀ T r : ℚ, densityAt o T = some r → ∀ ε > 0, ∃ δ > 0, ∀ T' r' : ℚ,
  |T' - T| < δ → densityAt o T' = some r' → |r' - r| < ε

/-- light fuel with two measurements -/
def oil2 : DOil := ⟨[⟨850, 300, 0⟩, ⟨900, 280, 0⟩, ⟨930, 300, 0.2⟩], 250, 25⟩

theorem good_oil2 : Good oil2 := by
  refine ⟨⟨⟨850, 300, 0⟩, by simp [oil2], rfl⟩, ?_, ?_, ?_, ?_, ?_⟩
  · decide +kernel
  · intro m hm; simp only [oil2, List.mem_cons, List.not_mem_nil, or_false] at hm
    rcases hm with rfl | rfl | rfl <;> norm_num
  · intro m hm m' hm'
    simp only [oil2, List.mem_cons, List.not_mem_nil, or_false] at hm hm'
    rcases hm with rfl | rfl | rfl <;> rcases hm' with rfl | rfl | rfl <;> norm_num
  · intro m hm; simp only [oil2, List.mem_cons, List.not_mem_nil, or_false] at hm
    rcases hm with rfl | rfl | rfl <;> norm_num
  · norm_num [oil2]

/-- Below a measured temperature the density stays away from the measured one by a fixed amount. -/
theorem C121_jump {o : DOil} (g : Good o) (p s : List Meas) (a b : Meas) (e : fresh o.meas = p ++ a :: b :: s) {T r : ℚ}
    (ha : a.temp ≤ T) (hb : T < b.temp) (hr : densityAt o T = some r) :
    (a.rho - b.rho) ^ 2 / (2 * a.rho - b.rho) ≤ r - b.rho := by
  have hs := fresh_sorted g.distinct
  have hma : a ∈ fresh o.meas := by rw [e]; simp
  have hmb : b ∈ fresh o.meas := by rw [e]; simp
  rw [e] at hs
  have hp : ∀ m ∈ p, m.temp ≤ T := fun m hm =>
    ((List.pairwise_append.1 hs).2.2 m hm a (by simp)).le.trans ha
  have hbd := bounding_mid _ p a b s T e hp ha hb
  have hcl : ¬ T < minTemp o := not_lt.2 ((minTemp_le (mem_fresh.1 hma).1 (mem_fresh.1 hma).2).trans ha)
  unfold densityAt at hr
  rw [if_neg hcl, rhoAt_mid o a b T hbd ha hb] at hr
  cases hr
  have hra := g.pos a (mem_fresh.1 hma).1 (mem_fresh.1 hma).2
  have hrb := g.pos b (mem_fresh.1 hmb).1 (mem_fresh.1 hmb).2
  have hr : b.rho ≤ a.rho := g.mono a (mem_fresh.1 hma).1 b (mem_fresh.1 hmb).1 (mem_fresh.1 hma).2
          (mem_fresh.1 hmb).2 (by linarith)
  have hd : 0 < b.temp - a.temp := by linarith
  have hc : 0 ≤ (a.rho - b.rho) / (a.rho * (b.temp - a.temp)) := div_nonneg (by linarith) (by positivity)
  have h1 : 0 ≤ (a.rho - b.rho) / (a.rho * (b.temp - a.temp)) * (T - a.temp) := mul_nonneg hc (by linarith)
  have h2 : (a.rho - b.rho) / (a.rho * (b.temp - a.temp)) * (T - a.temp) ≤ (a.rho - b.rho) / a.rho := by
    calc (a.rho - b.rho) / (a.rho * (b.temp - a.temp)) * (T - a.temp)
        ≤ (a.rho - b.rho) / (a.rho * (b.temp - a.temp)) * (b.temp - a.temp) :=
          mul_le_mul_of_nonneg_left (by linarith) hc
      _ = (a.rho - b.rho) / a.rho := by field_simp
  have h3 : a.rho / (1 + (a.rho - b.rho) / a.rho) ≤
      a.rho / (1 + (a.rho - b.rho) / (a.rho * (b.temp - a.temp)) * (T - a.temp)) :=
    quot_anti hra.le (by linarith) (by linarith)
  have h4 : a.rho / (1 + (a.rho - b.rho) / a.rho) = a.rho ^ 2 / (2 * a.rho - b.rho) := by
    have : 2 * a.rho - b.rho ≠ 0 := (show (0 : ℚ) < 2 * a.rho - b.rho by linarith).ne'
    have : 1 + (a.rho - b.rho) / a.rho = (2 * a.rho - b.rho) / a.rho := by field_simp; ring
    rw [this, div_div_eq_mul_div, sq]
  have h5 : a.rho ^ 2 / (2 * a.rho - b.rho) - b.rho = (a.rho - b.rho) ^ 2 / (2 * a.rho - b.rho) := by
    have : 2 * a.rho - b.rho ≠ 0 := (show (0 : ℚ) < 2 * a.rho - b.rho by linarith).ne'
    rw [eq_div_iff this, sub_mul, div_mul_cancel₀ _ this]
    ring
  linarith

/-- False: just below 300 K the density is at least 2.6 above the one at 300 K. -/
theorem C121_counterexample : ¬ C121_claim := by
  intro h
  have e : fresh oil2.meas = [] ++ ⟨900, 280, 0⟩ :: ⟨850, 300, 0⟩ :: [] := by decide +kernel
  obtain ⟨δ, hδ, hc⟩ := h oil2 good_oil2 300 850
    (C121_measured good_oil2 ⟨850, 300, 0⟩ (by simp [oil2]) rfl) 1 (by norm_num)
  have h1 : (280 : ℚ) ≤ 300 - min (δ / 2) 1 := by linarith [min_le_right (δ / 2) 1]
  have h2 : 0 < min (δ / 2) 1 := lt_min (by linarith) one_pos
  obtain ⟨r, hr, -⟩ := C121_between good_oil2 (300 - min (δ / 2) 1)
  have h3 := C121_jump good_oil2 _ _ _ _ e (T := 300 - min (δ / 2) 1) h1 (by simpa using h2) hr
  have h4 := hc _ r (by
    rw [abs_lt]
    have := min_le_left (δ / 2) 1
    constructor <;> linarith) hr
  norm_num at h3
  have := (abs_lt.1 h4).2
  linarith

/-- What holds: found, between, as measured, falling, independent of order; continuity fails (`C121_counterexample`). -/
theorem C121_density_partial {o : DOil} (g : Good o) :
    (∀ T, ∃ r, densityAt o T = some r ∧ Between o T r) ∧
    (∀ m ∈ o.meas, m.weath = 0 → densityAt o m.temp = some m.rho) ∧
    (∀ T T' r r', T ≤ T' → densityAt o T = some r → densityAt o T' = some r' → r' ≤ r) :=
  ⟨C121_between g, C121_measured g, fun _ _ _ _ => C121_antitone g⟩

/-! concrete cases -/
example : densityAt oil2 280 = some 900 ∧ densityAt oil2 300 = some 850 ∧ densityAt oil2 290 = some (32400 / 37) ∧
    standardDensity oil2 = densityAt oil2 288.15 ∧ densityAt oil2 100 = densityAt oil2 250 := by
  decide +kernel
example : ∃ r, densityAt oil2 260 = some r ∧ 900 < r := ⟨900 / (1 - 0.0008 * 20), by decide +kernel, by norm_num⟩
example : densitiesAt oil2 [280, 310] = [280, 310].map (densityAt oil2) := C121_array good_oil2 _ (by norm_num)

end Verif.Oil
