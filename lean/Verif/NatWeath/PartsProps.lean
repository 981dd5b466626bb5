import Verif.NatWeath.PropsB
/-!
# C360: weathering does not depend on the number of elements that the oil is in

Every element is replaced by `k` elements that share its mass, its initial mass, its area and its part of the slick, and are otherwise like it.
-/
namespace Verif.NatWeath

set_option linter.unusedSectionVars false

/-- One of `k` elements that share an element. -/
noncomputable def part (k : Nat) (e : El) : El :=
  { e with comps := e.comps.map (fun c => c / k), mass := e.mass / k, init := e.init / k, area := e.area / k, volFrac := e.volFrac / k }

/-- The same oil in `k` times as many elements. -/
noncomputable def inParts (k : Nat) (els : List El) : List El := els.flatMap (fun e => List.replicate k (part k e))

theorem inParts_map {β : Type} (k : Nat) (g : El → β) (els : List El) :
    (inParts k els).map g = els.flatMap (fun e => List.replicate k (g (part k e))) := by
  simp [inParts, List.map_flatMap]

theorem inParts_el (k : Nat) (g h : El → El) (els : List El) (hg : ∀ e ∈ els, g (part k e) = part k (h e)) :
    (inParts k els).map g = inParts k (els.map h) := by
  rw [inParts_map, inParts, List.flatMap_map]
  exact List.flatMap_congr (fun e he => by rw [hg e he])

theorem inParts_sum (k : Nat) (hk : 1 ≤ k) (g h : El → ℝ) (els : List El) (hg : ∀ e ∈ els, g (part k e) = h e / k) :
    ((inParts k els).map g).sum = (els.map h).sum := by
  have hk0 : (k : ℝ) ≠ 0 := by exact_mod_cast (by omega : k ≠ 0)
  rw [inParts_map]
  induction els with
  | nil => rfl
  | cons e els ih =>
    rw [List.flatMap_cons, List.sum_append, List.map_cons, List.sum_cons, ih (fun x hx => hg x (List.mem_cons_of_mem _ hx)), List.sum_replicate,
      hg e (List.mem_cons_self ..), nsmul_eq_mul]
    congr 1
    field_simp

theorem mem_inParts (k : Nat) (hk : 1 ≤ k) (els : List El) (x : El) : x ∈ inParts k els ↔ ∃ e ∈ els, x = part k e := by
  simp only [inParts, List.mem_flatMap, List.mem_replicate]
  refine ⟨fun ⟨e, he, h⟩ => ⟨e, he, h.2⟩, fun ⟨e, he, h⟩ => ⟨e, he, by omega, h⟩⟩

theorem sum_parts (k : ℝ) (c : List ℝ) : (c.map (fun x => x / k)).sum = c.sum / k := by
  induction c with
  | nil => simp
  | cons x c ih => simp [ih, add_div]

theorem zip_parts {β : Type} (k : ℝ) (f g : ℝ → β → ℝ) (c : List ℝ) (o : List β) (h : ∀ x ∈ c, ∀ p ∈ o, f (x / k) p = g x p / k) :
    List.zipWith f (c.map (fun x => x / k)) o = (List.zipWith g c o).map (fun x => x / k) := by
  induction c generalizing o with
  | nil => simp
  | cons x c ih =>
    cases o with
    | nil => simp
    | cons p o =>
      simp only [List.map_cons, List.zipWith_cons_cons, List.cons.injEq]
      exact ⟨h x (List.mem_cons_self ..) p (List.mem_cons_self ..),
        ih o (fun y hy q hq => h y (List.mem_cons_of_mem _ hy) q (List.mem_cons_of_mem _ hq))⟩

theorem zip_same {β : Type} (k : ℝ) (f g : ℝ → β → ℝ) (c : List ℝ) (o : List β) (h : ∀ x ∈ c, ∀ p ∈ o, f (x / k) p = g x p) :
    List.zipWith f (c.map (fun x => x / k)) o = List.zipWith g c o := by
  induction c generalizing o with
  | nil => simp
  | cons x c ih =>
    cases o with
    | nil => simp
    | cons p o =>
      simp only [List.map_cons, List.zipWith_cons_cons, List.cons.injEq]
      exact ⟨h x (List.mem_cons_self ..) p (List.mem_cons_self ..),
        ih o (fun y hy q hq => h y (List.mem_cons_of_mem _ hy) q (List.mem_cons_of_mem _ hq))⟩

theorem part_withComps (k : Nat) (e : El) (c : List ℝ) : (part k e).withComps (c.map (fun x => x / (k : ℝ))) = part k (e.withComps c) := by
  simp [part, El.withComps, sum_parts]

theorem part_mass (k : Nat) (e : El) : (part k e).mass = e.mass / k := rfl

theorem inParts_mass (k : Nat) (hk : 1 ≤ k) (els : List El) : totalMass (inParts k els) = totalMass els :=
  inParts_sum k hk _ _ els fun _ _ => rfl

section
variable (k : Nat) (hk : 1 ≤ k)
include hk

theorem k0 : (k : ℝ) ≠ 0 := by exact_mod_cast (by omega : k ≠ 0)

theorem kpos : (0 : ℝ) < k := by exact_mod_cast (by omega : 0 < k)

/-! ### evaporation -/

theorem sumMolar_part (o : List Comp) (c : List ℝ) : sumMolar o (c.map (fun x => x / (k : ℝ))) = sumMolar o c / k := by
  unfold sumMolar
  rw [zip_parts (k : ℝ) _ (fun m (p : Comp) => m / (p.mw / 1000)), sum_parts]
  intro x _ p _
  ring

theorem puddle_part (e : El) : puddle (part k e) = puddle e := by
  simp only [puddle, part]
  rw [div_div_div_cancel_right₀ (k0 k hk)]

theorem decay_part (T : ℝ) (o : List Comp) (U : ℝ) (e : El) : decay T o U (part k e) = decay T o U e := by
  unfold decay
  refine List.map_congr_left fun p _ => ?_
  rw [puddle_part k hk]
  simp only [part]
  rw [sumMolar_part k hk]
  have hk0 := k0 k hk
  congr 2
  rw [show -(e.area / k) * (1 - e.fracWater) * transport U * puddle e = -e.area * (1 - e.fracWater) * transport U * puddle e / k by ring,
    show 8.314 * T * (sumMolar o e.comps / k) = 8.314 * T * sumMolar o e.comps / k by ring, div_div_div_cancel_right₀ hk0]

theorem evapEl_part (T : ℝ) (o : List Comp) (dt U : ℝ) (e : El) :
    (evapEl T o dt U (part k e)).1 = part k (evapEl T o dt U e).1 ∧ (evapEl T o dt U (part k e)).2 = (evapEl T o dt U e).2 / k := by
  have hk0 := k0 k hk
  have hr : expDecay (part k e).comps (decay T o U (part k e)) dt = (expDecay e.comps (decay T o U e) dt).map (fun x => x / (k : ℝ)) := by
    rw [decay_part k hk]
    unfold expDecay
    exact zip_parts (k : ℝ) _ _ _ _ (fun x _ p _ => by ring)
  have ha : (List.zipWith (fun m m' => m - m') (part k e).comps ((expDecay e.comps (decay T o U e) dt).map (fun x => x / (k : ℝ)))).sum =
      (List.zipWith (fun m m' => m - m') e.comps (expDecay e.comps (decay T o U e) dt)).sum / k := by
    generalize expDecay e.comps (decay T o U e) dt = r
    rw [← sum_parts]
    congr 1
    simp only [part, List.zipWith_map, List.map_zipWith]
    congr 1
    funext a b
    exact (sub_div a b k).symm
  refine ⟨?_, ?_⟩
  · simp only [evapEl, hr, ha, part_withComps, sum_parts]
    simp only [part, El.withComps, div_div_div_cancel_right₀ hk0]
  · simp only [evapEl, hr, ha]

/-- **C360** evaporation: the same elements, in parts, and the same amount. -/
theorem C360_evaporation (T : ℝ) (o : List Comp) (dt : ℝ) (U : ℝ × ℝ → ℝ) (els : List El) :
    evaporate T o dt U (inParts k els) = (evaporate T o dt U els).map (fun r => (inParts k r.1, r.2)) := by
  have hc : (∃ e ∈ inParts k els, ∃ l ∈ decay T o (U e.pos) e, 0 < l) ↔ ∃ e ∈ els, ∃ l ∈ decay T o (U e.pos) e, 0 < l := by
    constructor
    · rintro ⟨x, hx, l, hl, h⟩
      obtain ⟨e, he, rfl⟩ := (mem_inParts k hk els x).1 hx
      rw [decay_part k hk] at hl
      exact ⟨e, he, l, hl, h⟩
    · rintro ⟨e, he, l, hl, h⟩
      refine ⟨part k e, (mem_inParts k hk els _).2 ⟨e, he, rfl⟩, l, ?_, h⟩
      rw [decay_part k hk]
      exact hl
  unfold evaporate
  by_cases h : ∃ e ∈ els, ∃ l ∈ decay T o (U e.pos) e, 0 < l
  · rw [if_pos h, if_pos (hc.2 h), Option.map_none]
  · rw [if_neg h, if_neg (fun x => h (hc.1 x)), Option.map_some]
    rw [inParts_el k _ (fun e => (evapEl T o dt (U e.pos) e).1) els (fun e _ => (evapEl_part k hk T o dt _ e).1),
      inParts_sum k hk _ (fun e => (evapEl T o dt (U e.pos) e).2) els (fun e _ => (evapEl_part k hk T o dt _ e).2)]

/-! ### dispersion -/

theorem thickness_part (e : El) : thickness (part k e) = thickness e := by
  have hk0 := k0 k hk
  have hkp := kpos k hk
  unfold thickness
  have : (part k e).area > 0 ↔ e.area > 0 := div_pos_iff_of_pos_right hkp
  by_cases h : e.area > 0
  · rw [if_pos h, if_pos (this.2 h)]
    simp only [part]
    rw [show e.mass / k / e.density / (1 - e.fracWater) = e.mass / e.density / (1 - e.fracWater) / k by
      rw [div_right_comm e.mass, div_right_comm (e.mass / e.density)], div_div_div_cancel_right₀ hk0]
  · rw [if_neg h, if_neg (fun x => h (this.1 x))]

theorem qSed_part (w : Sea) (dt : ℝ) (e : El) : qSed w dt (part k e) = qSed w dt e / k := by
  simp only [qSed, riseSpeed, thickness_part k hk]
  simp only [part]
  ring

theorem cap_part (d s m : ℝ) : cap (d / k) (s / k) (m / k) = ((cap d s m).1 / k, (cap d s m).2 / k) := by
  have hk0 := k0 k hk
  have hkp := kpos k hk
  unfold cap
  rw [← add_div]
  have : (d + s) / (k : ℝ) > m / k ↔ d + s > m := by
    rw [gt_iff_lt, div_lt_div_iff_of_pos_right hkp]
  by_cases h : d + s > m
  · rw [if_pos h, if_pos (this.2 h), div_div_div_cancel_right₀ hk0]
    ext <;> simp only <;> ring
  · rw [if_neg h, if_neg (fun x => h (this.1 x))]

theorem dsEl_part (w : Sea) (dt : ℝ) (e : El) : dsEl w dt (part k e) = ((dsEl w dt e).1 / k, (dsEl w dt e).2 / k) := by
  unfold dsEl
  rw [thickness_part k hk, qSed_part k hk]
  simp only [show (part k e).fracWater = e.fracWater from rfl, show (part k e).viscosity = e.viscosity from rfl, show (part k e).pos = e.pos from rfl,
    show (part k e).area = e.area / k from rfl, show (part k e).mass = e.mass / k from rfl]
  by_cases h : e.fracWater ≥ 1
  · simp [h]
  · rw [if_neg h, if_neg h, ← cap_part k hk]
    congr 1
    · ring
    · split
      · ring
      · simp

theorem liEl_part (w : Sea) (dt : ℝ) (e : El) : liEl w dt (part k e) = ((liEl w dt e).1 / k, (liEl w dt e).2 / k) := by
  unfold liEl
  rw [thickness_part k hk, qSed_part k hk]
  simp only [show (part k e).fracWater = e.fracWater from rfl, show (part k e).viscosity = e.viscosity from rfl, show (part k e).pos = e.pos from rfl,
    show (part k e).area = e.area / k from rfl, show (part k e).mass = e.mass / k from rfl, show (part k e).density = e.density from rfl]
  rw [← cap_part k hk]
  congr 1
  · ring
  · split
    · ring
    · simp

theorem shrink_part (f : ℝ) (e : El) : shrink f (part k e) = part k (shrink f e) := by
  unfold shrink
  rw [← part_withComps]
  congr 1
  simp only [part, List.map_map]
  refine List.map_congr_left fun c _ => ?_
  simp only [Function.comp]
  ring

theorem takeAway_part (f : El → ℝ × ℝ) (hf : ∀ e, f (part k e) = ((f e).1 / k, (f e).2 / k)) (els : List El) :
    takeAway f (inParts k els) = (inParts k (takeAway f els).1, (takeAway f els).2) := by
  unfold takeAway
  simp only
  rw [inParts_sum k hk (fun e => (f e).1) (fun e => (f e).1) els (fun e _ => by rw [hf]),
    inParts_sum k hk (fun e => (f e).2) (fun e => (f e).2) els (fun e _ => by rw [hf]), inParts_mass k hk, inParts_el k _ _ els (fun e _ => shrink_part k hk _ e), inParts_mass k hk, inParts_el k _ _ _ (fun e _ => shrink_part k hk _ e)]

theorem droplet_parts (g : El → ℝ) (hg : ∀ e, g (part k e) = g e) (els els' : List El) (hl : els.length = els'.length) :
    List.zipWith (fun e e' => { e' with droplet := g e }) (inParts k els) (inParts k els') =
      inParts k (List.zipWith (fun e e' => { e' with droplet := g e }) els els') := by
  induction els generalizing els' with
  | nil => simp [inParts]
  | cons e els ih =>
    cases els' with
    | nil => simp at hl
    | cons e' els' =>
      have := ih els' (by simpa using hl)
      simp only [inParts, List.flatMap_cons, List.zipWith_cons_cons] at this ⊢
      rw [List.zipWith_append (by simp), this, List.zipWith_replicate', hg]
      rfl

/-- **C360** natural dispersion (Delvigne and Sweeney). -/
theorem C360_dispersion (w : Sea) (dt : ℝ) (els : List El) :
    disperseDS w dt (inParts k els) = (inParts k (disperseDS w dt els).1, (disperseDS w dt els).2) := by
  unfold disperseDS
  rw [takeAway_part k hk _ (dsEl_part k hk w dt)]
  simp only
  rw [droplet_parts k hk dsDroplet (fun e => by simp only [dsDroplet, thickness_part k hk]; rfl) els _ (by simp [takeAway])]

/-- **C360** natural dispersion (Li), with its errors. -/
theorem C360_dispersion_Li (w : Sea) (dt : ℝ) (els : List El) :
    disperseLi w dt (inParts k els) = match disperseLi w dt els with
      | .ok r => .ok (inParts k r.1, r.2)
      | .nan => .nan
      | .raised => .raised := by
  have hkp := kpos k hk
  have h1 : (∃ e ∈ inParts k els, ¬ e.area > 0) ↔ ∃ e ∈ els, ¬ e.area > 0 := by
    constructor
    · rintro ⟨x, hx, h⟩
      obtain ⟨e, he, rfl⟩ := (mem_inParts k hk els x).1 hx
      exact ⟨e, he, fun ha => h (div_pos ha hkp)⟩
    · rintro ⟨e, he, h⟩
      exact ⟨part k e, (mem_inParts k hk els _).2 ⟨e, he, rfl⟩, fun ha => h ((div_pos_iff_of_pos_right hkp).1 ha)⟩
  have h2 : (∃ e ∈ inParts k els, e.density ≥ w.rhoW ∨ e.density ≤ 0 ∨ e.viscosity ≤ 0 ∨ e.fracWater ≥ 1) ↔
      ∃ e ∈ els, e.density ≥ w.rhoW ∨ e.density ≤ 0 ∨ e.viscosity ≤ 0 ∨ e.fracWater ≥ 1 := by
    constructor
    · rintro ⟨x, hx, h⟩
      obtain ⟨e, he, rfl⟩ := (mem_inParts k hk els x).1 hx
      exact ⟨e, he, h⟩
    · rintro ⟨e, he, h⟩
      exact ⟨part k e, (mem_inParts k hk els _).2 ⟨e, he, rfl⟩, h⟩
  unfold disperseLi
  by_cases a : ∃ e ∈ els, ¬ e.area > 0
  · rw [if_pos a, if_pos (h1.2 a)]
  · rw [if_neg a, if_neg (fun x => a (h1.1 x))]
    by_cases b : ∃ e ∈ els, e.density ≥ w.rhoW ∨ e.density ≤ 0 ∨ e.viscosity ≤ 0 ∨ e.fracWater ≥ 1
    · rw [if_pos b, if_pos (h2.2 b)]
    · rw [if_neg b, if_neg (fun x => b (h2.1 x)), takeAway_part k hk _ (liEl_part k hk w dt)]

/-! ### biodegradation -/

theorem bioEl_part (o : List Comp) (y : ℝ) (e : El) : bioEl o y (part k e) = part k (bioEl o y e) := by
  unfold bioEl
  rw [← part_withComps]
  congr 1
  exact zip_parts (k : ℝ) _ _ _ _ (fun x _ p _ => by ring)

theorem left_parts (g : El → El) (hg : ∀ e, g (part k e) = part k (g e)) (els : List El) :
    (inParts k els).map g = inParts k (els.map g) ∧
      totalMass (inParts k els) - (((inParts k els).map g).map (fun e => e.comps.sum)).sum = totalMass els - ((els.map g).map (fun e => e.comps.sum)).sum := by
  have h := inParts_el k g g els (fun e _ => hg e)
  refine ⟨h, ?_⟩
  rw [h, inParts_mass k hk, inParts_sum k hk _ (fun e => e.comps.sum) _ (fun e _ => by simp [part, sum_parts])]

/-- **C360** biodegradation, with its NaNs. -/
theorem C360_biodegradation (o : List Comp) (els : List El) :
    biodegrade o (inParts k els) = match biodegrade o els with
      | .ok r => .ok (inParts k r.1, r.2)
      | .nan => .nan
      | .raised => .raised := by
  have h1 : (∀ e ∈ inParts k els, e.droplet = 0) ↔ ∀ e ∈ els, e.droplet = 0 :=
    ⟨fun h e he => h (part k e) ((mem_inParts k hk els _).2 ⟨e, he, rfl⟩), fun h x hx => by
      obtain ⟨e, he, rfl⟩ := (mem_inParts k hk els x).1 hx
      exact h e he⟩
  have h2 : (∃ e ∈ inParts k els, e.droplet * e.density = 0) ↔ ∃ e ∈ els, e.droplet * e.density = 0 :=
    ⟨fun ⟨x, hx, h⟩ => by
      obtain ⟨e, he, rfl⟩ := (mem_inParts k hk els x).1 hx
      exact ⟨e, he, h⟩, fun ⟨e, he, h⟩ => ⟨_, (mem_inParts k hk els _).2 ⟨e, he, rfl⟩, h⟩⟩
  unfold biodegrade
  by_cases a : ∀ e ∈ els, e.droplet = 0
  · rw [if_pos a, if_pos (h1.2 a)]
    obtain ⟨l1, l2⟩ := left_parts k hk (bioEl o 0) (fun e => bioEl_part k hk o 0 e) els
    simp only
    rw [l2, l1]
  · rw [if_neg a, if_neg (fun x => a (h1.1 x))]
    by_cases b : ∃ e ∈ els, e.droplet * e.density = 0
    · rw [if_pos b, if_pos (h2.2 b)]
      by_cases c : ∃ p ∈ o, p.K = 0
      · rw [if_pos c, if_pos c]
      · rw [if_neg c, if_neg c]
        obtain ⟨l1, l2⟩ := left_parts k hk (fun e => if e.droplet * e.density = 0 then e.withComps (e.comps.map (fun _ => 0))
          else bioEl o (1 / (e.droplet * e.density)) e) (fun e => by
            simp only [show (part k e).droplet = e.droplet from rfl, show (part k e).density = e.density from rfl]
            split
            · rw [← part_withComps]; congr 1; simp [part, Function.comp_def]
            · exact bioEl_part k hk o _ e) els
        simp only
        rw [l2, l1]
    · rw [if_neg b, if_neg (fun x => b (h2.1 x))]
      obtain ⟨l1, l2⟩ := left_parts k hk (fun e => bioEl o (1 / (e.droplet * e.density)) e) (fun e => bioEl_part k hk o _ e) els
      simp only
      rw [l2, l1]

/-! ### emulsification -/

theorem emulEl_part (m : Emul) (c dt : ℝ) (e : El) : emulEl m c dt (part k e) = (emulEl m c dt e).map (part k) := by
  unfold emulEl
  simp only [show (part k e).age = e.age from rfl, show (part k e).fracEvap = e.fracEvap from rfl, show (part k e).bulltime = e.bulltime from rfl,
    show (part k e).surf = e.surf from rfl]
  split_ifs <;> rfl

theorem mapM_parts (f : El → Option El) (hf : ∀ e, f (part k e) = (f e).map (part k)) (els : List El) :
    (inParts k els).mapM f = (els.mapM f).map (inParts k) := by
  have rep : ∀ n a b, f a = some b → (List.replicate n a).mapM f = some (List.replicate n b) := by
    intro n a b h
    induction n with
    | zero => rfl
    | succ n ih => rw [List.replicate_succ, List.mapM_cons, h, ih]; rfl
  induction els with
  | nil => rfl
  | cons e els ih =>
    have hc : inParts k (e :: els) = List.replicate k (part k e) ++ inParts k els := rfl
    rw [hc, List.mapM_append, List.mapM_cons, ih]
    cases h : f e with
    | none =>
      have : (List.replicate k (part k e)).mapM f = none := by
        obtain ⟨n, rfl⟩ : ∃ n, k = n + 1 := ⟨k - 1, by omega⟩
        rw [List.replicate_succ, List.mapM_cons, hf, h]
        rfl
      rw [this]
      rfl
    | some b =>
      rw [rep k _ (part k b) (by rw [hf, h]; rfl)]
      cases els.mapM f with
      | none => rfl
      | some r => rfl

/-- **C360** emulsification. -/
theorem C360_emulsification (m : Emul) (dt : ℝ) (U : ℝ × ℝ → ℝ) (els : List El) :
    emulsify m dt U (inParts k els) = (emulsify m dt U els).map (inParts k) ∧ waterContent (inParts k els) = waterContent els := by
  constructor
  · unfold emulsify
    by_cases h : m.yMax ≤ 0
    · rw [if_pos h, if_pos h]; rfl
    · rw [if_neg h, if_neg h]
      exact mapM_parts k hk (fun e => emulEl m (kEmul (U e.pos)) dt e) (fun e => emulEl_part k hk m (kEmul (U e.pos)) dt e) els
  · unfold waterContent
    rw [inParts_mass k hk]
    refine inParts_sum k hk _ _ els fun e _ => ?_
    simp only [part]
    ring

/-! ### dissolution -/

theorem avgRho_part (o : List Comp) (e : El) : avgRho o (part k e) = avgRho o e := by
  unfold avgRho
  simp only [part, sum_parts]
  congr 1
  exact zip_same (k : ℝ) _ _ _ _ (fun x _ p _ => by rw [div_div_div_cancel_right₀ (k0 k hk)])

theorem volume_part (o : List Comp) (e : El) : volume o (part k e) = volume o e / k := by
  unfold volume
  simp only [part]
  rw [zip_parts (k : ℝ) _ (fun m (p : Comp) => m / p.rho), sum_parts]
  intro x _ p _
  ring

theorem dissOne_part (w : Sea) (o : List Comp) (dt : ℝ) (us : List ℝ) (u : ℝ) (e : El) (m : ℝ) (p : Comp) :
    dissOne w o dt us u (part k e) (m / k) p = dissOne w o dt us u e m p / k := by
  have hk0 := k0 k hk
  have hkw : kw w.rhoW o (part k e) = kw w.rhoW o e := by
    unfold kw; rw [avgRho_part k hk]; rfl
  have ht : timeInWater w o dt u (part k e) = timeInWater w o dt u e := by
    unfold timeInWater; rw [hkw]; rfl
  have hcn : conc o (part k e) (m / k) = conc o e m := by
    unfold conc; rw [avgRho_part k hk]
    simp only [part, sum_parts]
    rw [div_div_div_cancel_right₀ hk0]
  have hd : dropRate w o (part k e) (m / k) p = dropRate w o e m p / k := by
    unfold dropRate
    rw [hkw, hcn, volume_part k hk]
    simp only [part]
    ring
  have hs : slickRate us o (part k e) (m / k) p = slickRate us o e m p / k := by
    unfold slickRate
    rw [hcn]
    simp only [part]
    split
    · ring
    · simp
  unfold dissOne
  simp only
  rw [ht, hd, hs]
  set t := dropRate w o e m p * timeInWater w o dt u e + slickRate us o e m p * timeCalm dt u (timeInWater w o dt u e) with htd
  rw [show dropRate w o e m p / k * timeInWater w o dt u e + slickRate us o e m p / k * timeCalm dt u (timeInWater w o dt u e) = t / k by rw [htd]; ring,
    ← sub_div, add_div t]
  congr 1
  have := min_div_div_right (kpos k hk).le (m - t) 0
  rwa [zero_div] at this

omit hk in
/-- Without a dissolving slick the winds do not matter. -/
theorem dissOne_slick (w : Sea) (o : List Comp) (dt : ℝ) (us us' : List ℝ) (u : ℝ) (e : El) (m : ℝ) (p : Comp)
    (h : e.area = 0 ∨ timeCalm dt u (timeInWater w o dt u e) = 0) : dissOne w o dt us u e m p = dissOne w o dt us' u e m p := by
  unfold dissOne
  rcases h with h | h
  · simp [slickRate, h]
  · simp [h]

/-- **C360 (partial)** dissolution where no element dissolves from a slick, as it is without area or never at rest (missing: the others,
`C360_counterexample`). -/
theorem C360_dissolution_partial (w : Sea) (o : List Comp) (dt : ℝ) (U : ℝ × ℝ → ℝ) (els : List El)
    (h : ∀ e ∈ els, e.area = 0 ∨ timeCalm dt (dissWind (U e.pos)) (timeInWater w o dt (dissWind (U e.pos)) e) = 0) :
    dissolve w o dt U (inParts k els) = (inParts k (dissolve w o dt U els).1, (dissolve w o dt U els).2) := by
  have key : ∀ us us', ∀ e ∈ els, List.zipWith (dissOne w o dt us (dissWind (U (part k e).pos)) (part k e)) (part k e).comps o =
      (List.zipWith (dissOne w o dt us' (dissWind (U e.pos)) e) e.comps o).map (fun x => x / (k : ℝ)) := by
    intro us us' e he
    refine zip_parts (k : ℝ) _ _ _ _ (fun x _ p _ => ?_)
    rw [show (part k e).pos = e.pos from rfl, dissOne_part k hk, dissOne_slick w o dt us us' _ e x p (h e he)]
  unfold dissolve
  simp only
  ext1
  · refine inParts_el k _ _ els fun e he => ?_
    rw [key _ (els.map (fun e => dissWind (U e.pos))) e he, ← part_withComps]
    congr 1
    generalize List.zipWith (dissOne w o dt (els.map (fun e => dissWind (U e.pos))) (dissWind (U e.pos)) e) e.comps o = r
    simp only [part, List.zipWith_map, List.map_zipWith]
    congr 1
    funext a b
    exact (sub_div a b k).symm
  · refine inParts_sum k hk _ _ els fun e he => ?_
    rw [key _ (els.map (fun e => dissWind (U e.pos))) e he, sum_parts]

end

/-- The claim for dissolution. -/
def C360_claim : Prop := ∀ (k : Nat) (w : Sea) (o : List Comp) (dt : ℝ) (U : ℝ × ℝ → ℝ) (els : List El), 1 ≤ k → w.Real → 0 ≤ dt → (∀ p ∈ o, p.Real) →
  (dissolve w o dt U (inParts k els)).2 = (dissolve w o dt U els).2

/-- The wind of one element and that of two: what dissolves from the slick. -/
theorem drop_winds : dissOne sea tar 1 [3.6, 3.6] 3.6 drop 1 ⟨0, 100, 1100, true, 0⟩ < dissOne sea tar 1 [3.6] 3.6 drop 1 ⟨0, 100, 1100, true, 0⟩ := by
  have ha : avgRho tar drop = 1100 := by simp [avgRho, tar, drop]
  have hk : kw sea.rhoW tar drop < 0 := by
    simp only [kw, ha]
    simp only [sea, drop, blob]
    norm_num
  have ht : timeInWater sea tar 1 3.6 drop = 0 := timeInWater_zero sea sea_real tar 1 _ drop (by norm_num) hk
  have hc : 0 < timeCalm 1 3.6 0 := by
    have hb : breakingFrac 3.6 = 0.01 := by norm_num [breakingFrac]
    simp only [timeCalm, calm, hb]
    norm_num
  have hc1 : timeCalm 1 3.6 0 ≤ 1 := le_trans (min_le_right _ _) (by norm_num)
  let p : Comp := ⟨0, 100, 1100, true, 0⟩
  have hK : 1.8 ≤ kow p := by
    have : 1 ≤ Real.exp (0.059 * 1000 * 100 / 1100) := Real.one_le_exp (by norm_num)
    simp only [kow, p, if_true]
    linarith
  have key : ∀ us : List ℝ, 0 ≤ (us.map (fun u => u / 3600)).prod → (us.map (fun u => u / 3600)).prod ≤ 0.001 →
      dissOne sea tar 1 us 3.6 drop 1 p =
        0.01 * (us.map (fun u => u / 3600)).prod * (1100 / kow p) * timeCalm 1 3.6 0 := by
    intro us h0 h1
    have hA : 1100 / kow p ≤ 1000 := (div_le_iff₀ (by linarith)).2 (by linarith)
    have hA0 : 0 ≤ 1100 / kow p := div_nonneg (by norm_num) (by linarith)
    have hco : conc tar drop 1 = 1100 := by simp [conc, ha]; simp [drop]
    have hsl : slickRate us tar drop 1 p = 0.01 * (us.map (fun u => u / 3600)).prod * (1100 / kow p) := by
      unfold slickRate
      rw [hco, if_pos rfl]
      exact mul_one _
    unfold dissOne
    simp only [ht, hsl, mul_zero, zero_add]
    have hle : 0.01 * (us.map (fun u => u / 3600)).prod * (1100 / kow p) * timeCalm 1 3.6 0 ≤ 1 := by
      have b1 : (us.map (fun u => u / 3600)).prod * (1100 / kow p) ≤ 0.001 * 1000 :=
        mul_le_mul h1 hA hA0 (by norm_num)
      have b2 : 0 ≤ (us.map (fun u => u / 3600)).prod * (1100 / kow p) := mul_nonneg h0 hA0
      have b3 : (us.map (fun u => u / 3600)).prod * (1100 / kow p) * timeCalm 1 3.6 0 ≤ 1 * 1 :=
        mul_le_mul (by linarith) hc1 hc.le (by norm_num)
      linarith
    rw [min_eq_right (by linarith), add_zero]
  have k1 := key [3.6] (by norm_num) (by norm_num)
  have k2 := key [3.6, 3.6] (by norm_num) (by norm_num)
  change dissOne sea tar 1 [3.6, 3.6] 3.6 drop 1 p < dissOne sea tar 1 [3.6] 3.6 drop 1 p
  rw [k1, k2]
  have : 0 < 1100 / kow p := div_pos (by norm_num) (by linarith)
  have : 0 < 1100 / kow p * timeCalm 1 3.6 0 := mul_pos this hc
  norm_num
  nlinarith

/-- **C360** fails for dissolution: the winds at all elements are multiplied, so that in twice as many elements less of the oil is dissolved. -/
theorem C360_counterexample : ¬ C360_claim := by
  intro h
  have hp : ∀ p ∈ tar, p.Real := by
    intro p hp
    rw [tar, List.mem_singleton] at hp
    subst hp
    constructor <;> norm_num
  have h1 := h 2 sea tar 1 (fun _ => 3.6) [drop] (by norm_num) sea_real (by norm_num) hp
  have hW : dissWind 3.6 = 3.6 := by norm_num [dissWind]
  have hq : inParts 2 [drop] = [part 2 drop, part 2 drop] := rfl
  have hc : (part 2 drop).comps = [1 / ((2 : ℕ) : ℝ)] := by simp [part, drop]
  have hd : drop.comps = [1] := rfl
  have e1 : (dissolve sea tar 1 (fun _ => 3.6) (inParts 2 [drop])).2 = dissOne sea tar 1 [3.6, 3.6] 3.6 drop 1 ⟨0, 100, 1100, true, 0⟩ := by
    rw [hq]
    simp only [dissolve, List.map_cons, List.map_nil, hW, hc, tar, List.zipWith_cons_cons, List.zipWith_nil_left, List.sum_cons, List.sum_nil, add_zero]
    rw [dissOne_part 2 (by norm_num)]
    push_cast
    ring
  have e2 : (dissolve sea tar 1 (fun _ => 3.6) [drop]).2 = dissOne sea tar 1 [3.6] 3.6 drop 1 ⟨0, 100, 1100, true, 0⟩ := by
    simp only [dissolve, List.map_cons, List.map_nil, hW, hd, tar, List.zipWith_cons_cons, List.zipWith_nil_left, List.sum_cons, List.sum_nil, add_zero]
  rw [e1, e2] at h1
  exact absurd h1 drop_winds.ne

/-- A spill of two elements as one of six, with the same masses. -/
example : totalMass (inParts 3 [blob 900, blob 950]) = totalMass [blob 900, blob 950] ∧ (inParts 3 [blob 900, blob 950]).length = 6 :=
  ⟨inParts_mass 3 (by norm_num) _, rfl⟩

end Verif.NatWeath
