import Verif.Roc.RemovalModel
import Verif.Fate.Props
import Mathlib.Algebra.Order.BigOperators.Group.List
import Mathlib.Algebra.BigOperators.Ring.List
import Mathlib.Tactic.Linarith
import Mathlib.Tactic.Ring
import Mathlib.Tactic.FieldSimp
/-!
# Removal of oil by the responses of ROC (C138, C139)
-/
namespace Verif.Roc.Removal

/-- all the mass there is -/
def mass (m : Comps) : ℚ := m.flatten.sum

theorem mass_eq (m : Comps) : (masses m).sum = mass m := by
  induction m with
  | nil => rfl
  | cons e m ih => simp only [masses, mass, List.map_cons, List.sum_cons, List.flatten_cons, List.sum_append] at *; rw [ih]

theorem mass_scale (m : Comps) (f : ℚ) : mass (m.map (fun e => e.map (fun x => f * x))) = f * mass m := by
  unfold mass
  rw [← List.map_flatten, List.sum_map_mul_left, List.map_id']

theorem frac_mem {total amount : ℚ} (ht : 0 < total) (ha : 0 ≤ amount) : 0 ≤ frac total amount ∧ frac total amount ≤ 1 :=
  ⟨le_min (div_nonneg ha ht.le) zero_le_one, min_le_right _ _⟩

/-- C139: what is removed is what was asked for, or all there is; and it is what the components have lost. -/
theorem C139_amount (m : Comps) {amount : ℚ} (hm : 0 < mass m) :
    (remove m amount).2 = min amount (mass m) ∧ mass (remove m amount).1 = mass m - (remove m amount).2 := by
  have e : mass (remove m amount).1 = (1 - frac (mass m) amount) * mass m := by
    simp only [remove, mass_eq]; exact mass_scale _ _
  have e2 : (remove m amount).2 = mass m - (1 - frac (mass m) amount) * mass m := by
    simp only [remove, mass_eq, mass_scale]
  refine ⟨?_, by rw [e, e2]; ring⟩
  rw [e2]
  unfold frac
  rcases le_total (amount / mass m) 1 with h | h
  · rw [min_eq_left h, min_eq_left (by rwa [div_le_one hm] at h)]
    field_simp; ring
  · rw [min_eq_right h, min_eq_right (by rwa [one_le_div hm] at h)]
    ring

/-- C139: every component of every element keeps the same part of its mass, between none and all of it. -/
theorem C139_share (m : Comps) {amount : ℚ} (hm : 0 < mass m) (ha : 0 ≤ amount) :
    ∃ f : ℚ, 0 ≤ f ∧ f ≤ 1 ∧ ∀ (i j : Nat) (x : ℚ), (m[i]?.bind (·[j]?)) = some x → ((remove m amount).1[i]?.bind (·[j]?)) = some (f * x) := by
  obtain ⟨h0, h1⟩ := frac_mem hm ha
  refine ⟨1 - frac (mass m) amount, by linarith, by linarith, ?_⟩
  intro i j x hx
  simp only [remove, mass_eq, List.getElem?_map]
  cases hi : m[i]? with
  | none => simp [hi] at hx
  | some e =>
    simp only [hi, Option.bind_some, Option.map_some] at hx ⊢
    simp [hx]

/-! ## the mass balance of any number of burns -/

/-- what the calls take from the water, from the masses alone -/
def taken (M : ℚ) : List Call → ℚ
  | [] => 0
  | k :: ks => min (max k.collected 0) M + taken (M - min (max k.collected 0) M) ks

/-- what the calls of one burn take -/
def takenBy (i : Nat) (M : ℚ) : List Call → ℚ
  | [] => 0
  | k :: ks => (if k.id = i then min (max k.collected 0) M else 0) + takenBy i (M - min (max k.collected 0) M) ks

/-- no negative masses, and some mass -/
def NonNeg (m : Comps) : Prop := ∀ e ∈ m, ∀ x ∈ e, (0 : ℚ) ≤ x

theorem mass_nonneg {m : Comps} (h : NonNeg m) : 0 ≤ mass m := by
  refine List.sum_nonneg ?_
  intro x hx
  obtain ⟨e, he, hxe⟩ := List.mem_flatten.1 hx
  exact h e he x hxe

theorem remove_nonneg {m : Comps} {amount : ℚ} (h : NonNeg m) (hm : 0 < mass m) (ha : 0 ≤ amount) : NonNeg (remove m amount).1 := by
  obtain ⟨h0, h1⟩ := frac_mem hm ha
  intro e he x hx
  simp only [remove, mass_eq, List.mem_map] at he
  obtain ⟨e', he', rfl⟩ := he
  obtain ⟨x', hx', rfl⟩ := List.mem_map.1 hx
  exact mul_nonneg (by linarith) (h e' he' x' hx')

theorem bookBurn_ok {b : Bal} {i : Nat} {x : ℚ} (hx : 0 < x) (hb : 0 ≤ b.boomed) :
    0 ≤ (bookBurn b i x).boomed ∧ (bookBurn b i x).boomed + (bookBurn b i x).burned = b.boomed + b.burned ∧
    b.burned ≤ (bookBurn b i x).burned ∧
    (∀ j, ((bookBurn b i x).sys j).boomed = (b.sys j).boomed) ∧
    (∀ j, ((bookBurn b i x).sys j).burned = (b.sys j).burned + if j = i then (bookBurn b i x).burned - b.burned else 0) := by
  unfold bookBurn
  dsimp only
  split
  · refine ⟨le_refl _, by dsimp only; ring, by dsimp only; linarith, ?_, ?_⟩
    · intro j; unfold setSys; by_cases h : j = i <;> simp [h]
    · intro j; unfold setSys; by_cases h : j = i
      · subst h; simp
      · simp [h]
  · refine ⟨not_lt.1 ‹_›, by dsimp only; ring, by dsimp only; linarith, ?_, ?_⟩
    · intro j; unfold setSys; by_cases h : j = i <;> simp [h]
    · intro j; unfold setSys; by_cases h : j = i
      · subst h; simp
      · simp [h]

/-- C139: over any calls of any burns: what is reported as boomed is never negative; boomed and burned together are what the calls have
taken from the water, and that is what the elements have lost; each burn is credited with what its calls took. -/
theorem C139_balance (ks : List Call) : ∀ (b : Bal) (m : Comps), 0 ≤ b.boomed → NonNeg m →
    (∀ n : Nat, 0 < mass (run b m (ks.take n)).2) →
    0 ≤ (run b m ks).1.boomed ∧
    (run b m ks).1.boomed + (run b m ks).1.burned = b.boomed + b.burned + taken (mass m) ks ∧
    b.burned ≤ (run b m ks).1.burned ∧
    mass (run b m ks).2 = mass m - taken (mass m) ks ∧
    (∀ i, ((run b m ks).1.sys i).boomed = (b.sys i).boomed + takenBy i (mass m) ks) := by
  induction ks with
  | nil => intro b m hb _ _; exact ⟨hb, by simp [run, taken], le_refl _, by simp [run, taken], fun i => by simp [run, takenBy]⟩
  | cons k ks ih =>
    intro b m hb hn hpos
    have hm : 0 < mass m := by simpa [run] using hpos 0
    -- collecting
    have hc : ∀ r : Bal × Comps, r = (if 0 < k.collected then (book b k.id (remove m k.collected).2, (remove m k.collected).1) else (b, m)) →
        0 ≤ r.1.boomed ∧ r.1.boomed = b.boomed + min (max k.collected 0) (mass m) ∧ r.1.burned = b.burned ∧
        mass r.2 = mass m - min (max k.collected 0) (mass m) ∧ NonNeg r.2 ∧
        (∀ i, (r.1.sys i).boomed = (b.sys i).boomed + if k.id = i then min (max k.collected 0) (mass m) else 0) := by
      intro r hr
      by_cases h : 0 < k.collected
      · rw [if_pos h] at hr
        subst hr
        obtain ⟨a1, a2⟩ := C139_amount m (amount := k.collected) hm
        rw [max_eq_left h.le]
        have h0 : 0 ≤ min k.collected (mass m) := le_min h.le hm.le
        refine ⟨?_, ?_, rfl, ?_, remove_nonneg hn hm h.le, ?_⟩
        · simp only [book]; rw [a1]; linarith
        · simp only [book]; rw [a1]
        · simp only; rw [a2, a1]
        · intro i
          simp only [book, setSys]
          rw [a1]
          by_cases hi : i = k.id
          · subst hi; simp
          · rw [if_neg hi, if_neg (Ne.symm hi)]; simp
      · rw [if_neg h] at hr
        subst hr
        rw [max_eq_right (not_lt.1 h), min_eq_left hm.le]
        exact ⟨hb, by simp, rfl, by simp, hn, fun i => by simp⟩
    have hw : ∀ r : Bal × Comps, r = (if 0 < k.collected then (book b k.id (remove m k.collected).2, (remove m k.collected).1) else (b, m)) →
        weather b m k = (if 0 < k.burned then bookBurn r.1 k.id k.burned else r.1, r.2) := by
      intro r hr; subst hr; rfl
    generalize hr : (if 0 < k.collected then (book b k.id (remove m k.collected).2, (remove m k.collected).1) else (b, m)) = r at hc hw
    obtain ⟨c1, c2, c3, c4, c5, c6⟩ := hc r rfl
    have hwr := hw r rfl
    have hbb : 0 ≤ (weather b m k).1.boomed ∧ (weather b m k).1.boomed + (weather b m k).1.burned = r.1.boomed + r.1.burned ∧
        r.1.burned ≤ (weather b m k).1.burned ∧ (∀ j, ((weather b m k).1.sys j).boomed = (r.1.sys j).boomed) := by
      rw [hwr]
      dsimp only
      by_cases h : 0 < k.burned
      · rw [if_pos h]
        obtain ⟨d1, d2, d3, d4, _⟩ := bookBurn_ok (i := k.id) h c1
        exact ⟨d1, d2, d3, d4⟩
      · rw [if_neg h]; exact ⟨c1, rfl, le_refl _, fun _ => rfl⟩
    have hm2 : (weather b m k).2 = r.2 := by rw [hwr]
    obtain ⟨d1, d2, d3, d4⟩ := hbb
    obtain ⟨e1, e2, e3, e4, e5⟩ := ih (weather b m k).1 (weather b m k).2 d1 (by rw [hm2]; exact c5) (fun n => by
      have := hpos (n + 1)
      simpa [run] using this)
    simp only [run, taken, takenBy]
    rw [hm2] at e1 e2 e3 e4 e5 ⊢
    rw [c4] at e2 e4 e5
    refine ⟨e1, ?_, ?_, ?_, ?_⟩
    · rw [e2, d2, c2, c3]; ring
    · rw [← c3]; exact d3.trans e3
    · rw [e4]; ring
    · intro i; rw [e5 i, d4 i, c6 i]; ring

/-- The claim about each of the burns: it does not burn more than it boomed. -/
def C139_claim : Prop := ∀ (ks : List Call) (m : Comps), NonNeg m → (∀ n : Nat, 0 < mass (run {} m (ks.take n)).2) →
  ∀ i, ((run {} m ks).1.sys i).burned ≤ ((run {} m ks).1.sys i).boomed

/-- Two burns have boomed ten each; the oil of the first has become denser, and the volume it burns is booked as twelve. -/
theorem C139_counterexample : ¬ C139_claim := by
  intro h
  have hrun : ∀ n : Nat, 0 < mass (run {} [[100]] (([⟨0, 10, 0⟩, ⟨1, 10, 0⟩, ⟨0, 0, 12⟩] : List Call).take n)).2 := by
    intro n
    match n with
    | 0 => decide +kernel
    | 1 => decide +kernel
    | 2 => decide +kernel
    | n + 3 =>
      have : (([⟨0, 10, 0⟩, ⟨1, 10, 0⟩, ⟨0, 0, 12⟩] : List Call).take (n + 3)) = [⟨0, 10, 0⟩, ⟨1, 10, 0⟩, ⟨0, 0, 12⟩] := by simp
      rw [this]; decide +kernel
  have := h [⟨0, 10, 0⟩, ⟨1, 10, 0⟩, ⟨0, 0, 12⟩] [[100]] (by simp [NonNeg]) hrun 0
  revert this
  decide +kernel

/-- C139, in part: with one burn it does not. -/
theorem C139_partial (ks : List Call) (m : Comps) (i : Nat) (hi : ∀ k ∈ ks, k.id = i) (hn : NonNeg m)
    (hpos : ∀ n : Nat, 0 < mass (run {} m (ks.take n)).2) :
    ((run {} m ks).1.sys i).burned ≤ ((run {} m ks).1.sys i).boomed := by
  have hsys : ∀ (ks : List Call) (b : Bal) (m : Comps), (∀ k ∈ ks, k.id = i) → (b.sys i).boomed = b.boomed + b.burned → (b.sys i).burned = b.burned →
      0 ≤ b.boomed → NonNeg m → (∀ n : Nat, 0 < mass (run b m (ks.take n)).2) → ((run b m ks).1.sys i).burned = (run b m ks).1.burned := by
    intro ks
    induction ks with
    | nil => intro b m _ _ h _ _ _; exact h
    | cons k ks ih =>
      intro b m hid h1 h2 h3 h4 h5
      have hk : k.id = i := hid k (by simp)
      have hm : 0 < mass m := by simpa [run] using h5 0
      have key : (((weather b m k).1.sys i).boomed = (weather b m k).1.boomed + (weather b m k).1.burned) ∧
          ((weather b m k).1.sys i).burned = (weather b m k).1.burned ∧ 0 ≤ (weather b m k).1.boomed ∧ NonNeg (weather b m k).2 := by
        have hr : ∀ r : Bal × Comps, r = (if 0 < k.collected then (book b k.id (remove m k.collected).2, (remove m k.collected).1) else (b, m)) →
            (r.1.sys i).boomed = r.1.boomed + r.1.burned ∧ (r.1.sys i).burned = r.1.burned ∧ 0 ≤ r.1.boomed ∧ NonNeg r.2 := by
          intro r hr
          by_cases h : 0 < k.collected
          · rw [if_pos h] at hr
            subst hr
            have a1 := (C139_amount m (amount := k.collected) hm).1
            have h0 : 0 ≤ min k.collected (mass m) := le_min h.le hm.le
            refine ⟨?_, ?_, ?_, remove_nonneg h4 hm h.le⟩
            · simp only [book, setSys, hk, if_true]; rw [h1]; ring
            · simp only [book, setSys, hk, if_true]; exact h2
            · simp only [book]; rw [a1]; linarith
          · rw [if_neg h] at hr
            subst hr
            exact ⟨h1, h2, h3, h4⟩
        have hw : ∀ r : Bal × Comps, r = (if 0 < k.collected then (book b k.id (remove m k.collected).2, (remove m k.collected).1) else (b, m)) →
            weather b m k = (if 0 < k.burned then bookBurn r.1 k.id k.burned else r.1, r.2) := by
          intro r hr; subst hr; rfl
        generalize hrr : (if 0 < k.collected then (book b k.id (remove m k.collected).2, (remove m k.collected).1) else (b, m)) = r at hr hw
        obtain ⟨c1, c2, c3, c4⟩ := hr r rfl
        rw [hw r rfl]
        dsimp only
        by_cases h : 0 < k.burned
        · rw [if_pos h]
          obtain ⟨d1, d2, _, d4, d5⟩ := bookBurn_ok (i := k.id) h c3
          refine ⟨by rw [d4 i, c1, d2], ?_, d1, c4⟩
          rw [d5 i, if_pos hk.symm, c2]; ring
        · rw [if_neg h]; exact ⟨c1, c2, c3, c4⟩
      exact ih _ _ (fun k' h => hid k' (by simp [h])) key.1 key.2.1 key.2.2.1 key.2.2.2 (fun n => by simpa [run] using h5 (n + 1))
  have htk : ∀ (ks : List Call) (M : ℚ), (∀ k ∈ ks, k.id = i) → takenBy i M ks = taken M ks := by
    intro ks
    induction ks with
    | nil => intros; rfl
    | cons k ks ih =>
      intro M h
      simp only [taken, takenBy]
      rw [if_pos (h k (by simp)), ih _ (fun k' hk => h k' (by simp [hk]))]
  obtain ⟨b1, b2, _, _, b5⟩ := C139_balance ks {} m (le_refl _) hn hpos
  have e := hsys ks {} m hi (by simp) rfl (le_refl _) hn hpos
  rw [e, b5 i, htk ks _ hi]
  simp only [add_zero, zero_add] at b2 ⊢
  linarith

/-- A burn of 4 of the 10 boomed. -/
example : ((run {} [[60, 40]] [⟨0, 10, 0⟩, ⟨0, 0, 4⟩]).1.boomed, (run {} [[60, 40]] [⟨0, 10, 0⟩, ⟨0, 0, 4⟩]).1.burned,
    (run {} [[60, 40]] [⟨0, 10, 0⟩, ⟨0, 0, 4⟩]).2) = (6, 4, [[54, 36]]) := by decide +kernel

/-- C139. The room in the boom stays when all that was asked for is there, and grows by what is missing when not. -/
theorem C139_room (cap collected M : ℚ) :
    (collected ≤ M → refund cap collected (min collected M) = cap) ∧ (M < collected → refund cap collected (min collected M) - cap = collected - M) := by
  unfold refund
  constructor
  · intro h
    rw [min_eq_left h, if_neg (by simp)]
  · intro h
    rw [min_eq_right h.le, if_pos (ne_of_lt h)]
    ring

/-- When the oil runs out, the room in the boom becomes larger than the boom: the difference in kilograms is added to cubic feet. -/
theorem C139_counterexample_room : ¬ ∀ (capMax collected M feet : ℚ), 0 ≤ capMax → 0 ≤ feet → feet ≤ capMax → 0 < M →
    refund (capMax - feet) collected (min collected M) ≤ capMax := by
  intro h
  have := h 10 100 1 5 (by norm_num) (by norm_num) (by norm_num) (by norm_num)
  revert this
  decide +kernel

/-! ## the elements -/

open Verif.FateView

/-- The claim about the elements: a response takes from them what it reports. `masses` of the floating elements before and after. -/
def C138_claim : Prop := ∀ (a : Arrs) (n : Nat) (names : List String) (amount : ℚ), WF a.get? n → "mass" ∈ names → 0 ≤ amount →
  0 < (pick (mask a.get? .surface) (col a.get? "mass")).sum →
  let out := respond ⟨a, fun _ => .own []⟩ names amount
  (col out.1.arrays.get? "mass").sum = (col a.get? "mass").sum - out.2

theorem fill_ok (g : String → Option Col) (ms : List Bool) : ∀ (names : List String) (d : Arrs), (∀ n ∈ names, (g n).isSome) →
    (fill g ms names d).2 = none ∧ ∀ k ∈ names, (fill g ms names d).1.get? k = (g k).map (pick ms) := by
  have keep : ∀ (names : List String) (d : Arrs) (k : String) (c : Col), g k = some c → d.get? k = some (pick ms c) →
      (fill g ms names d).1.get? k = some (pick ms c) := by
    intro names
    induction names with
    | nil => intro d k c _ h; exact h
    | cons n ns ih =>
      intro d k c hg h
      unfold fill
      cases hn : g n with
      | none => exact h
      | some c' =>
        refine ih _ k c hg ?_
        rw [Py.Dict.get?_set]
        split
        · rename_i e; subst e; rw [hn] at hg; cases hg; rfl
        · exact h
  intro names
  induction names with
  | nil => intro d _; exact ⟨rfl, by simp⟩
  | cons n ns ih =>
    intro d h
    obtain ⟨c, hc⟩ := Option.isSome_iff_exists.1 (h n List.mem_cons_self)
    obtain ⟨h1, h2⟩ := ih (d.set n (pick ms c)) (fun x hx => h x (List.mem_cons_of_mem _ hx))
    have e : fill g ms (n :: ns) d = fill g ms ns (d.set n (pick ms c)) := by
      conv_lhs => unfold fill
      rw [hc]
    rw [e]
    refine ⟨h1, ?_⟩
    intro k hk
    rcases List.mem_cons.1 hk with rfl | hk
    · rw [hc]
      exact keep ns _ k c hc (by rw [Py.Dict.get?_set, if_pos rfl])
    · exact h2 k hk

/-- C138 fails whenever one element is not floating (or has no mass): no array of the elements changes, and whoever weathers next
is given the masses there were before; though the amount is reported as removed. -/
theorem C138_lost (a : Arrs) (n : Nat) (names names' : List String) (amount : ℚ) (hwf : WF a.get? n)
    (hm : (mask a.get? .surface).all id = false) (hn : ∀ k ∈ names, (a.get? k).isSome) (hin : "mass" ∈ names)
    (hn' : ∀ k ∈ names', (a.get? k).isSome) (hin' : "mass" ∈ names')
    (hpos : 0 < (pick (mask a.get? .surface) (col a.get? "mass")).sum) :
    (respond ⟨a, fun _ => .own []⟩ names amount).1.arrays = a ∧
    (respond ⟨a, fun _ => .own []⟩ names amount).2 = min amount (pick (mask a.get? .surface) (col a.get? "mass")).sum ∧
    ∃ d, (FateView.get (respond ⟨a, fun _ => .own []⟩ names amount).1 names' .surface).1.views .surface = .own d ∧
      d.get? "mass" = some (pick (mask a.get? .surface) (col a.get? "mass")) := by
  obtain ⟨f1, f2⟩ := fill_ok a.get? (mask a.get? .surface) names [] hn
  obtain ⟨c, hc⟩ := Option.isSome_iff_exists.1 hwf.mass
  have hcol : col a.get? "mass" = c := by simp [col, hc]
  have hmass := f2 "mass" hin
  rw [hc, Option.map_some] at hmass
  have hs1 : (FateView.get ⟨a, fun _ => .own []⟩ names .surface).1 =
      setView ⟨a, fun _ => .own []⟩ .surface (.own (fill a.get? (mask a.get? .surface) names []).1) := by
    unfold FateView.get
    simp only [hm, Bool.false_eq_true, if_false]
  have hr : respond ⟨a, fun _ => .own []⟩ names amount =
      (setView (setView ⟨a, fun _ => .own []⟩ .surface (.own (fill a.get? (mask a.get? .surface) names []).1)) .surface
        (.own ((fill a.get? (mask a.get? .surface) names []).1.set "mass"
          (masses (remove ((pick (mask a.get? .surface) c).map (fun x => [x])) amount).1))),
       (remove ((pick (mask a.get? .surface) c).map (fun x => [x])) amount).2) := by
    unfold respond
    dsimp only
    rw [hs1]
    simp [setView, FateView.modify, col, hmass]
  have hsum : ∀ l : Col, mass (l.map (fun x => [x])) = l.sum := by
    intro l
    unfold mass
    induction l with
    | nil => rfl
    | cons x l ih => simp only [List.map_cons, List.flatten_cons, List.sum_append, List.sum_cons, List.sum_nil, add_zero, ih]
  rw [hcol] at hpos ⊢
  rw [hr]
  refine ⟨rfl, ?_, ?_⟩
  · have := (C139_amount ((pick (mask a.get? .surface) c).map (fun x => [x])) (amount := amount) (by rw [hsum]; exact hpos)).1
    rw [hsum] at this
    exact this
  · unfold FateView.get
    have hm' : (mask (setView (setView ⟨a, fun _ => .own []⟩ .surface (.own (fill a.get? (mask a.get? .surface) names []).1)) .surface
        (.own ((fill a.get? (mask a.get? .surface) names []).1.set "mass"
          (masses (remove ((pick (mask a.get? .surface) c).map (fun x => [x])) amount).1)))).arrays.get? .surface).all id = false := hm
    simp only [hm', Bool.false_eq_true, if_false]
    simp only [setView, if_true]
    obtain ⟨_, g2⟩ := fill_ok a.get? (mask a.get? .surface) names' ((fill a.get? (mask a.get? .surface) names []).1.set "mass"
          (masses (remove ((pick (mask a.get? .surface) c).map (fun x => [x])) amount).1)) hn'
    refine ⟨_, rfl, ?_⟩
    rw [g2 "mass" hin', hc]; rfl

/-- C138, in part: when all elements are floating and have mass, they lose what is reported. -/
theorem C138_partial (a : Arrs) (names : List String) (amount : ℚ)
    (hm : (mask a.get? .surface).all id = true) (hpos : 0 < (col a.get? "mass").sum) :
    (col (respond ⟨a, fun _ => .own []⟩ names amount).1.arrays.get? "mass").sum =
      (col a.get? "mass").sum - (respond ⟨a, fun _ => .own []⟩ names amount).2 ∧
    (respond ⟨a, fun _ => .own []⟩ names amount).2 = min amount (col a.get? "mass").sum := by
  have hs1 : (FateView.get ⟨a, fun _ => .own []⟩ names .surface).1 = setView ⟨a, fun _ => .own []⟩ .surface .alias := by
    unfold FateView.get
    simp only [hm, if_true]
  have hsum : ∀ l : Col, mass (l.map (fun x => [x])) = l.sum := by
    intro l
    unfold mass
    induction l with
    | nil => rfl
    | cons x l ih => simp only [List.map_cons, List.flatten_cons, List.sum_append, List.sum_cons, List.sum_nil, add_zero, ih]
  have hr : respond ⟨a, fun _ => .own []⟩ names amount =
      ({ (setView ⟨a, fun _ => .own []⟩ .surface .alias) with
          arrays := a.set "mass" (masses (remove ((col a.get? "mass").map (fun x => [x])) amount).1) },
       (remove ((col a.get? "mass").map (fun x => [x])) amount).2) := by
    unfold respond
    dsimp only
    rw [hs1]
    simp [setView, FateView.modify]
  rw [hr]
  obtain ⟨h1, h2⟩ := C139_amount ((col a.get? "mass").map (fun x => [x])) (amount := amount) (by rw [hsum]; exact hpos)
  rw [hsum] at h1 h2
  refine ⟨?_, h1⟩
  simp only [col, Py.Dict.get?_set, if_true, Option.getD_some]
  rw [mass_eq]
  exact h2

/-- Two elements of one kilogram, one of them submerged: half a kilogram is reported, none is gone. -/
theorem C138_counterexample : ¬ C138_claim := by
  intro h
  have := h [("fate_status", [2, 4]), ("mass", [1, 1])] 2 ["mass"] (1 / 2)
    (wf_of [("fate_status", [2, 4]), ("mass", [1, 1])] _ rfl 2 (by decide +kernel) (by decide +kernel) (by decide +kernel) (by decide +kernel) (by decide +kernel))
    (by simp) (by norm_num) (by decide +kernel)
  revert this
  decide +kernel

/-- Both floating: half a kilogram is gone. -/
example : ((respond ⟨[("fate_status", [2, 2]), ("mass", [1, 1])], fun _ => .own []⟩ ["mass"] (1 / 2)).1.arrays.get? "mass",
    (respond ⟨[("fate_status", [2, 2]), ("mass", [1, 1])], fun _ => .own []⟩ ["mass"] (1 / 2)).2) =
    (some [3 / 4, 3 / 4], 1 / 2) := by decide +kernel

end Verif.Roc.Removal
