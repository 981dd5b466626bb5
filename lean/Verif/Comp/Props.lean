import Verif.Comp.Model

/-!
# Properties C59 and C60: changing the composition of a model
-/

namespace Verif.Comp
open Verif.Py

/-! ## C60: environment objects come along -/

/-- `y` is referred to by `x`, directly or through other objects -/
inductive Reach (h : Heap) : Nat → Nat → Prop where
  | direct {x y : Nat} : y ∈ refs h x → Reach h x y
  | via {x y z : Nat} : y ∈ refs h x → Reach h y z → Reach h x z

theorem Reach.snoc {h : Heap} {x y z : Nat} (r : Reach h x y) (hz : z ∈ refs h y) : Reach h x z := by
  induction r with
  | direct hy => exact .via hy (.direct hz)
  | via hy _ ih => exact .via hy (ih hz)

/-- The collection keeps what is there, contains the work list, contains the attributes of what it added, has no
duplicates, and adds only objects of the work list or referred to from there. -/
theorem collect_spec (h : Heap) (env work : List Nat) :
    (∃ new, collect h env work = env ++ new ∧ (∀ y ∈ new, ∀ z ∈ refs h y, z ∈ env ++ new) ∧ (∀ x ∈ work, x ∈ env ++ new) ∧
      (∀ y ∈ new, y ∈ work ∨ ∃ x ∈ work, Reach h x y) ∧ (env.Nodup → (env ++ new).Nodup)) := by
  fun_induction collect h env work with
  | case1 env => exact ⟨[], by simp⟩
  | case2 env x work hx ih =>
    obtain ⟨new, h1, h2, h3, h4, h5⟩ := ih
    refine ⟨new, h1, h2, ?_, ?_, h5⟩
    · intro y hy
      rcases List.mem_cons.1 hy with rfl | hy
      · exact List.mem_append_left _ hx
      · exact h3 y hy
    · intro y hy
      rcases h4 y hy with h | ⟨w, hw, hr⟩
      · exact Or.inl (List.mem_cons_of_mem _ h)
      · exact Or.inr ⟨w, List.mem_cons_of_mem _ hw, hr⟩
  | case3 env x work hx hr ih =>
    obtain ⟨new, h1, h2, h3, h4, h5⟩ := ih
    rw [List.append_assoc, List.singleton_append] at *
    refine ⟨x :: new, h1, ?_, ?_, ?_, ?_⟩
    · intro y hy z hz
      rcases List.mem_cons.1 hy with rfl | hy
      · rw [hr] at hz; exact absurd hz (by simp)
      · exact h2 y hy z hz
    · intro y hy
      rcases List.mem_cons.1 hy with rfl | hy
      · simp
      · exact h3 y hy
    · intro y hy
      rcases List.mem_cons.1 hy with rfl | hy
      · exact Or.inl List.mem_cons_self
      · rcases h4 y hy with h | ⟨w, hw, hr⟩
        · exact Or.inl (List.mem_cons_of_mem _ h)
        · exact Or.inr ⟨w, List.mem_cons_of_mem _ hw, hr⟩
    · intro hn
      exact h5 (by
        rw [List.nodup_append]
        exact ⟨hn, by simp, fun a ha b hb => by rw [List.mem_singleton.1 hb]; rintro rfl; exact hx ha⟩)
  | case4 env x work hx hr ih =>
    obtain ⟨new, h1, h2, h3, h4, h5⟩ := ih
    rw [List.append_assoc, List.singleton_append] at *
    refine ⟨x :: new, h1, ?_, ?_, ?_, ?_⟩
    · intro y hy z hz
      rcases List.mem_cons.1 hy with rfl | hy
      · exact h3 z (List.mem_append_left _ hz)
      · exact h2 y hy z hz
    · intro y hy
      rcases List.mem_cons.1 hy with rfl | hy
      · simp
      · exact h3 y (List.mem_append_right _ hy)
    · intro y hy
      rcases List.mem_cons.1 hy with rfl | hy
      · exact Or.inl List.mem_cons_self
      · rcases h4 y hy with h | ⟨w, hw, hr⟩
        · rcases List.mem_append.1 h with h | h
          · exact Or.inr ⟨x, List.mem_cons_self, .direct h⟩
          · exact Or.inl (List.mem_cons_of_mem _ h)
        · rcases List.mem_append.1 hw with hw | hw
          · exact Or.inr ⟨x, List.mem_cons_self, .via hw hr⟩
          · exact Or.inr ⟨w, List.mem_cons_of_mem _ hw, hr⟩
    · intro hn
      exact h5 (by
        rw [List.nodup_append]
        exact ⟨hn, by simp, fun a ha b hb => by rw [List.mem_singleton.1 hb]; rintro rfl; exact hx ha⟩)

/-- Every environment object that a mover, weatherer or environment object of the model refers to is in the
environment. -/
def Complete (h : Heap) (s : St) : Prop := ∀ x, x ∈ s.movers ∨ x ∈ s.weatherers ∨ x ∈ s.env → ∀ y ∈ refs h x, y ∈ s.env

/-- In a complete model this is also true of indirect references. -/
theorem Complete.reach {h : Heap} {s : St} (hc : Complete h s) {x y : Nat}
    (hx : x ∈ s.movers ∨ x ∈ s.weatherers ∨ x ∈ s.env) (hr : Reach h x y) : y ∈ s.env := by
  induction hr with
  | direct hy => exact hc _ hx _ hy
  | via hy _ ih => exact ih (Or.inr (Or.inr (hc _ hx _ hy)))

/-- Operations that take nothing out of the environment. -/
def Op.Keeps : Op → Prop
  | .replEnv _ _ => False
  | .rmEnv _ => False
  | _ => True

theorem complete_collect {h : Heap} {s s' : St} (x : Nat) (hc : Complete h s)
    (hm : ∀ y, y ∈ s'.movers ∨ y ∈ s'.weatherers → y = x ∨ y ∈ s.movers ∨ y ∈ s.weatherers)
    (he : s'.env = collect h s.env (refs h x)) : Complete h s' := by
  obtain ⟨new, h1, h2, h3, _, _⟩ := collect_spec h s.env (refs h x)
  rw [h1] at he
  intro y hy z hz
  rw [he]
  have hold : y ∈ s.movers ∨ y ∈ s.weatherers ∨ y ∈ s.env → z ∈ s.env ++ new :=
    fun hh => List.mem_append_left _ (hc y hh z hz)
  rcases hy with hy | hy | hy
  · rcases hm y (Or.inl hy) with rfl | hh | hh
    · exact h3 z hz
    · exact hold (Or.inl hh)
    · exact hold (Or.inr (Or.inl hh))
  · rcases hm y (Or.inr hy) with rfl | hh | hh
    · exact h3 z hz
    · exact hold (Or.inl hh)
    · exact hold (Or.inr (Or.inl hh))
  · rw [he] at hy
    rcases List.mem_append.1 hy with hy | hy
    · exact hold (Or.inr (Or.inr hy))
    · exact h2 y hy z hz

theorem mem_repl {l : List Nat} {a b y : Nat} (h : y ∈ repl l a b) : y = b ∨ y ∈ l := by
  unfold repl at h
  obtain ⟨x, hx, rfl⟩ := List.mem_map.1 h
  split
  · exact Or.inl rfl
  · exact Or.inr hx

theorem complete_apply (h : Heap) (s : St) (hc : Complete h s) (op : Op) (hk : op.Keeps) : Complete h (apply h s op) := by
  have same : ∀ s' : St, s'.env = s.env → (∀ y ∈ s'.movers, y ∈ s.movers) → (∀ y ∈ s'.weatherers, y ∈ s.weatherers) →
      Complete h s' := by
    intro s' he hm hw y hy z hz
    rw [he]
    rcases hy with hy | hy | hy
    · exact hc y (Or.inl (hm y hy)) z hz
    · exact hc y (Or.inr (Or.inl (hw y hy))) z hz
    · rw [he] at hy; exact hc y (Or.inr (Or.inr hy)) z hz
  cases op with
  | addMover x =>
    simp only [apply]; split
    · exact hc
    · refine complete_collect (s := s) x hc ?_ rfl
      intro y hy
      rcases hy with hy | hy
      · rcases List.mem_append.1 hy with hy | hy
        · exact Or.inr (Or.inl hy)
        · exact Or.inl (List.mem_singleton.1 hy)
      · exact Or.inr (Or.inr hy)
  | replMover a b =>
    simp only [apply]; split
    · refine complete_collect (s := s) b hc ?_ rfl
      intro y hy
      rcases hy with hy | hy
      · rcases mem_repl hy with hy | hy
        · exact Or.inl hy
        · exact Or.inr (Or.inl hy)
      · exact Or.inr (Or.inr hy)
    · exact hc
  | rmMover x =>
    simp only [apply]; split
    · exact same _ rfl (fun y hy => List.mem_of_mem_erase hy) (fun y hy => hy)
    · exact hc
  | addWeatherer x =>
    simp only [apply]; split
    · exact hc
    · refine complete_collect (s := s) x hc ?_ rfl
      intro y hy
      rcases hy with hy | hy
      · exact Or.inr (Or.inl hy)
      · rcases List.mem_append.1 hy with hy | hy
        · exact Or.inr (Or.inr hy)
        · exact Or.inl (List.mem_singleton.1 hy)
  | replWeatherer a b =>
    simp only [apply]; split
    · refine complete_collect (s := s) b hc ?_ rfl
      intro y hy
      rcases hy with hy | hy
      · exact Or.inr (Or.inl hy)
      · rcases mem_repl hy with hy | hy
        · exact Or.inl hy
        · exact Or.inr (Or.inr hy)
    · exact hc
  | rmWeatherer x => exact same _ rfl (fun y hy => hy) (fun y hy => List.mem_of_mem_erase hy)
  | addEnv x =>
    simp only [apply]; split
    · exact hc
    · obtain ⟨new, h1, h2, h3, _, _⟩ := collect_spec h (s.env ++ [x]) (refs h x)
      intro y hy z hz
      show z ∈ collect h (s.env ++ [x]) (refs h x)
      rw [h1]
      have hold : y ∈ s.movers ∨ y ∈ s.weatherers ∨ y ∈ s.env → z ∈ s.env ++ [x] ++ new :=
        fun hh => List.mem_append_left _ (List.mem_append_left _ (hc y hh z hz))
      rcases hy with hy | hy | hy
      · exact hold (Or.inl hy)
      · exact hold (Or.inr (Or.inl hy))
      · have hy' : y ∈ collect h (s.env ++ [x]) (refs h x) := hy
        rw [h1] at hy'
        rcases List.mem_append.1 hy' with hy' | hy'
        · rcases List.mem_append.1 hy' with hy' | hy'
          · exact hold (Or.inr (Or.inr hy'))
          · rw [List.mem_singleton.1 hy'] at hz; exact h3 z hz
        · exact h2 y hy' z hz
  | replEnv a b => exact absurd hk id
  | rmEnv x => exact absurd hk id
  | addOutputter x => simp only [apply]; split <;> exact same _ rfl (fun y hy => hy) (fun y hy => hy)
  | addSpill x => simp only [apply]; split <;> exact same _ rfl (fun y hy => hy) (fun y hy => hy)
  | rmSpill x => exact same _ rfl (fun y hy => hy) (fun y hy => hy)
  | setMap => exact same _ rfl (fun y hy => hy) (fun y hy => hy)
  | setStart => exact same _ rfl (fun y hy => hy) (fun y hy => hy)
  | setStep => exact same _ rfl (fun y hy => hy) (fun y hy => hy)
  | step => simp only [apply]; split <;> exact same _ rfl (fun y hy => hy) (fun y hy => hy)

theorem complete_run (h : Heap) (ops : List Op) (hk : ∀ op ∈ ops, op.Keeps) (s : St) (hs : Complete h s) :
    Complete h (run h s ops) := by
  induction ops generalizing s with
  | nil => exact hs
  | cons op ops ih =>
    exact ih (fun o ho => hk o (List.mem_cons_of_mem _ ho)) _ (complete_apply h s hs op (hk op List.mem_cons_self))

/-- **C60** (partial: a model built by adding to an empty one, from which no environment object is taken out).  At any
point, every environment object that a mover, weatherer or environment object refers to, directly or through others, is in
the environment of the model. -/
theorem C60_environment_partial (h : Heap) (out spills : List Nat) (ops : List Op) (hk : ∀ op ∈ ops, op.Keeps) (x y : Nat)
    (hx : x ∈ (run h (init [] [] [] out spills) ops).movers ∨ x ∈ (run h (init [] [] [] out spills) ops).weatherers ∨
      x ∈ (run h (init [] [] [] out spills) ops).env) (hr : Reach h x y) :
    y ∈ (run h (init [] [] [] out spills) ops).env :=
  (complete_run h ops hk _ (by intro z hz; simp [init] at hz)).reach hx hr

/-- **C60**, nothing else: adding a mover (weatherer, environment object) puts only that object and what it refers to,
directly or indirectly, behind the members of the environment, each once. -/
theorem C60_only (h : Heap) (s : St) (x : Nat) (hn : s.env.Nodup) :
    ∀ op ∈ [Op.addMover x, .addWeatherer x, .addEnv x], ∃ new, (apply h s op).env = s.env ++ new ∧ (s.env ++ new).Nodup ∧
      ∀ y ∈ new, (y = x ∧ op = .addEnv x) ∨ Reach h x y := by
  have hr : ∀ work : List Nat, work = refs h x → ∀ y, (y ∈ work ∨ ∃ w ∈ work, Reach h w y) → Reach h x y := by
    rintro _ rfl y (hy | ⟨w, hw, hy⟩)
    · exact .direct hy
    · exact .via hw hy
  intro op hop
  simp only [List.mem_cons, List.not_mem_nil, or_false] at hop
  rcases hop with rfl | rfl | rfl
  · simp only [apply]; split
    · exact ⟨[], by simp [hn]⟩
    · obtain ⟨new, h1, _, _, h4, h5⟩ := collect_spec h s.env (refs h x)
      exact ⟨new, h1, h5 hn, fun y hy => Or.inr (hr _ rfl y (h4 y hy))⟩
  · simp only [apply]; split
    · exact ⟨[], by simp [hn]⟩
    · obtain ⟨new, h1, _, _, h4, h5⟩ := collect_spec h s.env (refs h x)
      exact ⟨new, h1, h5 hn, fun y hy => Or.inr (hr _ rfl y (h4 y hy))⟩
  · simp only [apply]; split
    · exact ⟨[], by simp [hn]⟩
    · rename_i hx
      obtain ⟨new, h1, _, _, h4, h5⟩ := collect_spec h (s.env ++ [x]) (refs h x)
      have hn' : (s.env ++ [x]).Nodup := by
        rw [List.nodup_append]
        exact ⟨hn, by simp, fun a ha b hb => by rw [List.mem_singleton.1 hb]; rintro rfl; exact hx ha⟩
      have e : s.env ++ [x] ++ new = s.env ++ x :: new := by simp
      refine ⟨x :: new, by rw [← e]; exact h1, by rw [← e]; exact h5 hn', ?_⟩
      intro y hy
      rcases List.mem_cons.1 hy with rfl | hy
      · exact Or.inl (by simp)
      · exact Or.inr (hr _ rfl y (h4 y hy))

/-- waves (1) with wind (2) and water (3), in a circle with the wind: added through a weatherer (5) -/
example : (run [(5, [1]), (1, [2, 3]), (2, [1])] (init [] [] [] [] []) [.addWeatherer 5]).env = [1, 2, 3] := by
  simp [run, apply, init, rewind, collect, refs, Dict.get?]

/-- **C60 is false of the code**: objects given to the constructor do not bring their environment objects along, and an
environment object that is still referred to can be removed. -/
theorem C60_counterexample : ∃ h : Heap, Reach h 5 1 ∧
    (5 ∈ (init [] [5] [] [] []).movers ∧ 1 ∉ (init [] [5] [] [] []).env) ∧
    (5 ∈ (run h (init [] [] [] [] []) [.addMover 5, .rmEnv 1]).movers ∧
      1 ∉ (run h (init [] [] [] [] []) [.addMover 5, .rmEnv 1]).env) := by
  refine ⟨[(5, [1])], .direct (by decide), by decide, ?_⟩
  simp [run, apply, init, rewind, collect, refs, Dict.get?]

/-! ## C59: changes rewind -/

/-- what a run depends on -/
def parts (s : St) : List Nat × List Nat × List Nat × List Nat := (s.movers, s.weatherers, s.env, s.spills)

/-- The claim of C59: an operation that changes what the model consists of, or sets its map, start or time step, leaves it
rewound. -/
def C59_claim (op : Op) : Prop := ∀ (h : Heap) (s : St),
  (parts (apply h s op) ≠ parts s ∨ op ∈ [Op.setMap, .setStart, .setStep]) → (apply h s op).n = -1 ∧ (apply h s op).prepared = []

/-- **C59** (partial: every operation except removing weatherers and environment objects and adding and removing
spills). -/
theorem C59_rewinds_partial (op : Op) (h1 : ∀ x, op ≠ .rmWeatherer x) (h2 : ∀ x, op ≠ .rmEnv x) (h3 : ∀ x, op ≠ .addSpill x)
    (h4 : ∀ x, op ≠ .rmSpill x) : C59_claim op := by
  intro h s hch
  cases op with
  | rmWeatherer x => exact absurd rfl (h1 x)
  | rmEnv x => exact absurd rfl (h2 x)
  | addSpill x => exact absurd rfl (h3 x)
  | rmSpill x => exact absurd rfl (h4 x)
  | setMap => exact ⟨rfl, rfl⟩
  | setStart => exact ⟨rfl, rfl⟩
  | setStep => exact ⟨rfl, rfl⟩
  | addOutputter x => simp only [apply] at hch; split at hch <;> simp [parts] at hch
  | step => simp only [apply] at hch; split at hch <;> simp [parts] at hch
  | _ =>
    simp only [apply] at hch ⊢
    split
    · first
        | exact ⟨rfl, rfl⟩
        | (rename_i hh; rw [if_pos hh] at hch; simp [parts] at hch)
    · first
        | exact ⟨rfl, rfl⟩
        | (rename_i hh; rw [if_neg hh] at hch; simp [parts] at hch)

/-- **C59 is false of the code**: removing a weatherer or an environment object and adding or removing a spill in a running
model does not rewind it. -/
theorem C59_counterexample : ¬ C59_claim (.rmWeatherer 1) ∧ ¬ C59_claim (.rmEnv 1) ∧ ¬ C59_claim (.addSpill 2) ∧
    ¬ C59_claim (.rmSpill 1) := by
  let s : St := ⟨[], [1], [1], [], [1], [1], 5⟩
  refine ⟨fun h => ?_, fun h => ?_, fun h => ?_, fun h => ?_⟩
  · have := (h [] s (Or.inl (by decide))).1; revert this; decide
  · have := (h [] s (Or.inl (by decide))).1; revert this; decide
  · have := (h [] s (Or.inl (by decide))).1; revert this; decide
  · have := (h [] s (Or.inl (by decide))).1; revert this; decide

/-- What follows for the spills: in a model whose spills do not change while it runs, every spill is prepared in every
step. -/
theorem C59_prepared (h : Heap) (s : St) (hs : s.n = -1) (ops : List Op) (h3 : ∀ op ∈ ops, ∀ x, op ≠ .addSpill x)
    (h4 : ∀ op ∈ ops, ∀ x, op ≠ .rmSpill x) :
    (run h s ops).spills = s.spills ∧ ((run h s ops).n = -1 ∨ (0 ≤ (run h s ops).n ∧ (run h s ops).prepared = s.spills)) := by
  suffices H : ∀ (t : St), t.spills = s.spills → (t.n = -1 ∨ (0 ≤ t.n ∧ t.prepared = s.spills)) →
      (run h t ops).spills = s.spills ∧ ((run h t ops).n = -1 ∨ (0 ≤ (run h t ops).n ∧ (run h t ops).prepared = s.spills)) from
    H s rfl (Or.inl hs)
  induction ops with
  | nil => exact fun t h1 h2 => ⟨h1, h2⟩
  | cons op ops ih =>
    intro t ht1 ht2
    have hone : (apply h t op).spills = s.spills ∧
        ((apply h t op).n = -1 ∨ (0 ≤ (apply h t op).n ∧ (apply h t op).prepared = s.spills)) := by
      cases op with
      | addSpill x => exact absurd rfl (h3 _ List.mem_cons_self x)
      | rmSpill x => exact absurd rfl (h4 _ List.mem_cons_self x)
      | rmWeatherer x => exact ⟨ht1, ht2⟩
      | rmEnv x => exact ⟨ht1, ht2⟩
      | setMap => exact ⟨ht1, Or.inl rfl⟩
      | setStart => exact ⟨ht1, Or.inl rfl⟩
      | setStep => exact ⟨ht1, Or.inl rfl⟩
      | step =>
        simp only [apply]
        split
        · exact ⟨ht1, Or.inr ⟨Int.le_refl _, ht1⟩⟩
        · rename_i hne
          refine ⟨ht1, Or.inr ?_⟩
          rcases ht2 with h | ⟨h5, h6⟩
          · exact absurd h hne
          · exact ⟨by show 0 ≤ t.n + 1; omega, h6⟩
      | _ =>
        simp only [apply]
        split
        · first | exact ⟨ht1, ht2⟩ | exact ⟨ht1, Or.inl rfl⟩
        · first | exact ⟨ht1, ht2⟩ | exact ⟨ht1, Or.inl rfl⟩
    exact ih (fun o ho => h3 o (List.mem_cons_of_mem _ ho)) (fun o ho => h4 o (List.mem_cons_of_mem _ ho)) _ hone.1 hone.2

/-- **C59, consequence**: a spill added to a running model releases nothing, however long the run goes on and whatever is due,
until the model is rewound. -/
theorem C59_new_spill_silent (h : Heap) (s : St) (x : Nat) (hx : x ∉ s.spills) (hn : 0 ≤ s.n) (hp : x ∉ s.prepared)
    (k : Nat) (numDue : Int) :
    x ∈ (run h s (.addSpill x :: List.replicate k .step)).spills ∧
    due (run h s (.addSpill x :: List.replicate k .step)) x numDue = 0 := by
  have key : ∀ (k : Nat) (t : St), 0 ≤ t.n → (run h t (List.replicate k .step)).spills = t.spills ∧
      (run h t (List.replicate k .step)).prepared = t.prepared := by
    intro k
    induction k with
    | zero => exact fun t _ => ⟨rfl, rfl⟩
    | succ k ih =>
      intro t ht
      have hs : apply h t .step = { t with n := t.n + 1 } := by
        simp only [apply]; rw [if_neg (by omega)]
      have hrun : run h t (List.replicate (k + 1) .step) = run h { t with n := t.n + 1 } (List.replicate k .step) := by
        rw [List.replicate_succ]; show run h (apply h t .step) _ = _; rw [hs]
      rw [hrun]
      exact ih { t with n := t.n + 1 } (by show 0 ≤ t.n + 1; omega)
  have hadd : apply h s (.addSpill x) = { s with spills := s.spills ++ [x] } := by
    simp only [apply]; rw [if_neg hx]
  have hrun : run h s (.addSpill x :: List.replicate k .step) = run h { s with spills := s.spills ++ [x] } (List.replicate k .step) := by
    show run h (apply h s (.addSpill x)) _ = _; rw [hadd]
  obtain ⟨k1, k2⟩ := key k { s with spills := s.spills ++ [x] } hn
  rw [hrun]
  constructor
  · rw [k1]; simp
  · unfold due; rw [k2, if_neg hp]

example : (fun s : St => (2 ∉ s.spills ∧ 0 ≤ s.n ∧ 2 ∉ s.prepared)) (run [] (init [] [] [] [] [1]) [.step, .step]) := by decide

end Verif.Comp
