import Verif.Output.KmzPtModel
import Mathlib.Tactic.Linarith
/-!
# C318: In a file for Google Earth each element of the map is a point of its kind

Spec: for a kind (floating, beached) and a certainty, the places shown at a step are those of the elements of that group which have the kind, in order, each within half a millionth of a degree.
-/
namespace Verif.Output.Pt

/-- An element floats: in the water, at the surface. -/
def Floats (e : El) : Prop := e.status = .inWater ∧ e.z = 0

/-- An element lies: on shore or on a tide flat that is dry. -/
def Lies (e : El) : Prop := e.status = .onLand ∨ e.status = .onTideflat

/-- An element has the kind. -/
def Is : Kind → El → Prop
  | .floating => Floats
  | .beached => Lies

instance : DecidablePred Floats := fun e => inferInstanceAs (Decidable (e.status = .inWater ∧ e.z = 0))
instance : DecidablePred Lies := fun e => inferInstanceAs (Decidable (e.status = .onLand ∨ e.status = .onTideflat))
instance : (k : Kind) → DecidablePred (Is k)
  | .floating => inferInstanceAs (DecidablePred Floats)
  | .beached => inferInstanceAs (DecidablePred Lies)

/-- A point is the place of an element to half a millionth of a degree. -/
def Shows (p : Int × Int) (e : El) : Prop :=
  |(p.1 : ℚ) / 1000000 - e.lon| ≤ 1 / 2000000 ∧ |(p.2 : ℚ) / 1000000 - e.lat| ≤ 1 / 2000000

/-- The claim: a folder for each group; in it one placemark of each kind with the elements of the kind. -/
def C318_claim : Prop := ∀ (span : Int) (gs : List Group),
  List.Forall₂ (fun (g : Group) (f : List Mark) => ∀ k, ∃ m, f.filter (·.kind = k) = [m] ∧
    List.Forall₂ (fun e p => Shows p e) (g.els.filter fun e => Is k e) m.points) gs (write span gs)

theorem near_close (q : ℚ) : |(near q : ℚ) - q| ≤ 1 / 2 := by
  have h0 := Int.floor_le q
  have h1 := Int.lt_floor_add_one q
  unfold near
  split_ifs with a b c <;> rw [abs_le] <;> push_cast <;> constructor <;> linarith

theorem point_shows (e : El) : Shows (point e) e := by
  have hx := near_close (1000000 * e.lon)
  have hy := near_close (1000000 * e.lat)
  rw [abs_le] at hx hy
  unfold Shows point
  simp only [abs_le]
  refine ⟨⟨?_, ?_⟩, ?_, ?_⟩ <;> linarith

theorem map_shows (l : List El) : List.Forall₂ (fun e p => Shows p e) l (l.map point) := by
  induction l with
  | nil => exact .nil
  | cons e l ih => exact .cons (point_shows e) ih

theorem write_spec (span : Int) (gs : List Group) (P : Group → List Mark → Prop)
    (h : ∀ g ∈ gs, P g (folder (g.els.filter (·.status = .inWater)) (g.els.filter (·.status = .onLand)) g.time (g.time + span) g.uncertain)) :
    List.Forall₂ P gs (write span gs) := by
  induction gs with
  | nil => exact .nil
  | cons g gs ih => exact .cons (h g (List.mem_cons_self ..)) (ih fun g' hg => h g' (List.mem_cons_of_mem _ hg))

/-- C318, false: an element on a dry tide flat is in no placemark, and an element below the surface is among the floating ones. -/
theorem C318_counterexample : ¬ C318_claim := by
  intro h
  have := h 900 [⟨false, 0, [⟨.onTideflat, 0, 0, 0⟩]⟩]
  simp only [write, folder, List.map_cons, List.map_nil, List.forall₂_cons] at this
  obtain ⟨m, hm, hp⟩ := this.1 .beached
  simp only [List.filter, reduceCtorEq, decide_false, decide_true, List.map_nil, List.cons.injEq, and_true] at hm
  subst hm
  have : (Is .beached ⟨.onTideflat, 0, 0, 0⟩) := Or.inr rfl
  simp [this] at hp

/-- C318, false: the same for one below the surface. -/
theorem C318_below (span : Int) (g : Group) (e : El) (he : e ∈ g.els) (hw : e.status = .inWater) (hz : e.z ≠ 0) :
    ¬ Is .floating e ∧ ∃ m ∈ (write span [g]).flatten, m.kind = .floating ∧ point e ∈ m.points := by
  refine ⟨fun h => hz h.2, ?_⟩
  simp only [write, List.map_cons, List.map_nil, List.flatten_cons, List.flatten_nil, List.append_nil]
  refine ⟨_, List.mem_cons_self .., rfl, ?_⟩
  exact List.mem_map_of_mem (List.mem_filter.2 ⟨he, by simpa using hw⟩)

/-- C318, for elements of which none is on a tide flat and none below the surface. -/
theorem C318_partial (span : Int) (gs : List Group) (ht : ∀ g ∈ gs, ∀ e ∈ g.els, e.status ≠ .onTideflat)
    (hz : ∀ g ∈ gs, ∀ e ∈ g.els, e.status = .inWater → e.z = 0) :
    List.Forall₂ (fun (g : Group) (f : List Mark) => ∀ k, ∃ m, f.filter (·.kind = k) = [m] ∧
      List.Forall₂ (fun e p => Shows p e) (g.els.filter fun e => Is k e) m.points) gs (write span gs) := by
  refine write_spec span gs _ fun g hg k => ?_
  cases k
  · refine ⟨_, rfl, ?_⟩
    have : (g.els.filter fun e => decide (Is .floating e)) = g.els.filter fun e => decide (e.status = .inWater) := by
      refine List.filter_congr fun e he => ?_
      have := hz g hg e he
      exact decide_eq_decide.2 ⟨And.left, fun h => ⟨h, this h⟩⟩
    rw [this]
    exact map_shows _
  · refine ⟨_, rfl, ?_⟩
    have : (g.els.filter fun e => decide (Is .beached e)) = g.els.filter fun e => decide (e.status = .onLand) := by
      refine List.filter_congr fun e he => ?_
      have := ht g hg e he
      exact decide_eq_decide.2 ⟨fun h => h.resolve_right this, Or.inl⟩
    rw [this]
    exact map_shows _

example : (∀ g ∈ [Group.mk true 0 [⟨.inWater, -124, 47, 0⟩, ⟨.onLand, -124, 46, 0⟩, ⟨.offMaps, 0, 0, 0⟩]], ∀ e ∈ g.els, e.status ≠ .onTideflat ∧ (e.status = .inWater → e.z = 0)) ∧
    write 900 [⟨true, 0, [⟨.inWater, -124, 47, 0⟩, ⟨.onLand, -124, 46, 0⟩, ⟨.offMaps, 0, 0, 0⟩]⟩] =
      [[⟨true, .floating, "RedDotIcon", 0, 900, [(-124000000, 47000000)]⟩, ⟨true, .beached, "RedXIcon", 0, 900, [(-124000000, 46000000)]⟩]] := by
  constructor
  · decide
  · decide +kernel

/-- Of any elements, as many points are shown as elements are in the water or on shore: none twice, and none of the others. -/
theorem C318_count (span : Int) (g : Group) :
    (((write span [g]).flatten.map fun m => m.points.length).sum) = g.els.countP fun e => e.status = .inWater ∨ e.status = .onLand := by
  simp only [write, folder, List.map_cons, List.map_nil, List.flatten_cons, List.flatten_nil, List.append_nil, List.sum_cons, List.sum_nil, List.length_map, Nat.add_zero]
  induction g.els with
  | nil => rfl
  | cons e l ih =>
    obtain ⟨s, x, y, z⟩ := e
    cases s <;> simp_all <;> omega

/-- Each placemark says its group's certainty and time span; its style is defined, with a picture that is in the file; dots float and crosses lie; red is uncertain and yellow is certain. -/
theorem C318_style (span : Int) (gs : List Group) :
    List.Forall₂ (fun (g : Group) (f : List Mark) => ∀ m ∈ f, m.uncertain = g.uncertain ∧ m.start = g.time ∧ m.stop = g.time + span ∧
      ∃ icon colour, (m.style, icon, colour) ∈ styles ∧ icon ∈ pictures ∧ (icon = "dot.png" ↔ m.kind = .floating) ∧ (colour = "ff0000ff" ↔ g.uncertain = true) ∧
        (colour = "ff00ffff" ↔ g.uncertain = false)) gs (write span gs) := by
  refine write_spec span gs _ fun g _ m hm => ?_
  simp only [folder, List.mem_cons, List.not_mem_nil, or_false] at hm
  cases hu : g.uncertain <;> rcases hm with rfl | rfl <;> simp only [hu, styleOf] <;> refine ⟨trivial, trivial, trivial, ?_⟩
  · exact ⟨"dot.png", "ff00ffff", by decide, by decide, by decide, by decide, by decide⟩
  · exact ⟨"x.png", "ff00ffff", by decide, by decide, by decide, by decide, by decide⟩
  · exact ⟨"dot.png", "ff0000ff", by decide, by decide, by decide, by decide, by decide⟩
  · exact ⟨"x.png", "ff0000ff", by decide, by decide, by decide, by decide, by decide⟩

end Verif.Output.Pt
