import Verif.Dag.TopoModel
import Mathlib.Tactic.Linarith
import Mathlib.Tactic.Ring
import Mathlib.Tactic.NormNum
import Mathlib.Tactic.Positivity
import Mathlib.Tactic.FieldSimp
import Mathlib.Algebra.Order.Field.Basic
/-!
# C317: a topology that was written and is read again is the same
-/
namespace Verif.Dag.Topo

/-! ## what is expected -/

/-- Coordinates are between -360 and 360 degrees, there is a vertex, a triangle and a branch, and no branch says that reading ends. -/
structure Grid.Ok (g : Grid) : Prop where
  pts : g.pts ≠ []
  tris : g.tris ≠ []
  tree : g.tree ≠ []
  topo : ∀ b ∈ g.tree, b.topo ≠ -1
  range : ∀ p ∈ g.pts, |p.1| ≤ 360000000 ∧ |p.2| ≤ 360000000

/-- there are as many depths as vertices, if any -/
def DepthsOk (g : Grid) (d : Option (List ℚ)) : Prop := ∀ ds, d = some ds → ds.length = g.pts.length

/-- C317 in full. -/
def C317_claim : Prop := ∀ (g : Grid) (d : Option (List ℚ)), g.Ok → DepthsOk g d → read (exportTopology g d) = some g

/-- the same coordinate, or a millionth of a degree nearer to zero -/
def Near (a b : Int) : Prop := b = a ∨ (0 < a ∧ b = a - 1) ∨ (a < 0 ∧ b = a + 1)

/-! ## rounding -/

theorem rne_bounds (q : ℚ) : q - 1 / 2 ≤ rne q ∧ (rne q : ℚ) ≤ q + 1 / 2 := by
  have h1 := Int.floor_le q
  have h2 := Int.lt_floor_add_one q
  unfold rne
  simp only
  split_ifs with a b c <;> push_cast <;> constructor <;> linarith

theorem rne_near (q : ℚ) (n : Int) (h : |q - n| < 1 / 2) : rne q = n := by
  obtain ⟨h1, h2⟩ := rne_bounds q
  rw [abs_lt] at h
  have a : ((rne q : Int) : ℚ) < n + 1 := by linarith
  have b : (n : ℚ) - 1 < ((rne q : Int) : ℚ) := by linarith
  have a' : rne q < n + 1 := by exact_mod_cast a
  have b' : n - 1 < rne q := by exact_mod_cast b
  omega

theorem rne_int (n : Int) : rne n = n := rne_near n n (by simp)

theorem flPos_err (q : ℚ) (hq : 0 < q) : |flPos q - q| ≤ q / 2 ^ 53 := by
  unfold flPos
  set e : Int := Int.log 2 q - 52
  have hl : ((2 : ℕ) : ℚ) ^ Int.log 2 q ≤ q := Int.zpow_log_le_self (by norm_num) hq
  have hp : (0 : ℚ) < 2 ^ e := zpow_pos (by norm_num) e
  obtain ⟨h1, h2⟩ := rne_bounds (q / 2 ^ e)
  have hz : (2 : ℚ) ^ Int.log 2 q = 2 ^ e * 2 ^ 52 := by
    rw [← zpow_natCast, ← zpow_add₀ (by norm_num)]
    congr 1
    show Int.log 2 q = Int.log 2 q - 52 + ((52 : ℕ) : ℤ)
    push_cast; ring
  have hq' : q / 2 ^ e * 2 ^ e = q := div_mul_cancel₀ _ hp.ne'
  have hh : (2 : ℚ) ^ e / 2 ≤ q / 2 ^ 53 := by
    rw [div_le_div_iff₀ (by norm_num) (by positivity)]
    push_cast at hl
    rw [hz] at hl
    nlinarith
  rw [abs_le]
  constructor <;> nlinarith

theorem fl_neg (q : ℚ) : fl (-q) = -fl q := by
  unfold fl
  rcases lt_trichotomy q 0 with h | h | h
  · rw [if_neg (by linarith), if_pos (by linarith), if_neg h.ne, if_neg (by linarith), neg_neg]
  · subst h; simp
  · rw [if_neg (by linarith), if_neg (by linarith), if_neg h.ne', if_pos h, neg_neg]

theorem fl_err (q : ℚ) : |fl q - q| ≤ |q| / 2 ^ 53 := by
  rcases lt_trichotomy q 0 with h | h | h
  · have : fl q = -flPos (-q) := by unfold fl; rw [if_neg h.ne, if_neg (by linarith)]
    rw [this, abs_of_neg h]
    have := flPos_err (-q) (by linarith)
    rwa [show -flPos (-q) - q = -(flPos (-q) - -q) by ring, abs_neg]
  · subst h; simp [fl]
  · have : fl q = flPos q := by unfold fl; rw [if_neg h.ne', if_pos h]
    rw [this, abs_of_pos h]
    exact flPos_err q h

theorem trunc_neg (q : ℚ) : trunc (-q) = -trunc q := by
  unfold trunc
  rcases lt_trichotomy q 0 with h | h | h
  · rw [if_pos (by linarith), if_neg (by linarith), Int.floor_neg]
  · subst h; simp
  · rw [if_neg (by linarith), if_pos h.le, Int.ceil_neg]

/-- whole numbers with at most 53 bits are doubles -/
theorem fl_nat (n : ℕ) (h : n < 2 ^ 53) : fl n = n := by
  rcases Nat.eq_zero_or_pos n with rfl | hn
  · simp [fl]
  have hq : (0 : ℚ) < n := by exact_mod_cast hn
  unfold fl
  rw [if_neg hq.ne', if_pos hq]
  unfold flPos
  have hl : Int.log 2 (n : ℚ) = (Nat.log 2 n : ℕ) := Int.log_natCast 2 n
  have hlt : Nat.log 2 n < 53 := Nat.log_lt_of_lt_pow hn.ne' h
  obtain ⟨k, hk⟩ : ∃ k : ℕ, Int.log 2 (n : ℚ) - 52 = -(k : ℤ) := ⟨52 - Nat.log 2 n, by rw [hl]; omega⟩
  rw [hk, zpow_neg, zpow_natCast, div_inv_eq_mul]
  have : ((n : ℚ) * 2 ^ k) = ((n * 2 ^ k : ℕ) : ℤ) := by push_cast; ring
  rw [this, rne_int]
  push_cast
  field_simp

/-! ## a coordinate, written and read -/

/-- what comes back for a coordinate -/
def trip (h : Int) : Int := degIn (fl (rne (1000000 * fl (h / 1000000)) / 1000000))

theorem print_eq (h : Int) (hr : |h| ≤ 360000000) : rne (1000000 * fl (h / 1000000)) = h := by
  apply rne_near
  have he := fl_err ((h : ℚ) / 1000000)
  have hr' : |(h : ℚ)| ≤ 360000000 := by exact_mod_cast hr
  rw [abs_div, abs_of_pos (by norm_num : (0 : ℚ) < 1000000)] at he
  rw [show 1000000 * fl ((h : ℚ) / 1000000) - h = 1000000 * (fl (h / 1000000) - h / 1000000) by ring, abs_mul, abs_of_pos (by norm_num : (0 : ℚ) < 1000000)]
  have : |(h : ℚ)| / 1000000 / 2 ^ 53 ≤ 360000000 / 1000000 / 2 ^ 53 := by gcongr
  have h3 : (360000000 : ℚ) / 1000000 / 2 ^ 53 * 1000000 < 1 / 2 := by norm_num
  linarith

theorem trip_eq (h : Int) (hr : |h| ≤ 360000000) : trip h = trunc (fl (1000000 * fl (h / 1000000))) := by
  unfold trip degIn
  rw [print_eq h hr]

theorem trip_pos (h : Int) (h0 : 0 < h) (hr : h ≤ 360000000) : trip h = h ∨ trip h = h - 1 := by
  have h0' : (0 : ℚ) < h := by exact_mod_cast h0
  have hr' : (h : ℚ) ≤ 360000000 := by exact_mod_cast hr
  rw [trip_eq h (by rw [abs_of_pos h0]; exact hr)]
  have he := fl_err ((h : ℚ) / 1000000)
  rw [abs_of_pos (show (0 : ℚ) < (h : ℚ) / 1000000 by positivity)] at he
  set d := fl ((h : ℚ) / 1000000)
  have he2 := fl_err (1000000 * d)
  set y := fl (1000000 * d)
  rw [abs_le] at he
  have hd0 : 0 ≤ d := by
    have : (h : ℚ) / 1000000 / 2 ^ 53 ≤ h / 1000000 := div_le_self (by positivity) (by norm_num)
    linarith [he.1]
  rw [abs_of_nonneg (show (0 : ℚ) ≤ 1000000 * d by positivity), abs_le] at he2
  have hs : (h : ℚ) / 1000000 / 2 ^ 53 ≤ 360000000 / 1000000 / 2 ^ 53 := by gcongr
  have hc : (360000000 : ℚ) / 1000000 / 2 ^ 53 * 1000000 < 1 / 4 := by norm_num
  have hd1 : 1000000 * d ≤ 360000001 := by linarith [he.2]
  have hs2 : 1000000 * d / 2 ^ 53 ≤ 360000001 / 2 ^ 53 := by gcongr
  have hc2 : (360000001 : ℚ) / 2 ^ 53 < 1 / 4 := by norm_num
  have y1 : y < h + 1 := by linarith [he.2, he2.2]
  have y2 : (h : ℚ) - 1 < y := by linarith [he.1, he2.1]
  have h1' : (1 : ℚ) ≤ h := by exact_mod_cast h0
  unfold trunc
  rw [if_pos (by linarith)]
  have a : ⌊y⌋ < h + 1 := Int.floor_lt.2 (by push_cast; exact y1)
  have b : h - 1 ≤ ⌊y⌋ := Int.le_floor.2 (by push_cast; exact y2.le)
  omega

theorem trip_neg (h : Int) (hr : |h| ≤ 360000000) : trip (-h) = -trip h := by
  rw [trip_eq h hr, trip_eq (-h) (by rwa [abs_neg])]
  push_cast
  rw [neg_div, fl_neg, mul_neg, fl_neg, trunc_neg]

/-- C317. A coordinate comes back as it was or a millionth of a degree nearer to zero. -/
theorem C317_coordinate (h : Int) (hr : |h| ≤ 360000000) : Near h (trip h) := by
  unfold Near
  rcases lt_trichotomy h 0 with h0 | h0 | h0
  · have := trip_pos (-h) (by omega) (by rw [abs_of_neg h0] at hr; exact hr)
    rw [trip_neg h hr] at this
    omega
  · subst h0
    left
    rw [trip_eq 0 (by norm_num)]
    simp [fl, trunc]
  · have := trip_pos h h0 (by rw [abs_of_pos h0] at hr; exact hr)
    omega

/-- C317. Whole degrees come back as they were. -/
theorem C317_whole (k : Int) (hr : |k| ≤ 360) : trip (1000000 * k) = 1000000 * k := by
  have key : ∀ n : ℕ, n ≤ 360 → trip (1000000 * (n : Int)) = 1000000 * n := by
    intro n hn
    have hb : |(1000000 * (n : Int))| ≤ 360000000 := by rw [abs_of_nonneg (by positivity)]; omega
    rw [trip_eq _ hb]
    push_cast
    rw [mul_div_cancel_left₀ _ (by norm_num), fl_nat n (by omega), show (1000000 : ℚ) * n = ((1000000 * n : ℕ) : ℚ) by push_cast; ring, fl_nat _ (by omega)]
    unfold trunc
    rw [if_pos (by positivity), Int.floor_natCast]
    push_cast; ring
  rcases Int.natAbs_eq k with h | h
  · rw [h]
    exact key _ (by rw [abs_le] at hr; omega)
  · have := key k.natAbs (by rw [abs_le] at hr; omega)
    rw [h, mul_neg, trip_neg _ (by rw [abs_of_nonneg (by positivity)]; rw [abs_le] at hr; omega), this]

/-! ## a file -/

theorem block_map {α β γ : Type} (f : Line → Option β) (w : α → Line) (k : α → β) (_x : Option γ) (l : List α) (h : ∀ a ∈ l, f (w a) = some (k a)) (rest : List Line) :
    block f l.length (l.map w ++ rest) = some (l.map k, rest) := by
  induction l with
  | nil => rfl
  | cons a l ih =>
    simp only [List.length_cons, List.map_cons, List.cons_append, block]
    rw [h a (List.mem_cons_self ..), Option.bind_some, ih (fun b hb => h b (List.mem_cons_of_mem _ hb))]
    rfl

theorem toLower_keys : "TransposeArray".toLower = "transposearray" ∧ "Vertices".toLower = "vertices" ∧ "Topology".toLower = "topology" ∧ "DAGTree".toLower = "dagtree" := by
  decide +kernel

theorem vertices_ne : "Vertices".toLower ≠ "transposearray" := by decide +kernel

theorem readOrder_export (o : List Int) (n : Int) (rest : List Line) :
    readOrder ((if o = [] then [] else [.word "TransposeArray", .int o.length] :: o.map fun i => [.int i]) ++ ([.word "Vertices", .int n] :: rest)) = some (o, [.word "Vertices", .int n] :: rest) := by
  by_cases h : o = []
  · subst h
    simp only [if_true, List.nil_append, readOrder, header]
    rw [if_neg vertices_ne]
  · rw [if_neg h]
    simp only [List.cons_append, readOrder, header]
    rw [if_pos toLower_keys.1]
    have := block_map readIndex (fun i : Int => [.int i]) id (none : Option Unit) o (fun a _ => by simp [readIndex, ints]) ([.word "Vertices", .int n] :: rest)
    simpa using this

theorem readPt_none (p : Int × Int) : readPt false (printPt p none) = some (trip p.1, trip p.2) := by
  simp [readPt, printPt, printDeg, doubles, toDouble, trip]

theorem readPt_some (p : Int × Int) (d : ℚ) : readPt true (printPt p (some d)) = some (trip p.1, trip p.2) := by
  simp [readPt, printPt, printDeg, doubles, toDouble, trip]

theorem readPts_export (ps : List (Int × Int)) (hp : ps ≠ []) (d : Option (List ℚ)) (hd : ∀ ds, d = some ds → ds.length = ps.length) (junk : Line) (rest : List Line) :
    readPts ps.length (junk :: (ptLines ps d ++ rest)) = some (ps.map fun p => (trip p.1, trip p.2), rest) := by
  cases d with
  | none =>
    obtain ⟨p, ps, rfl⟩ := List.exists_cons_of_ne_nil hp
    have := block_map (readPt false) (fun p : Int × Int => printPt p none) (fun p => (trip p.1, trip p.2)) (none : Option Unit) (p :: ps) (fun a _ => readPt_none a) rest
    simp only [ptLines, List.map_cons, List.cons_append] at this ⊢
    simp only [readPts]
    rw [show (doubles 3 (printPt p none)).isSome = false by simp [printPt, printDeg, doubles, toDouble]]
    exact this
  | some ds =>
    have hl := hd ds rfl
    have hz : List.zipWith (fun p d => printPt p (some d)) ps ds = (ps.zip ds).map fun x => printPt x.1 (some x.2) := by
      rw [List.zip, List.map_zipWith]
    have hz2 : ps.map (fun p => (trip p.1, trip p.2)) = (ps.zip ds).map fun x => (trip x.1.1, trip x.1.2) := by
      conv_lhs => rw [← List.map_fst_zip (l₁ := ps) (l₂ := ds) (by omega), List.map_map]
      rfl
    have hlen : ps.length = (ps.zip ds).length := by rw [List.length_zip, hl, Nat.min_self]
    have := block_map (readPt true) (fun x : (Int × Int) × ℚ => printPt x.1 (some x.2)) (fun x => (trip x.1.1, trip x.1.2)) (none : Option Unit) (ps.zip ds) (fun a _ => readPt_some a.1 a.2) rest
    rw [← hlen, ← hz2] at this
    simp only [ptLines, hz]
    have hne : ps.zip ds ≠ [] := by
      intro hc
      rw [hc] at hlen
      exact hp (List.length_eq_zero_iff.1 hlen)
    obtain ⟨x, xs, hx⟩ := List.exists_cons_of_ne_nil hne
    rw [hx] at this ⊢
    simp only [List.map_cons, List.cons_append] at this ⊢
    simp only [readPts]
    rw [show (doubles 3 (printPt x.1 (some x.2))).isSome = true by simp [printPt, printDeg, doubles, toDouble]]
    exact this

/-- C317. What is read: order, triangles and tree are as they were, the vertices are the ones that come back. -/
theorem C317_read (g : Grid) (d : Option (List ℚ)) (hg : g.Ok) (hd : DepthsOk g d) :
    read (exportTopology g d) = some { g with pts := g.pts.map fun p => (trip p.1, trip p.2) } := by
  obtain ⟨k1, k2, k3, k4⟩ := toLower_keys
  unfold exportTopology
  simp only [List.append_assoc, List.cons_append, List.nil_append]
  unfold read
  rw [readOrder_export, Option.bind_some]
  simp only [sect, header]
  rw [if_pos k2, Option.bind_some, Int.toNat_natCast, readPts_export g.pts hg.pts d hd, Option.bind_some]
  simp only
  rw [if_pos k3, Option.bind_some, Int.toNat_natCast, if_neg (by rw [List.length_eq_zero_iff]; exact hg.tris)]
  rw [block_map readTri _ id (none : Option Unit) g.tris (fun a _ => by simp [readTri, ints]), Option.bind_some]
  simp only
  rw [if_pos k4, Option.bind_some, Int.toNat_natCast]
  unfold readTree
  have hb := block_map readBranch (fun b : Branch => [.int b.topo, .int b.left, .int b.right]) id (none : Option Unit) g.tree (fun a _ => by simp [readBranch, ints]) []
  rw [List.append_nil] at hb
  rw [hb, Option.bind_some, if_neg, Option.map_some]
  · simp
  · rintro (h | ⟨b, hb, he⟩)
    · exact hg.tree (List.length_eq_zero_iff.1 h)
    · exact hg.topo b (by simpa using List.mem_of_mem_dropLast hb) he

/-- C317, but for millionths of degrees: order, triangles and tree come back as they were, each vertex within a millionth of a degree towards zero (what is missing: the same vertex). -/
theorem C317_partial (g : Grid) (d : Option (List ℚ)) (hg : g.Ok) (hd : DepthsOk g d) :
    ∃ r, read (exportTopology g d) = some r ∧ r.order = g.order ∧ r.tris = g.tris ∧ r.tree = g.tree ∧ List.Forall₂ (fun p q => Near p.1 q.1 ∧ Near p.2 q.2) g.pts r.pts := by
  refine ⟨_, C317_read g d hg hd, rfl, rfl, rfl, ?_⟩
  have hr := hg.range
  simp only
  generalize g.pts = ps at hr
  induction ps with
  | nil => exact .nil
  | cons p ps ih =>
    exact .cons ⟨C317_coordinate _ (hr p (List.mem_cons_self ..)).1, C317_coordinate _ (hr p (List.mem_cons_self ..)).2⟩ (ih fun q hq => hr q (List.mem_cons_of_mem _ hq))

/-- a triangle off Prince Rupert -/
def sample : Grid := ⟨[2, 0, 1], [(-131312167, 54000000), (-130272766, 54500000), (-131000000, 55000000)], [⟨0, 1, 2, -1, -1, -1⟩], [⟨0, -8, 1⟩, ⟨1, -8, -8⟩]⟩

theorem sample_ok : sample.Ok := by
  constructor <;> simp [sample]

/-- C317 fails: the first vertex comes back at longitude -131.312166. -/
theorem C317_counterexample : ¬ C317_claim := by
  intro h
  have := h sample none sample_ok (fun ds hd => absurd hd nofun)
  rw [C317_read sample none sample_ok (fun ds hd => absurd hd nofun)] at this
  have h2 := congrArg (fun g : Option Grid => g.map fun g => g.pts.map Prod.fst) this
  revert h2
  decide +kernel

/-- with depths, all of the file -/
example : ∃ r, read (exportTopology sample (some [3, 7 / 2, 12])) = some r ∧ r.tris = sample.tris := by
  obtain ⟨r, h, -, ht, -⟩ := C317_partial sample (some [3, 7 / 2, 12]) sample_ok (by rintro ds ⟨⟩; rfl)
  exact ⟨r, h, ht⟩

end Verif.Dag.Topo
