import Verif.TimeUtil.ZoneModel
import Mathlib.Tactic.Ring
import Mathlib.Tactic.Linarith
import Mathlib.Tactic.NormNum
import Mathlib.Tactic.Positivity
import Mathlib.Data.List.TakeWhile

/-!
# C370: the title of an offset from UTC tells the offset that is used
-/
namespace Verif.TimeUtil.Zone

/-! ### How such a text is read -/

/-- The number that digits are; `none` for anything else. -/
def number (t : List Sym) : Option Nat :=
  t.foldl (fun a c => match a, c with
    | some n, .digit d => if d < 10 then some (10 * n + d) else none
    | _, _ => none) (some 0)

/-- Hours and minutes, with a sign: the minutes of a text `±hh:mm`. -/
def read : List Sym → Option Int
  | .plus :: r => go r
  | .minus :: r => (go r).map (- ·)
  | _ => none
where go (r : List Sym) : Option Int :=
  match number (r.takeWhile (· ≠ .colon)), number ((r.dropWhile (· ≠ .colon)).drop 1) with
  | some h, some m => if m < 60 then some ((60 * h + m : Nat) : Int) else none
  | _, _ => none

theorem number_append (t : List Sym) (n d : Nat) (h : number t = some n) (hd : d < 10) : number (t ++ [.digit d]) = some (10 * n + d) := by
  unfold number at h ⊢
  rw [List.foldl_append, h]
  simp [hd]

theorem number_digits (n : Nat) : number (digits n) = some n := by
  induction n using Nat.strongRecOn with
  | _ n ih =>
    rw [digits]
    split_ifs with h
    · simp [number, h]
    · rw [number_append _ _ _ (ih (n / 10) (by omega)) (by omega)]
      congr 1; omega

theorem number_zeros (k : Nat) (t : List Sym) : number (List.replicate k (.digit 0) ++ t) = number t := by
  induction k with
  | zero => rfl
  | succ k ih =>
    rw [← ih]
    simp [number, List.replicate_succ]

theorem number_pad (n : Nat) : number (pad n) = some n := by
  rw [pad, number_zeros, number_digits]

theorem digits_colon (n : Nat) : ∀ c ∈ digits n, c ≠ .colon := by
  induction n using Nat.strongRecOn with
  | _ n ih =>
    rw [digits]
    split_ifs with h
    · simp
    · intro c hc
      rw [List.mem_append] at hc
      rcases hc with hc | hc
      · exact ih (n / 10) (by omega) c hc
      · simp only [List.mem_singleton] at hc; subst hc; simp

theorem pad_colon (n : Nat) : ∀ c ∈ pad n, c ≠ .colon := by
  intro c hc
  rw [pad, List.mem_append] at hc
  rcases hc with hc | hc
  · rw [List.mem_replicate] at hc; rw [hc.2]; simp
  · exact digits_colon n c hc

theorem go_pads (h m : Nat) (hm : m < 60) : read.go (pad h ++ .colon :: pad m) = some ((60 * h + m : Nat) : Int) := by
  have h1 : (pad h ++ .colon :: pad m).takeWhile (· ≠ .colon) = pad h := by
    rw [List.takeWhile_append_of_pos (by simpa using pad_colon h)]
    simp
  have h2 : (pad h ++ .colon :: pad m).dropWhile (· ≠ .colon) = .colon :: pad m := by
    rw [List.dropWhile_append_of_pos (by simpa using pad_colon h)]
    simp
  simp only [read.go, h1, h2, List.drop_succ_cons, List.drop_zero, number_pad, hm, if_true]

/-! ### Hours and minutes -/

theorem floor_parts (a : ℚ) (ha : 0 ≤ a) :
    ⌊(a - (⌊a⌋.toNat : ℚ)) * 60⌋.toNat < 60 ∧ ((60 * ⌊a⌋.toNat + ⌊(a - (⌊a⌋.toNat : ℚ)) * 60⌋.toNat : Nat) : Int) = ⌊a * 60⌋ := by
  have hf : 0 ≤ ⌊a⌋ := Int.floor_nonneg.2 ha
  have hc : ((⌊a⌋.toNat : Nat) : ℚ) = (⌊a⌋ : ℚ) := by
    have : ((⌊a⌋.toNat : Nat) : Int) = ⌊a⌋ := Int.toNat_of_nonneg hf
    exact_mod_cast congrArg (Int.cast (R := ℚ)) this
  rw [hc]
  have h0 : 0 ≤ a - (⌊a⌋ : ℚ) := by have := Int.floor_le a; linarith
  have h1 : a - (⌊a⌋ : ℚ) < 1 := by have := Int.lt_floor_add_one a; linarith
  have hm0 : 0 ≤ ⌊(a - (⌊a⌋ : ℚ)) * 60⌋ := Int.floor_nonneg.2 (by positivity)
  have hm1 : ⌊(a - (⌊a⌋ : ℚ)) * 60⌋ < 60 := Int.floor_lt.2 (by push_cast; linarith)
  refine ⟨by omega, ?_⟩
  push_cast
  rw [Int.toNat_of_nonneg hf, Int.toNat_of_nonneg hm0]
  have : (a - (⌊a⌋ : ℚ)) * 60 = a * 60 - ((60 * ⌊a⌋ : Int) : ℚ) := by push_cast; ring
  rw [this, Int.floor_sub_intCast]
  ring

/-- **C370**: the title that is made for an offset, read as hours and minutes, is the time by which times are moved with it. -/
theorem C370_title (g : Given) (t : List Sym) (h : (make (some g) "").title = .made t) :
    read t = some (shift (make (some g) "")) := by
  have key : ∀ o : ℚ, read (isoString o) = some (pyInt (o * 60)) := by
    intro o
    obtain ⟨h1, h2⟩ := floor_parts |o| (abs_nonneg o)
    unfold isoString pyInt
    by_cases ho : o < 0
    · have habs : |o| = -o := abs_of_neg ho
      simp only [ho, if_true, read, go_pads _ _ h1, h2]
      rw [if_neg (by push Not; nlinarith), habs, neg_mul]
      rfl
    · have habs : |o| = o := abs_of_nonneg (not_lt.1 ho)
      simp only [ho, if_false, read, go_pads _ _ h1, h2]
      rw [if_pos (by have := not_lt.1 ho; positivity), habs]
  simp only [make, Option.map_some, if_true, Title.made.injEq] at h
  rw [← h, key]
  rfl

/-- Without a title there is always one: made of the offset, or that none is specified; a title that is given is kept. -/
theorem C370_titled (g : Option Given) (title : String) :
    (make g title).title = if title = "" then
      (match (make g title).offset with | none => .unspecified | some o => .made (isoString o)) else .given title := rfl

/-- Times are moved by the offset, cut to whole minutes towards zero; not at all where none is specified. -/
theorem C370_shift (h : ℚ) (title : String) :
    |(shift (make (some (.hours h)) title) : ℚ)| ≤ |h * 60| ∧ |h * 60 - shift (make (some (.hours h)) title)| < 1 ∧
      shift (make none title) = 0 := by
  have e : shift (make (some (.hours h)) title) = pyInt (h * 60) := rfl
  rw [e]
  refine ⟨?_, ?_, rfl⟩
  all_goals
    unfold pyInt
    split_ifs with hx
    · have h1 := Int.floor_le (h * 60)
      have h2 := Int.lt_floor_add_one (h * 60)
      have h3 : (0 : ℚ) ≤ ⌊h * 60⌋ := by exact_mod_cast Int.floor_nonneg.2 hx
      first
      | (rw [abs_of_nonneg h3, abs_of_nonneg hx]; exact h1)
      | (rw [abs_lt]; constructor <;> linarith)
    · have hx' : 0 ≤ -(h * 60) := by linarith
      have h1 := Int.floor_le (-(h * 60))
      have h2 := Int.lt_floor_add_one (-(h * 60))
      have h3 : (0 : ℚ) ≤ ⌊-(h * 60)⌋ := by exact_mod_cast Int.floor_nonneg.2 hx'
      push_cast
      first
      | (rw [abs_neg, abs_of_nonneg h3, abs_of_nonpos (by linarith)]; exact h1)
      | (rw [abs_lt]; constructor <;> linarith)

/-- Whole minutes are not cut: an offset given as a `timedelta` moves times by just that. -/
theorem C370_delta (m : Int) (title : String) : shift (make (some (.delta (m * 60))) title) = m := by
  have e : shift (make (some (.delta (m * 60))) title) = pyInt ((m * 60 : ℚ) / 3600 * 60) := rfl
  have e2 : ((m * 60 : ℚ) / 3600 * 60) = ((m : Int) : ℚ) := by ring
  rw [e, e2]
  unfold pyInt
  split_ifs
  · simp
  · rw [← Int.cast_neg, Int.floor_intCast]; ring

/-- Two offsets with the same title that was made move times alike, and no offset has the title of an unspecified one. -/
theorem C370_same (g g' : Given) (h : (make (some g) "").title = (make (some g') "").title) :
    shift (make (some g) "") = shift (make (some g') "") ∧ (make (some g) "").title ≠ (make none "").title := by
  refine ⟨?_, by simp [make]⟩
  have h1 := C370_title g _ rfl
  have h2 := C370_title g' _ (h.symm.trans rfl)
  rw [h1] at h2
  exact Option.some.inj h2

/-- An offset that is saved and read again is the same number of hours with the same text as its title, and moves times alike. -/
theorem C370_saved (text : List Sym → String) (ht : ∀ t, text t = "" → t = []) (g : Option Given) (title : String) :
    ∃ z, load (save text (make g title)) = some z ∧ z.offset = (make g title).offset ∧
      titleText text z.title = titleText text (make g title).title ∧ shift z = shift (make g title) := by
  have hne : titleText text (make g title).title ≠ "" := by
    rw [C370_titled]
    split_ifs with h
    · split
      · show "No Timezone Specified" ≠ ""
        decide
      · intro hc
        have := ht _ hc
        simp [isoString] at this
    · exact h
  have ho : (make ((make g title).offset.map .hours) (titleText text (make g title).title)).offset = (make g title).offset := by
    rcases g with _ | g
    · rfl
    · rfl
  refine ⟨make ((make g title).offset.map .hours) (titleText text (make g title).title), ?_, ho, ?_, ?_⟩
  · simp only [load, save]; exact if_neg hne
  · rw [C370_titled (title := titleText text (make g title).title), if_neg hne]; rfl
  · unfold shift; rw [ho]

/-- The title has two digits for the minutes, and two for the hours of any offset of less than a hundred hours. -/
theorem C370_width (n : Nat) (h : n < 100) : (pad n).length = 2 := by
  rw [pad, digits]
  split_ifs with h1
  · simp
  · rw [digits, if_pos (by omega)]; simp

example : isoString (-7 / 2) = [.minus, .digit 0, .digit 3, .colon, .digit 3, .digit 0] ∧
    read [.minus, .digit 0, .digit 3, .colon, .digit 3, .digit 0] = some (-210) ∧ shift (make (some (.hours (-7 / 2))) "") = -210 := by
  have h1 : ⌊(7 / 2 : ℚ)⌋ = 3 := by rw [Int.floor_eq_iff]; norm_num
  have h2 : |(-7 / 2 : ℚ)| = 7 / 2 := by rw [abs_of_neg (by norm_num)]; norm_num
  have h3 : ⌊((7 / 2 : ℚ) - ((3 : Int).toNat : ℚ)) * 60⌋ = 30 := by rw [show (3 : Int).toNat = 3 from rfl, Int.floor_eq_iff]; norm_num
  have h4 : pad 3 = [.digit 0, .digit 3] := by rw [pad, digits]; rfl
  have h5 : pad 30 = [.digit 3, .digit 0] := by rw [pad, digits, digits]; rfl
  refine ⟨?_, by decide, ?_⟩
  · simp only [isoString, h2, h1, h3]
    rw [if_pos (by norm_num), show (3 : Int).toNat = 3 from rfl, show (30 : Int).toNat = 30 from rfl, h4, h5]
    rfl
  · have h6 := C370_delta (-210) ""
    rw [← h6]
    simp only [shift, make, Option.map_some]
    norm_num

end Verif.TimeUtil.Zone
