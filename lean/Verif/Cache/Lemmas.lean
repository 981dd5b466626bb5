import Verif.Cache.Model
/-!
# Lemmas about the cache model
-/
namespace Verif.Cache
open Verif.Py

/-! ### file names -/

/-- value of a string of digits -/
def val (l : List Char) : Nat := l.foldl (fun a c => a * 10 + (c.toNat - 48)) 0

theorem digitChar_val (d : Nat) (h : d < 10) : (Nat.digitChar d).toNat - 48 = d := by
  have : ∀ d : Fin 10, (Nat.digitChar d.1).toNat - 48 = d.1 := by decide
  exact this ⟨d, h⟩

theorem decimal_succ (n : Nat) (h : 0 < n) : decimal n = decimal (n / 10) ++ [Nat.digitChar (n % 10)] := by
  unfold decimal
  rw [Nat.digits_def' (by norm_num) h]
  simp

theorem val_decimal (n : Nat) : val (decimal n) = n := by
  induction n using Nat.strongRecOn with
  | _ n ih =>
    rcases Nat.eq_zero_or_pos n with rfl | h
    · simp [decimal, val]
    · rw [decimal_succ n h]
      have := ih (n / 10) (Nat.div_lt_self h (by norm_num))
      unfold val at *
      rw [List.foldl_append, this]
      simp only [List.foldl_cons, List.foldl_nil]
      rw [digitChar_val _ (Nat.mod_lt _ (by norm_num))]
      omega

theorem val_pad (w : Nat) (l : List Char) : val (padLeft w l) = val l := by
  unfold padLeft val
  rw [List.foldl_append]
  congr 1
  induction (w - l.length) with
  | zero => rfl
  | succ k ih => rw [List.replicate_succ, List.foldl_cons]; exact ih

/-- the characters that occur in a formatted number -/
def NumChar (c : Char) : Prop := c ≠ '.' ∧ c ≠ '_'

theorem digitChar_mem (d : Nat) (h : d < 10) : NumChar (Nat.digitChar d) ∧ Nat.digitChar d ≠ '-' := by
  have : ∀ d : Fin 10, NumChar (Nat.digitChar d.1) ∧ Nat.digitChar d.1 ≠ '-' := by unfold NumChar; decide
  exact this ⟨d, h⟩

theorem decimal_chars (n : Nat) : ∀ c ∈ decimal n, NumChar c ∧ c ≠ '-' := by
  intro c hc
  simp only [decimal, List.mem_map, List.mem_reverse] at hc
  obtain ⟨d, hd, rfl⟩ := hc
  exact digitChar_mem d (Nat.digits_lt_base (by norm_num) hd)

theorem pad_chars (w n : Nat) : ∀ c ∈ padLeft w (decimal n), NumChar c ∧ c ≠ '-' := by
  intro c hc
  simp only [padLeft, List.mem_append, List.mem_replicate] at hc
  rcases hc with ⟨_, rfl⟩ | hc
  · exact ⟨by unfold NumChar; decide, by decide⟩
  · exact decimal_chars n c hc

theorem fmt_chars (n : Int) : ∀ c ∈ fmt06 n, NumChar c := by
  intro c hc
  unfold fmt06 at hc
  split at hc
  · exact (pad_chars _ _ c hc).1
  · rcases List.mem_cons.1 hc with rfl | hc
    · unfold NumChar; decide
    · exact (pad_chars _ _ c hc).1

theorem fmt_injective {n m : Int} (h : fmt06 n = fmt06 m) : n = m := by
  unfold fmt06 at h
  split at h
  · split at h
    · have := congrArg val h
      rw [val_pad, val_pad, val_decimal, val_decimal] at this
      omega
    · exact absurd rfl (pad_chars 6 n.toNat '-' (by rw [h]; simp)).2
  · split at h
    · exact absurd rfl (pad_chars 6 m.toNat '-' (by rw [← h]; simp)).2
    · injection h with _ h
      have := congrArg val h
      rw [val_pad, val_pad, val_decimal, val_decimal] at this
      omega

theorem append_split {a b : List Char} {x y : Char} {s t : List Char} (ha : ∀ c ∈ a, NumChar c)
    (hb : ∀ c ∈ b, NumChar c) (hx : ¬ NumChar x) (hy : ¬ NumChar y) (h : a ++ x :: s = b ++ y :: t) :
    a = b ∧ x :: s = y :: t := by
  induction a generalizing b with
  | nil =>
    cases b with
    | nil => exact ⟨rfl, h⟩
    | cons d b =>
      simp only [List.nil_append, List.cons_append, List.cons.injEq] at h
      exact absurd (h.1 ▸ hb d (by simp)) hx
  | cons c a ih =>
    cases b with
    | nil =>
      simp only [List.nil_append, List.cons_append, List.cons.injEq] at h
      exact absurd (h.1 ▸ ha c (by simp)) hy
    | cons d b =>
      simp only [List.cons_append, List.cons.injEq] at h
      have := ih (fun c hc => ha c (by simp [hc])) (fun c hc => hb c (by simp [hc])) h.2
      exact ⟨by rw [h.1, this.1], this.2⟩

theorem filename_injective {n m : Int} {b c : Bool} (h : makeFilename n b = makeFilename m c) :
    n = m ∧ b = c := by
  have hu : ¬ NumChar '_' := by unfold NumChar; decide
  have hd : ¬ NumChar '.' := by unfold NumChar; decide
  have e1 : "_uncert.npz".toList = '_' :: "uncert.npz".toList := by decide
  have e2 : ".npz".toList = '.' :: "npz".toList := by decide
  unfold makeFilename at h
  cases b <;> cases c <;> simp only [Bool.false_eq_true, if_true, if_false] at h <;>
    rw [List.append_assoc, List.append_assoc] at h <;> replace h := List.append_cancel_left h <;>
    simp only [e1, e2] at h
  · exact ⟨fmt_injective (append_split (fmt_chars n) (fmt_chars m) hd hd h).1, rfl⟩
  · exact absurd (append_split (fmt_chars n) (fmt_chars m) hd hu h).2 (by decide)
  · exact absurd (append_split (fmt_chars n) (fmt_chars m) hu hd h).2 (by decide)
  · exact ⟨fmt_injective (append_split (fmt_chars n) (fmt_chars m) hu hu h).1, rfl⟩

/-! ### encoding a container -/

variable {V M T : Type}

theorem get?_append_mid {κ ν : Type} [DecidableEq κ] (A B : Dict κ ν) (k : κ) (v : ν)
    (h : Dict.WF (A ++ (k, v) :: B)) :
    Dict.get? (A ++ (k, v) :: B) k = some v ∧ Dict.del (A ++ (k, v) :: B) k = A ++ B := by
  refine ⟨Dict.get?_of_mem h (by simp), ?_⟩
  simp only [Dict.WF, List.map_append, List.map_cons, List.nodup_append, List.nodup_cons] at h
  simp only [Dict.del, List.filter_append, List.filter_cons]
  simp only [ne_eq, not_true_eq_false, decide_false, Bool.false_eq_true, if_false]
  congr 1
  · rw [List.filter_eq_self]
    intro p hp
    have := h.2.2 p.1 (List.mem_map_of_mem hp) k (by simp)
    simpa using this
  · rw [List.filter_eq_self]
    intro p hp
    simp only [decide_eq_true_eq]
    intro e; exact h.2.1.1 (List.mem_map.2 ⟨p, hp, e⟩)

theorem foldl_set (mb : Dict String M) (d : Data V M T)
    (h : Dict.WF (d ++ mb.map (fun p => (p.1, Cell.mbval (V := V) (T := T) p.2)))) :
    mb.foldl (fun d p => d.set p.1 (.mbval p.2)) d = d ++ mb.map (fun p => (p.1, Cell.mbval p.2)) := by
  induction mb generalizing d with
  | nil => simp
  | cons p mb ih =>
    simp only [List.foldl_cons, List.map_cons]
    have hn : d.get? p.1 = none := by
      rw [Dict.get?_eq_none_iff]
      intro hm
      simp only [Dict.WF, List.map_append, List.map_cons, List.nodup_append] at h
      exact h.2.2 p.1 hm p.1 (by simp) rfl
    rw [Dict.set_eq_append hn, ih]
    · simp
    · simpa using h

theorem popAll_mb (A : Data V M T) (mb : Dict String M)
    (h : Dict.WF (A ++ mb.map (fun p => (p.1, Cell.mbval (V := V) (T := T) p.2)))) :
    popAll (A ++ mb.map (fun p => (p.1, Cell.mbval p.2))) (mb.map Prod.fst) = .ok (A, mb) := by
  induction mb with
  | nil => simp [popAll]
  | cons p mb ih =>
    simp only [List.map_cons, popAll]
    simp only [List.map_cons] at h
    have := get?_append_mid A _ _ _ h
    rw [this.1, this.2]
    have hw : Dict.WF (A ++ mb.map (fun p => (p.1, Cell.mbval (V := V) (T := T) p.2))) := by
      simp only [Dict.WF, List.map_append, List.map_cons, List.nodup_append, List.nodup_cons] at h ⊢
      exact ⟨h.1, h.2.1.2, fun a ha b hb => h.2.2 a ha b (List.mem_cons_of_mem _ hb)⟩
    simp only [ih hw]

/-- no name is used twice in the stored dict: neither by an array and a mass-balance entry nor for the two reserved
names -/
structure Clean (sc : SC V M T) : Prop where
  wf : ((sc.arrays.map Prod.fst) ++ (sc.mb.map Prod.fst)).Nodup
  res : ∀ k ∈ (sc.arrays.map Prod.fst) ++ (sc.mb.map Prod.fst), k ≠ "mass_balance" ∧ k ≠ "current_time_stamp"

/-- the container a user expects back -/
def asLoaded (sc : SC V M T) : Loaded V M T := ⟨sc.arrays.map (fun p => (p.1, Cell.arr p.2)), sc.mb, sc.stamp⟩

/-- the cells of the arrays and of the mass balance -/
def cells (sc : SC V M T) : Data V M T :=
  (sc.arrays.map (fun p => (p.1, Cell.arr p.2)) : Data V M T) ++
    if sc.mb.isEmpty then [] else
      ("mass_balance", Cell.keys (sc.mb.map Prod.fst)) :: sc.mb.map (fun p => (p.1, Cell.mbval p.2))

theorem keys_arr (sc : SC V M T) :
    (sc.arrays.map (fun p => (p.1, Cell.arr (M := M) (T := T) p.2))).map Prod.fst = sc.arrays.map Prod.fst := by
  simp [Function.comp_def]

theorem keys_mb (mb : Dict String M) :
    (mb.map (fun p => (p.1, Cell.mbval (V := V) (T := T) p.2))).map Prod.fst = mb.map Prod.fst := by
  simp [Function.comp_def]

theorem cells_wf {sc : SC V M T} (h : Clean sc) : Dict.WF (cells sc) := by
  unfold Dict.WF cells
  have h1 := h.wf
  split
  · rw [List.append_nil, keys_arr]
    exact (List.nodup_append.1 h1).1
  · rw [List.map_append, keys_arr, List.map_cons, keys_mb]
    rw [List.nodup_append] at h1 ⊢
    refine ⟨h1.1, List.nodup_cons.2 ⟨?_, h1.2.1⟩, ?_⟩
    · intro hm; exact (h.res _ (List.mem_append_right _ hm)).1 rfl
    · intro a ha b hb
      rcases List.mem_cons.1 hb with rfl | hb
      · exact (h.res a (List.mem_append_left _ ha)).1
      · exact h1.2.2 a ha b hb

theorem cells_stamp {sc : SC V M T} (h : Clean sc) : (cells sc).get? "current_time_stamp" = none := by
  rw [Dict.get?_eq_none_iff]
  unfold cells
  split
  · rw [List.append_nil, keys_arr]
    intro hm; exact (h.res _ (List.mem_append_left _ hm)).2 rfl
  · rw [List.map_append, keys_arr, List.map_cons, keys_mb]
    intro hm
    rcases List.mem_append.1 hm with hm | hm
    · exact (h.res _ (List.mem_append_left _ hm)).2 rfl
    · rcases List.mem_cons.1 hm with hm | hm
      · simp at hm
      · exact (h.res _ (List.mem_append_right _ hm)).2 rfl

theorem setWeathering_eq {sc : SC V M T} (h : Clean sc) :
    setWeathering sc (sc.arrays.map (fun p => (p.1, Cell.arr p.2))) = cells sc := by
  have hw := cells_wf h
  unfold setWeathering cells at *
  split
  · simp
  · rename_i hm
    simp only [hm, Bool.false_eq_true, if_false] at hw
    have hn : Dict.get? (sc.arrays.map (fun p => (p.1, Cell.arr (M := M) (T := T) p.2))) "mass_balance" = none := by
      rw [Dict.get?_eq_none_iff, keys_arr]
      intro hk; exact (h.res _ (List.mem_append_left _ hk)).1 rfl
    rw [Dict.set_eq_append hn, foldl_set]
    · simp
    · simpa using hw

theorem encode_eq {sc : SC V M T} (h : Clean sc) :
    encode sc = cells sc ++ (match sc.stamp with | some t => [("current_time_stamp", Cell.stamp t)] | none => []) := by
  unfold encode
  rw [setWeathering_eq h]
  cases sc.stamp with
  | none => simp
  | some t => simp only [Dict.set_eq_append (cells_stamp h)]

theorem wf_append_stamp {sc : SC V M T} (h : Clean sc) (t : T) :
    Dict.WF (cells sc ++ ("current_time_stamp", Cell.stamp t) :: ([] : Data V M T)) := by
  have := Dict.WF.set (cells_wf h) "current_time_stamp" (Cell.stamp t)
  rwa [Dict.set_eq_append (cells_stamp h)] at this

/-- decoding the cells of a clean container -/
theorem decode_cells {sc : SC V M T} (h : Clean sc) (st : Option T) :
    (match (cells sc).get? "mass_balance" with
    | none => Except.ok (⟨cells sc, [], st⟩ : Loaded V M T)
    | some (.keys ks) =>
      match popAll ((cells sc).del "mass_balance") ks with
      | .ok (d', mb) => .ok ⟨d', mb, st⟩
      | .error e => .error e
    | some _ => .error Err.other) =
    Except.ok ⟨sc.arrays.map (fun p => (p.1, Cell.arr p.2)), sc.mb, st⟩ := by
  have hw := cells_wf h
  by_cases hm : sc.mb.isEmpty
  · have he : cells sc = sc.arrays.map (fun p => (p.1, Cell.arr p.2)) := by simp [cells, hm]
    have hmb : sc.mb = [] := by simpa using hm
    have hn : (cells sc).get? "mass_balance" = none := by
      rw [he, Dict.get?_eq_none_iff, keys_arr]
      intro hk; exact (h.res _ (List.mem_append_left _ hk)).1 rfl
    rw [hn, he, hmb]
  · have he : cells sc = (sc.arrays.map (fun p => (p.1, Cell.arr p.2)) : Data V M T) ++
      ("mass_balance", Cell.keys (sc.mb.map Prod.fst)) :: sc.mb.map (fun p => (p.1, Cell.mbval p.2)) := by
      simp [cells, hm]
    rw [he] at hw ⊢
    have h1 := get?_append_mid _ _ _ _ hw
    rw [h1.1, h1.2]
    have hw' : Dict.WF ((sc.arrays.map (fun p => (p.1, Cell.arr p.2)) : Data V M T) ++
        sc.mb.map (fun p => (p.1, Cell.mbval p.2))) := by
      have := Dict.WF.del hw "mass_balance"
      rwa [h1.2] at this
    simp only [popAll_mb _ _ hw']

theorem decode_encode {sc : SC V M T} (h : Clean sc) : decode (encode sc) = .ok (asLoaded sc) := by
  rw [encode_eq h]
  unfold decode asLoaded
  cases hs : sc.stamp with
  | none =>
    simp only [List.append_nil, cells_stamp h]
    exact decode_cells h none
  | some t =>
    have h1 := get?_append_mid _ _ _ _ (wf_append_stamp h t)
    simp only [h1.1, h1.2, List.append_nil]
    exact decode_cells h (some t)

theorem encode_stamp {sc : SC V M T} (h : Clean sc) :
    ((encode sc).get? "current_time_stamp").isSome = sc.stamp.isSome := by
  rw [encode_eq h]
  cases hs : sc.stamp with
  | none => simp [cells_stamp h]
  | some t => simp [(get?_append_mid _ _ _ _ (wf_append_stamp h t)).1]

end Verif.Cache
