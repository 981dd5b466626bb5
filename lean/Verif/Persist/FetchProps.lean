import Verif.Persist.FetchModel
import Mathlib.Data.List.TakeWhile
/-!
# C312: a data file that was fetched is the file of the server
-/
namespace Verif.Persist.Fetch

/-- What a server has, by the name asked for. -/
abbrev Server := String → Option Bytes

/-- A connection to a server: it refuses what the server has not; otherwise the pieces, put together, are the beginning of the file, and its length is announced. -/
def Honest (s : Server) (net : String → Conn) : Prop :=
  ∀ n, match s n with
    | none => net n = .refused
    | some b => net n = .refused ∨ ∃ ps, net n = .opened (some b.length) ps ∧ (ps.filterMap id).flatten <+: b

/-- it does not break off: the whole file comes, in pieces of any size but 0 -/
def Whole (s : Server) (net : String → Conn) : Prop :=
  ∀ n b ps, s n = some b → net n = .opened (some b.length) ps → (∃ qs : List Bytes, ps = qs.map some ∧ [] ∉ qs ∧ qs.flatten = b)

/-- The claim: what is at the name handed back is what was there before, or the file of the server; when an error is raised nothing has been left behind. -/
def C312_claim : Prop := ∀ (s : Server) (net : String → Conn) (filename subdir : String) (d : Disk), Honest s net →
  match getDatafile net filename subdir d with
  | (.name p, d') => p = filename ∧ ((d filename).isSome ∧ d' = d ∨ ∃ b, s (serverDir subdir ++ baseName filename) = some b ∧ d' = d.put filename b)
  | (.raised, d') => d' = d

theorem loop_whole : ∀ (qs : List Bytes) (acc : Bytes), [] ∉ qs → loop (qs.map some) acc = (acc ++ qs.flatten, true)
  | [], acc, _ => by simp [loop]
  | q :: qs, acc, h => by
    have hq : q ≠ [] := fun e => h (e ▸ List.mem_cons_self)
    obtain ⟨x, xs, rfl⟩ := List.exists_cons_of_ne_nil hq
    rw [List.map_cons, loop, loop_whole qs _ fun e => h (List.mem_cons_of_mem _ e), List.flatten_cons, List.append_assoc]
    exact hq

/-- C312, for connections that do not break off (what is missing: those that do, `C312_counterexample`). -/
theorem C312_partial (s : Server) (net : String → Conn) (filename subdir : String) (d : Disk) (h : Honest s net) (hw : Whole s net) :
    match getDatafile net filename subdir d with
    | (.name p, d') => p = filename ∧ ((d filename).isSome ∧ d' = d ∨ ∃ b, s (serverDir subdir ++ baseName filename) = some b ∧ d' = d.put filename b)
    | (.raised, d') => d' = d := by
  unfold getDatafile
  by_cases hd : (d filename).isSome
  · rw [if_pos hd]
    exact ⟨rfl, Or.inl ⟨hd, rfl⟩⟩
  · rw [if_neg hd]
    have hn := h (serverDir subdir ++ baseName filename)
    cases hs : s (serverDir subdir ++ baseName filename) with
    | none =>
      rw [hs] at hn
      simp only at hn
      rw [hn]
    | some b =>
      rw [hs] at hn
      simp only at hn
      rcases hn with hn | ⟨ps, hn, _⟩
      · rw [hn]
      · obtain ⟨qs, rfl, hq, rfl⟩ := hw _ _ _ hs hn
        rw [hn]
        simp only [loop_whole qs [] hq, List.nil_append, if_true]
        exact ⟨trivial, Or.inr ⟨_, rfl, rfl⟩⟩

/-- C312. A file that is there is kept as it is, and the server is not asked. -/
theorem C312_kept (net net' : String → Conn) (filename subdir : String) (d : Disk) (h : (d filename).isSome) :
    getDatafile net filename subdir d = (.name filename, d) ∧ getDatafile net' filename subdir d = getDatafile net filename subdir d := by
  unfold getDatafile
  rw [if_pos h, if_pos h]
  exact ⟨rfl, rfl⟩

/-- C312. No other file is touched, whatever happens. -/
theorem C312_others (net : String → Conn) (filename subdir : String) (d : Disk) (p : String) (hp : p ≠ filename) : (getDatafile net filename subdir d).2 p = d p := by
  unfold getDatafile
  split
  · rfl
  · split
    · rfl
    · rfl
    · simp only [Disk.put, if_neg hp]

/-- C312. What a connection that breaks off leaves behind is taken for the file from then on, by every later call and however good the connection. -/
theorem C312_broken (net net' : String → Conn) (filename subdir subdir' : String) (d : Disk) (n : Nat) (qs : List Bytes) (rest : List (Option Bytes)) (hd : d filename = none)
    (hq : [] ∉ qs) (hn : net (serverDir subdir ++ baseName filename) = .opened (some n) (qs.map some ++ none :: rest)) :
    (getDatafile net filename subdir d).1 = .raised ∧
      getDatafile net' filename subdir' (getDatafile net filename subdir d).2 = (.name filename, d.put filename qs.flatten) := by
  have hl : ∀ (qs : List Bytes) (acc : Bytes), [] ∉ qs → loop (qs.map some ++ none :: rest) acc = (acc ++ qs.flatten, false) := by
    intro qs
    induction qs with
    | nil => intro acc _; simp [loop]
    | cons q qs ih =>
      intro acc h
      have hq : q ≠ [] := fun e => h (e ▸ List.mem_cons_self)
      obtain ⟨x, xs, rfl⟩ := List.exists_cons_of_ne_nil hq
      rw [List.map_cons, List.cons_append, loop, ih _ fun e => h (List.mem_cons_of_mem _ e), List.flatten_cons, List.append_assoc]
      exact hq
  have hg : getDatafile net filename subdir d = (.raised, d.put filename qs.flatten) := by
    unfold getDatafile
    rw [hd, hn]
    simp [hl qs [] hq]
  rw [hg]
  refine ⟨rfl, ?_⟩
  have : ((d.put filename qs.flatten) filename).isSome := by simp [Disk.put]
  exact (C312_kept net' net' filename subdir' _ this).1

/-- C312 fails: the connection is closed after the first of two bytes, and half of the file is handed back as the file. -/
theorem C312_counterexample : ¬ C312_claim := by
  intro h
  have := h (fun _ => some [1, 2]) (fun _ => .opened (some 2) [some [1]]) "a" "" (fun _ => none) (fun n => Or.inr ⟨_, rfl, by decide⟩)
  have hg : getDatafile (fun _ => .opened (some 2) [some [1]]) "a" "" (fun _ => none) = (.name "a", Disk.put (fun _ => none) "a" [1]) := by
    unfold getDatafile
    simp [loop]
  rw [hg] at this
  obtain ⟨_, h | ⟨b, hb, hd⟩⟩ := this
  · exact absurd h.1 (by simp)
  · have h1 := congrFun hd "a"
    simp only [Disk.put, if_true] at h1
    rw [← Option.some.inj hb] at h1
    exact absurd h1 (by decide)

/-- A folder of the server may be given with or without a slash. -/
theorem C312_slash (subdir : String) (hs : subdir ≠ "") (h : subdir.toList.getLast? ≠ some '/') : serverDir (subdir ++ "/") = serverDir subdir := by
  have h1 : serverDir subdir = subdir ++ "/" := by unfold serverDir; rw [if_neg hs, if_neg h]
  rw [h1]
  unfold serverDir
  have hl : (subdir ++ "/").toList = subdir.toList ++ ['/'] := by simp
  rw [if_neg (fun e => by have := congrArg String.toList e; rw [hl] at this; simp at this), if_pos (by rw [hl]; simp)]

/-- A file in a folder here, from a folder there, in two pieces. -/
example : (getDatafile (fun n => if n = "grids/b" then .opened (some 3) [some [1, 2], some [3]] else .refused) "a/b" "grids" (fun _ => none)).1 = .name "a/b" ∧
    (getDatafile (fun n => if n = "grids/b" then .opened (some 3) [some [1, 2], some [3]] else .refused) "a/b" "grids" (fun _ => none)).2 "a/b" = some [1, 2, 3] := by
  decide

/-- C312. The file that is asked for has the name after the last slash, in the folder of the server that was given: the folder where it goes to does not matter. -/
theorem C312_asked (folder name subdir : String) (hn : '/' ∉ name.toList) (hs : subdir ≠ "") (hl : subdir.toList.getLast? ≠ some '/') :
    serverDir subdir ++ baseName (folder ++ "/" ++ name) = subdir ++ "/" ++ name ∧ serverDir "" ++ baseName (folder ++ "/" ++ name) = name ∧ baseName name = name := by
  have key : ∀ l : List Char, (∀ c ∈ l, c ≠ '/') → ∀ r, (l.reverse ++ '/' :: r).takeWhile (· ≠ '/') = l.reverse := by
    intro l hc r
    rw [List.takeWhile_append_of_pos]
    · simp
    · intro c h
      simpa using hc c (List.mem_reverse.1 h)
  have hc : ∀ c ∈ name.toList, c ≠ '/' := fun c h e => hn (e ▸ h)
  have h1 : baseName (folder ++ "/" ++ name) = name := by
    unfold baseName
    rw [String.toList_append, String.toList_append, List.reverse_append, List.reverse_append]
    have : ("/" : String).toList.reverse ++ folder.toList.reverse = '/' :: folder.toList.reverse := rfl
    rw [this, key _ hc, List.reverse_reverse, String.ofList_toList]
  have h2 : baseName name = name := by
    unfold baseName
    have : List.takeWhile (· ≠ '/') name.toList.reverse = name.toList.reverse := by
      rw [List.takeWhile_eq_self_iff]
      intro c h
      simpa using hc c (List.mem_reverse.1 h)
    rw [this, List.reverse_reverse, String.ofList_toList]
  refine ⟨?_, ?_, h2⟩
  · rw [h1]
    unfold serverDir
    rw [if_neg hs, if_neg hl]
  · rw [h1]
    unfold serverDir
    rw [if_pos rfl, String.empty_append]

/-- a name without a slash in a folder of folders -/
example : serverDir "gnome" ++ baseName ("data/currents" ++ "/" ++ "tide.nc") = "gnome" ++ "/" ++ "tide.nc" :=
  (C312_asked "data/currents" "tide.nc" "gnome" (by decide) (by decide) (by decide)).1

end Verif.Persist.Fetch
