import Verif.Props.Main

/-! C31, C32, C66: which files the program reads. -/

namespace SatSky.Props

open SatSky Spec Dates GetEl Opts Sky Prog

/-- The TLE directory: `-D`, or the default one with `-T`. -/
def tleDir (p : Params) : CString := if p.defDir then b!"/usr/local/TLErepo" else p.tlePath

/-- `a` is the file argument: the first argument and not an option, or the last one when the first is
an option. -/
def FileArgument (argv : List CString) (a : CString) : Prop :=
  (∃ prog opts, argv = prog :: a :: opts ∧ a.head? ≠ some 45) ∨
  (∃ prog o opts, argv = prog :: (45 :: o) :: opts ++ [a])

theorem fileIndex_arg {argv : List CString} {a : CString} (h : FileArgument argv a) :
    argv.getD (fileIndex argv) [] = a ∧ 2 ≤ argv.length := by
  rcases h with ⟨prog, opts, rfl, h⟩ | ⟨prog, o, opts, rfl⟩
  · refine ⟨?_, by simp⟩
    unfold fileIndex
    rw [if_neg (by simpa using h)]
    rfl
  · refine ⟨?_, by simp⟩
    unfold fileIndex
    rw [if_pos (by simp)]
    simp

theorem afterLoop_dir {p p' : Params} (h : afterLoop p = .ok p') : p'.tlePath = tleDir p := by
  unfold afterLoop at h
  unfold tleDir
  by_cases hd : p.defDir
  · simp only [if_pos hd] at h ⊢
    split at h
    · simp only [Res.ok.injEq] at h; rw [← h]
    · simp at h
  · simp only [if_neg hd] at h ⊢
    split at h
    · simp only [Res.ok.injEq] at h; rw [← h]
    · simp at h

theorem scanFiles_congr (W : World) (f' : CString → Option CString) (p : Params) (argv : List CString) (il : Bool)
    (name : CString) (paths : List CString) (h : ∀ x ∈ paths, W.file x = f' x) :
    scanFiles W p argv il name paths = scanFiles { W with file := f' } p argv il name paths := by
  have hm : paths.map (fun f => (f, W.file f)) = paths.map (fun f => (f, f' f)) :=
    List.map_congr_left (fun x hx => by rw [h x hx])
  unfold scanFiles
  simp only [hm]
  rfl

/-- Two worlds in which the options are read alike and the computations have the same outcome. -/
theorem Runs_congr (W : World) (f' : CString → Option CString) (argv : List CString)
    (h : ∀ p p', Parses W.L argv p → afterLoop p = .ok p' → compute W argv p' = compute { W with file := f' } argv p')
    (o : Outcome) : Runs W argv o → Runs { W with file := f' } argv o := by
  unfold Runs
  split
  · exact id
  · rintro ⟨n, hn⟩
    refine ⟨n, ?_⟩
    rw [← hn]
    change conclude { W with file := f' } argv (steps W.L argv n init) = _
    cases hs : steps W.L argv n init with
    | run s => rfl
    | ub => rfl
    | stop e => cases e <;> rfl
    | done p =>
      cases ha : afterLoop p with
      | ok p' =>
        simp only [conclude, ha]
        rw [h p p' ⟨n, hs⟩ ha]
      | stop e => cases e <;> simp [conclude, ha]
      | ub => simp [conclude, ha]

/-! ### C31, C66 -/

/-- **C66** (single file).  The program depends on the contents of the file system only through the file
named by the first argument — or the last one, if the first is an option — which is taken literally if
the name contains a slash and from the TLE directory otherwise: any two worlds that agree on that one
file have the same outcomes. -/
theorem C66_single_file (W : World) (f' : CString → Option CString) (argv : List CString) (a : CString)
    (ha : FileArgument argv a) (h64 : a.head? ≠ some 64)
    (hf : ∀ p, Parses W.L argv p → 47 ∈ a ∧ W.file a = f' a ∨ 47 ∉ a ∧ W.file (inDir (tleDir p) a) = f' (inDir (tleDir p) a))
    (o : Outcome) : Runs W argv o → Runs { W with file := f' } argv o := by
  apply Runs_congr
  intro p p' hp hal
  obtain ⟨hi, -⟩ := fileIndex_arg ha
  unfold compute
  simp only [hi, if_neg h64]
  cases hs : singlePath p'.tlePath a with
  | none => rfl
  | some path =>
    simp only []
    apply scanFiles_congr
    intro x hx
    simp only [List.mem_singleton] at hx
    subst hx
    unfold singlePath at hs
    simp only [afterLoop_dir hal] at hs
    generalize hg : (if 47 ∈ a then a else tleDir p ++ 47 :: a) = path' at hs
    by_cases hfit : fits 200 path'
    · rw [if_pos hfit] at hs
      simp only [Option.some.injEq] at hs
      subst hs
      subst hg
      rcases hf p hp with ⟨h47, hf⟩ | ⟨h47, hf⟩
      · rw [if_pos h47]; exact hf
      · rw [if_neg h47]; simpa [inDir] using hf
    · rw [if_neg hfit] at hs
      simp at hs

/-- **C31** (partial).  The single file, first or last argument, is the name itself if it contains a slash
and otherwise the name in the TLE directory: if that file cannot be opened, the program says so.  (Missing:
lists, see `C31_list_slash_violated`.) -/
theorem C31_single_partial (W : World) (argv : List CString) (a : CString) (ha : FileArgument argv a)
    (h64 : a.head? ≠ some 64) (p : Params) (hp : Parses W.L argv p) (hg : p.inGeopos = true)
    (path : CString) (hpath : path = if 47 ∈ a then a else inDir (tleDir p) a) (hnone : W.file path = none)
    (hlen : path.length ≤ 101) :
    ∃ out, Runs W argv (.exit 2 out) ∧ NumberMember out b!"status" b!"2" ∧
      StringMember out b!"errmsg" (b!"Could not open input file " ++ path) := by
  obtain ⟨hi, hargc⟩ := fileIndex_arg ha
  obtain ⟨n, hn⟩ := hp
  obtain ⟨p', hal⟩ : ∃ p', afterLoop p = .ok p' := by
    unfold afterLoop
    by_cases hd : p.defDir
    · simp only [if_pos hd, hg, if_true]; exact ⟨_, rfl⟩
    · simp only [if_neg hd, hg, if_true]; exact ⟨_, rfl⟩
  have hsp : singlePath p'.tlePath a = some path := by
    unfold singlePath
    simp only [afterLoop_dir hal]
    have : (if 47 ∈ a then a else tleDir p ++ 47 :: a) = path := by
      rw [hpath]; split
      · rfl
      · simp [inDir]
    rw [this, if_pos (by unfold fits; omega)]
  have hc : compute W argv p' = .exit 2 (openJson ++ preamble W p' a ++ [] ++
      closeJson argv false 2 (b!"Could not open input file " ++ path) 0 0 0) := by
    unfold compute
    simp only [hi, if_neg h64, hsp]
    unfold scanFiles
    simp only [List.map_cons, List.map_nil, hnone, filesLoop]
    rw [if_pos (by unfold fits; simp only [List.length_append, List.length_cons, List.length_nil]; omega)]
    rfl
  refine ⟨openJson ++ preamble W p' a ++ [] ++ closeJson argv false 2 (b!"Could not open input file " ++ path) 0 0 0,
    ?_, ?_, ?_⟩
  · unfold Runs
    rw [if_neg (by omega)]
    refine ⟨n, ?_⟩
    rw [hn]
    simp only [conclude, hal, hc]
  · have h2 : intText 2 = b!"2" := by decide +kernel
    rw [← h2]
    exact (StringMember.closeErr argv false 2 _ 0 0 0).2.trans (List.suffix_append _ _).isInfix
  · exact (StringMember.closeErr argv false 2 _ 0 0 0).1.trans (List.suffix_append _ _).isInfix

/-- **C66** (list).  With `@name` the program depends on the file system only through the list
`dir/name` and the files of its rows. -/
theorem C66_list_files (W : World) (f' : CString → Option CString) (argv : List CString) (name : CString)
    (ha : FileArgument argv (64 :: name))
    (hl : ∀ p, Parses W.L argv p → W.file (inDir (tleDir p) name) = f' (inDir (tleDir p) name))
    (hf : ∀ p content, Parses W.L argv p → W.file (inDir (tleDir p) name) = some content →
      ∀ x ∈ listPaths (tleDir p) content, W.file x = f' x)
    (o : Outcome) : Runs W argv o → Runs { W with file := f' } argv o := by
  apply Runs_congr
  intro p p' hp hal
  obtain ⟨hi, -⟩ := fileIndex_arg ha
  have hin : ∀ d, d ++ 47 :: name = inDir d name := fun d => by simp [inDir]
  unfold compute
  simp only [hi, List.head?_cons, if_true, List.drop_succ_cons, List.drop_zero, afterLoop_dir hal, hin]
  split
  · rw [← hl p hp]
    cases hc : W.file (inDir (tleDir p) name) with
    | none => rfl
    | some content =>
      simp only []
      exact scanFiles_congr _ _ _ _ _ _ _ (hf p content hp hc)
  · rfl

/-- **C31**: a list given with its own directory is still looked up below the TLE directory: for
`@/tmp/x` the file `./` + `/tmp/x` is opened, although `/tmp/x` exists. -/
theorem C31_list_slash_violated : ∃ W code out, Runs W [b!"sat_skymap", b!"@/tmp/x", b!"-l0,0,0"] (.exit code out) ∧
    W.file b!"/tmp/x" = some b!"#\n" ∧ code = 2 ∧ StringMember out b!"errmsg" b!"Could not open input file .//tmp/x" := by
  obtain ⟨c, o, h1, h2⟩ := runs_of_check (W := world0 [(b!"/tmp/x", b!"#\n")])
    (argv := [b!"sat_skymap", b!"@/tmp/x", b!"-l0,0,0"]) (n := 4)
    (P := fun c o => decide (c = 2 ∧ StringMember o b!"errmsg" b!"Could not open input file .//tmp/x")) (by decide +kernel)
  exact ⟨_, c, o, h1, by decide +kernel, of_decide_eq_true h2⟩

example : FileArgument [b!"sat_skymap", b!"-l0,0,0", b!"-H", b!"f"] b!"f" :=
  Or.inr ⟨b!"sat_skymap", b!"l0,0,0", [b!"-H"], rfl⟩

example : FileArgument [b!"sat_skymap", b!"dir/f", b!"-l0,0,0"] b!"dir/f" :=
  Or.inl ⟨b!"sat_skymap", [b!"-l0,0,0"], rfl, by decide⟩

/-! ### C32 -/

/-- A row the buffer can hold: at most 63 characters, all of them printable ASCII. -/
def RowOk (r : CString) : Prop := r.length ≤ 63 ∧ ∀ c ∈ r, 32 ≤ c

theorem rowsFrom_append (t acc rest : CString) (h : 10 ∉ t) : rowsFrom acc (t ++ rest) = rowsFrom (acc ++ t) rest := by
  induction t generalizing acc with
  | nil => simp
  | cons c t ih =>
    simp only [List.mem_cons, not_or] at h
    simp only [List.cons_append, rowsFrom, if_neg (Ne.symm h.1)]
    rw [ih _ h.2]
    simp

/-- The first row of a text. -/
theorem rows_split (s : CString) :
    (∃ t rest, 10 ∉ t ∧ s = t ++ 10 :: rest ∧ rows s = t :: rows rest) ∨
    (10 ∉ s ∧ rows s = if s = [] then [] else [s]) := by
  by_cases h : 10 ∈ s
  · left
    obtain ⟨t, rest, rfl, ht⟩ : ∃ t rest, s = t ++ 10 :: rest ∧ 10 ∉ t := by
      induction s with
      | nil => simp at h
      | cons c s ih =>
        by_cases hc : c = 10
        · exact ⟨[], s, by simp [hc], by simp⟩
        · obtain ⟨t, rest, hs, ht⟩ := ih (by simpa [Ne.symm hc] using h)
          exact ⟨c :: t, rest, by rw [hs]; rfl, by simp [Ne.symm hc, ht]⟩
    refine ⟨t, rest, ht, rfl, ?_⟩
    unfold rows
    rw [rowsFrom_append _ _ _ ht]
    simp [rowsFrom]
  · right
    refine ⟨h, ?_⟩
    unfold rows
    have := rowsFrom_append s [] [] h
    rw [List.append_nil] at this
    rw [this]
    simp [rowsFrom]

theorem rowPath_full (dir t : CString) (h : t.head? ≠ some 35) :
    rowPath dir (t ++ [10]) = if t = [] then none else some (inDir dir t) := by
  unfold rowPath
  have h1 : (t ++ [10]).head? ≠ some 35 := by
    cases t with
    | nil => simp
    | cons c t => simpa using h
  rw [if_neg h1]
  simp [inDir]

theorem rowPath_comment (dir t : CString) : rowPath dir (35 :: t) = none := by
  unfold rowPath; simp

theorem rowPath_open (dir t : CString) (h : t.head? ≠ some 35) (hne : t ≠ []) (h32 : ∀ c ∈ t, 32 ≤ c) :
    rowPath dir t = some (inDir dir t) := by
  unfold rowPath
  rw [if_neg h]
  have : ¬ (t.getLastD 0 < 32) := by
    rw [List.getLastD_eq_getLast?, List.getLast?_eq_some_getLast hne]
    have := h32 _ (List.getLast_mem hne)
    simpa using this
  simp only [if_neg this, if_neg hne]
  simp [inDir]

theorem listGo (dir : CString) (k : Nat) (s : CString) (hk : s.length ≤ k) (hr : ∀ r ∈ rows s, RowOk r) :
    (linesGo 64 k s).filterMap (rowPath dir) = ((rows s).filter namesFile).map (inDir dir) := by
  induction k using Nat.strong_induction_on generalizing s with
  | _ k ih =>
  cases s with
  | nil => cases k <;> simp [linesGo, fgets, rows, rowsFrom]
  | cons c0 s0 =>
    generalize hs : c0 :: s0 = s at *
    have hne : s ≠ [] := by rw [← hs]; simp
    cases k with
    | zero => rw [← hs] at hk; simp at hk
    | succ k =>
      have hfg : fgets 64 s = some (takeLine 63 s) := by rw [← hs]; rfl
      rw [linesGo, hfg]
      rcases rows_split s with ⟨t, rest, ht, hst, hrows⟩ | ⟨h10, hrows⟩
      · have hok := hr t (by rw [hrows]; simp)
        have hrest : ∀ r ∈ rows rest, RowOk r := fun r hm => hr r (by rw [hrows]; simp [hm])
        by_cases hlen : t.length ≤ 62
        · rw [hst, takeLine_full t ht 63 (by omega) rest]
          rw [← hst, hrows]
          simp only [List.filterMap_cons]
          rw [ih k (by omega) rest (by rw [hst] at hk; simp at hk; omega) hrest]
          by_cases h35 : t.head? = some 35
          · match t, h35 with
            | c :: t, h35 =>
              simp only [List.head?_cons, Option.some.injEq] at h35
              subst h35
              rw [List.cons_append, rowPath_comment]
              simp [namesFile]
          · rw [rowPath_full dir t h35]
            by_cases htn : t = []
            · subst htn; simp [namesFile]
            · rw [if_neg htn]
              rw [List.filter_cons_of_pos (by simp [namesFile, htn, h35])]
              rfl
        · have h63 : t.length = 63 := by have := hok.1; omega
          -- 63 characters: the newline is read as a row of its own
          have htl : takeLine 63 s = (t, 10 :: rest) := by
            rw [hst]
            have gen : ∀ (t : CString) (n : Nat), 10 ∉ t → t.length = n → takeLine n (t ++ 10 :: rest) = (t, 10 :: rest) := by
              intro t
              induction t with
              | nil => intro n _ hn; subst hn; rfl
              | cons c t ih2 =>
                intro n h hn
                simp only [List.mem_cons, not_or] at h
                subst hn
                simp only [List.cons_append, List.length_cons, takeLine, if_neg (Ne.symm h.1), ih2 _ h.2 rfl]
            exact gen t 63 ht h63
          rw [htl]
          simp only []
          have hlen' : s.length = 64 + rest.length := by rw [hst]; simp [h63]; omega
          cases k with
          | zero => omega
          | succ k =>
            have hfg2 : fgets 64 (10 :: rest) = some ([10], rest) := rfl
            rw [linesGo, hfg2]
            simp only [List.filterMap_cons]
            rw [ih k (by omega) rest (by omega) hrest, hrows]
            have hnl : rowPath dir [10] = none := by
              have := rowPath_full dir [] (by simp)
              simpa using this
            rw [hnl]
            have htn : t ≠ [] := by rintro rfl; simp at h63
            by_cases h35 : t.head? = some 35
            · match t, h35 with
              | c :: t, h35 =>
                simp only [List.head?_cons, Option.some.injEq] at h35
                subst h35
                rw [rowPath_comment]
                simp [namesFile]
            · rw [rowPath_open dir t h35 htn hok.2]
              rw [List.filter_cons_of_pos (by simp [namesFile, htn, h35])]
              rfl
      · rw [if_neg hne] at hrows
        have hok := hr s (by rw [hrows]; simp)
        rw [takeLine_open s h10 63 hok.1]
        simp only [List.filterMap_cons]
        have : linesGo 64 k [] = [] := by cases k <;> simp [linesGo, fgets]
        rw [this, hrows]
        by_cases h35 : s.head? = some 35
        · match s, h35 with
          | c :: t, h35 =>
            simp only [List.head?_cons, Option.some.injEq] at h35
            subst h35
            rw [rowPath_comment]
            simp [namesFile]
        · rw [rowPath_open dir s h35 hne hok.2]
          rw [List.filter_cons_of_pos (by simp [namesFile, hne, h35])]
          rfl

/-- **C32** (partial).  For any list file, with any number of rows, whose rows have at most 63 printable
ASCII characters (with or without a newline after the last), the files opened are exactly the rows that
are neither empty nor comments, in order, each in the TLE directory.  (Missing: CRLF line ends, longer
rows; see the violations.) -/
theorem C32_rows_partial (dir content : CString) (h : ∀ r ∈ rows content, RowOk r) :
    listPaths dir content = ((rows content).filter namesFile).map (inDir dir) :=
  listGo dir content.length content le_rfl h

/-- **C32** (partial, whole program).  With `@name` the program runs the reading loop on these files, in
this order. -/
theorem C32_reads_rows_partial (W : World) (argv : List CString) (name content : CString) (ha : FileArgument argv (64 :: name))
    (p p' : Params) (hp : Parses W.L argv p) (hal : afterLoop p = .ok p')
    (hc : W.file (inDir (tleDir p) name) = some content) (hlen : (inDir (tleDir p) name).length ≤ 199)
    (h : ∀ r ∈ rows content, RowOk r) :
    Runs W argv (scanFiles W p' (argv.set (fileIndex argv) name) true name
      (((rows content).filter namesFile).map (inDir (tleDir p)))) := by
  obtain ⟨hi, hargc⟩ := fileIndex_arg ha
  obtain ⟨n, hn⟩ := hp
  have hin : ∀ d, d ++ 47 :: name = inDir d name := fun d => by simp [inDir]
  unfold Runs
  rw [if_neg (by omega)]
  refine ⟨n, ?_⟩
  rw [hn]
  simp only [conclude, hal]
  unfold compute
  simp only [hi, List.head?_cons, if_true, List.drop_succ_cons, List.drop_zero, afterLoop_dir hal, hin, hc]
  rw [if_pos (by unfold fits; omega), C32_rows_partial _ _ h]

/-- **C32** fails for lists with CRLF line ends: the carriage return stays in the name. -/
theorem C32_crlf_violated (dir : CString) : listPaths dir b!"a.tle\r\n" = [dir ++ b!"/a.tle\r"] := by
  rfl

/-- **C32** fails for comments longer than 63 characters: their tail is taken as a file name. -/
theorem C32_long_comment_violated (dir : CString) (t : CString) (h : t.length = 62) (h10 : 10 ∉ t) (c : CChar)
    (hc : c ≠ 35) (h32 : 32 ≤ c) : listPaths dir (35 :: t ++ [c]) = [dir ++ [47, c]] := by
  have hc10 : c ≠ 10 := by omega
  have hlen : (35 :: t ++ [c]).length = 64 := by simp [h]
  have gen : ∀ (t : CString) (n : Nat), 10 ∉ t → t.length = n → takeLine n (t ++ [c]) = (t, [c]) := by
    intro t
    induction t with
    | nil => intro n _ hn; subst hn; rfl
    | cons x t ih =>
      intro n h hn
      simp only [List.mem_cons, not_or] at h
      subst hn
      simp only [List.cons_append, List.length_cons, takeLine, if_neg (Ne.symm h.1), ih _ h.2 rfl]
  have h1 : fgets 64 (35 :: t ++ [c]) = some (35 :: t, [c]) := by
    have := gen (35 :: t) 63 (by simp [h10]) (by simp [h])
    simpa [fgets] using this
  have h2 : fgets 64 [c] = some ([c], []) := by
    simp [fgets, takeLine, hc10]
  unfold listPaths fileLines
  rw [hlen, linesGo, h1]
  simp only []
  rw [linesGo, h2]
  simp only []
  have : linesGo 64 62 [] = [] := rfl
  rw [this]
  simp only [List.filterMap_cons, List.filterMap_nil, rowPath_comment]
  rw [rowPath_open dir [c] (by simpa using hc) (by simp) (by simpa using h32)]
  simp [inDir]

example : listPaths b!"d" b!"# list\nstations.txt\n\nstarlink.tle" = [b!"d/stations.txt", b!"d/starlink.tle"] := by
  decide +kernel

example : ∀ r ∈ rows b!"# list\nstations.txt\n\nstarlink.tle", RowOk r := by
  unfold RowOk; decide +kernel

end SatSky.Props
