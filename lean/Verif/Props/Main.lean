import Verif.Lemmas.MainLemmas
import Verif.Props.Options
import Verif.Props.SkyLoop

/-! C27, C28, C31, C32: what the program answers, and which files it reads. -/

namespace SatSky.Props

open SatSky Spec Dates GetEl Opts Sky Prog

/-- A world for the examples: the files given, everything visible. -/
def world0 (files : List (CString × CString)) : World where
  L := lib0
  file f := (files.find? (fun x => decide (x.1 = f))).map Prod.snd
  nums _ := ⟨[48], [48], [48], [48], [48], [48], [48], [48], [48], [48], [48], [48]⟩
  sun _ := ⟨[48], [48], [48], [48], [48], [48], [48]⟩
  E _ _ := here
  junk := zeros

/-- Checks a run by computation. -/
def runCheck (W : World) (argv : List CString) (n : Nat) (P : ℤ → CString → Bool) : Bool :=
  decide (2 ≤ argv.length) &&
    match conclude W argv (steps W.L argv n init) with
    | some (.exit c o) => P c o
    | _ => false

theorem runs_of_check {W : World} {argv : List CString} {n : Nat} {P : ℤ → CString → Bool}
    (h : runCheck W argv n P = true) : ∃ c o, Runs W argv (.exit c o) ∧ P c o = true := by
  unfold runCheck at h
  simp only [Bool.and_eq_true, decide_eq_true_eq] at h
  obtain ⟨hl, h⟩ := h
  cases hc : conclude W argv (steps W.L argv n init) with
  | none => rw [hc] at h; simp at h
  | some o =>
    rw [hc] at h
    cases o with
    | usage => simp at h
    | ub => simp at h
    | exit c o =>
      refine ⟨c, o, ?_, h⟩
      unfold Runs
      rw [if_neg (by omega)]
      exact ⟨n, hc⟩

/-! ### C27 -/

/-- The list of TLE files is the last of several arguments. -/
def ListLast (argv : List CString) : Prop :=
  (argv.getD 1 []).head? = some 45 ∧ (argv.getLastD []).head? = some 64

instance (argv : List CString) : Decidable (ListLast argv) := by unfold ListLast; infer_instance

theorem getD_last (argv : List CString) (h : argv ≠ []) : argv.getD (argv.length - 1) [] = argv.getLastD [] := by
  rw [List.getLastD_eq_getLast?, List.getLast?_eq_getElem?, List.getD_eq_getElem?_getD]

theorem closeJson_command (argv : List CString) (il : Bool) (st : ℤ) (msg : CString) (a b c : ℤ) :
    StringMember (closeJson argv il st msg a b c) b!"run_command" (command argv il) := by
  refine ⟨[32], b!", \"status\": " ++ intText st
    ++ b!", \"errmsg\": " ++ q msg ++ b!", \"n_sats_found\": " ++ intText a ++ b!", \"n_sats\": " ++ intText b
    ++ b!", \"n_sunlit_sats\": " ++ intText c ++ b!"}\n", ?_⟩
  unfold closeJson q
  simp only [List.cons_append, List.append_assoc, List.nil_append]

theorem StringMember.append_left {out key s : CString} (pre : CString) (h : StringMember out key s) :
    StringMember (pre ++ out) key s := h.trans (List.suffix_append pre out).isInfix

/-- **C27** (partial).  Whatever the arguments and the files: whenever the program answers, the member
`run_command` is the program name and the arguments as given — unless a list of files is the last
argument (`C27_list_last_violated`). -/
theorem C27_run_command_partial (W : World) (argv : List CString) (code : ℤ) (out : CString)
    (h : Runs W argv (.exit code out)) (hl : ¬ ListLast argv) :
    StringMember out b!"run_command" (commandLine (b!"sat_skymap" :: argv.drop 1)) := by
  obtain ⟨pre, argv', il, st, msg, a, b, c, rfl, hcase⟩ := Runs_close h
  apply StringMember.append_left
  have hcmd : command argv' il = commandLine (b!"sat_skymap" :: argv.drop 1) := by
    rw [commandLine_cons]
    rcases hcase with ⟨rfl, rfl⟩ | ⟨name, hlen, ha, rfl, rfl⟩
    · simp [command]
    · have hi : fileIndex argv = 1 := by
        unfold fileIndex at ha ⊢
        split at ha
        · rename_i h45
          exfalso
          apply hl
          refine ⟨h45, ?_⟩
          rw [← getD_last argv (by rintro rfl; simp at hlen), ha]
          rfl
        · rename_i h45
          rw [if_neg h45]
      rw [hi] at ha ⊢
      match argv, hlen, ha with
      | x :: y :: r, _, ha =>
        simp only [List.getD_cons_succ, List.getD_cons_zero] at ha
        subst ha
        simp [command]
  rw [← hcmd]
  exact closeJson_command _ _ _ _ _ _ _

/-- **C27** fails when the list is the last argument: for `sat_skymap -l0,0,0 @x` the answer says
`sat_skymap @-l0,0,0 x`. -/
theorem C27_list_last_violated : ∃ W argv code out, Runs W argv (.exit code out) ∧
    StringMember out b!"run_command" b!"sat_skymap @-l0,0,0 x" ∧
    ¬ StringMember out b!"run_command" (commandLine (b!"sat_skymap" :: argv.drop 1)) := by
  obtain ⟨c, o, h1, h2⟩ := runs_of_check (W := world0 []) (argv := [b!"sat_skymap", b!"-l0,0,0", b!"@x"]) (n := 4)
    (P := fun _ o => decide (StringMember o b!"run_command" b!"sat_skymap @-l0,0,0 x" ∧
      ¬ StringMember o b!"run_command" (commandLine [b!"sat_skymap", b!"-l0,0,0", b!"@x"]))) (by decide +kernel)
  exact ⟨_, _, c, o, h1, (of_decide_eq_true h2).1, (of_decide_eq_true h2).2⟩

example : ∃ c o, Runs (world0 [(b!"./x", b!"#\n")]) [b!"sat_skymap", b!"@x", b!"-l0,0,0"] (.exit c o) ∧
    StringMember o b!"run_command" b!"sat_skymap @x -l0,0,0" := by
  obtain ⟨c, o, h1, h2⟩ := runs_of_check (W := world0 [(b!"./x", b!"#\n")]) (argv := [b!"sat_skymap", b!"@x", b!"-l0,0,0"]) (n := 4)
    (P := fun _ o => decide (StringMember o b!"run_command" b!"sat_skymap @x -l0,0,0")) (by decide +kernel)
  exact ⟨c, o, h1, of_decide_eq_true h2⟩

/-! ### C28 -/

/-- Why the answer has this status, exit code and message.  `completed` and `notFound`: the options
were accepted, a location was given, and the reading loop came to its end. -/
inductive Cause (W : World) (argv : List CString) : ℤ → ℤ → CString → Prop
  | noArgs : argv.length < 2 → Cause W argv 1 0
      b!"Example usage:\n sat_skymap default.tle -l-29.25627,-70.73805,2400 -p90.5,-30.3 -j58861.5 -r20"
  | latitude (x : ℚ) : x < -90 ∨ 90 < x → Cause W argv (-1) (-1)
      (b!"Latitude must be in the range [-90, +90] degrees. Read '" ++ W.L.showF x ++ b!"'")
  | rightAscension (x : ℚ) : x < 0 ∨ 360 < x → Cause W argv (-1) (-1)
      (b!"RA must be in the range [0, 360[ degrees. Read '" ++ W.L.showF x ++ b!"'")
  | declination (x : ℚ) : x < -90 ∨ 90 < x → Cause W argv (-1) (-1)
      (b!"Dec must be in the range [-90, +90] degrees. Read '" ++ W.L.showF x ++ b!"'")
  | option (c : CChar) (r a : CString) : 45 :: c :: r ∈ argv → ¬ SwitchLetter c → ¬ ValueLetter c → c ≠ 104 → a ∈ argv →
      Cause W argv (-2) (-2) (b!"Unrecognized command-line option '" ++ a ++ b!"'")
  | unopened (path : CString) : W.file path = none → Cause W argv 2 2 (b!"Could not open input file " ++ path)
  | empty (path : CString) : W.file path = some [] → Cause W argv (-2) (-2)
      (b!"Could not read first TLE line from file " ++ path)
  | undecodable (p : Params) (t : Tle) : (W.E p t).nan = true → Cause W argv 2 1 b!"Could not decode TLE data"
  | completed (p : Params) : Parses W.L argv p → p.inGeopos = true → Cause W argv 0 0 []
  | notFound (p : Params) : Parses W.L argv p → p.inGeopos = true → p.singleN = true ∨ p.singleI = true →
      Cause W argv 0 0 b!"Requested satellite not found in TLE file"

/-- The texts of the statuses. -/
def statusText : ℤ → CString
  | 0 => b!"0"
  | 1 => b!"1"
  | 2 => b!"2"
  | -1 => b!"-1"
  | -2 => b!"-2"
  | _ => b!"?"

theorem Cause.text {W : World} {argv : List CString} {st code : ℤ} {msg : CString} (h : Cause W argv st code msg) :
    intText st = statusText st := by
  cases h <;> decide +kernel

theorem tleLoop_exit {p : Params} {E : Tle → Obs} (ls : List CString) (s u : LoopSt) {st code : ℤ} {msg : CString}
    (h : tleLoop p E s ls = .exit st code msg u) :
    st = 2 ∧ code = 1 ∧ msg = b!"Could not decode TLE data" ∧ ∃ t, (E t).nan = true := by
  induction ls generalizing s with
  | nil => simp [tleLoop] at h
  | cons l ls ih =>
    rw [tleLoop_cons] at h
    cases hst : tleStep p E s l with
    | next v => rw [hst] at h; exact ih v h
    | stop v => rw [hst] at h; simp at h
    | ub => rw [hst] at h; simp at h
    | exit a b c v =>
      rw [hst] at h
      simp only [Flow.exit.injEq] at h
      obtain ⟨rfl, rfl, rfl, rfl⟩ := h
      have adv : ∀ w l, advance w l ≠ .exit a b c v := by
        intro w l hc
        unfold advance at hc
        split at hc
        · split at hc <;> simp at hc
        · simp at hc
      unfold tleStep at hst
      split at hst
      · simp at hst
      · split at hst
        · split at hst
          · rename_i t _
            unfold consider at hst
            simp only [] at hst
            split at hst
            · simp at hst
            · split at hst
              · simp at hst
              · split at hst
                · simp at hst
                · split at hst
                  · simp at hst
                  · unfold observe at hst
                    simp only [] at hst
                    split at hst
                    · rename_i hn
                      simp only [Flow.exit.injEq] at hst
                      obtain ⟨rfl, rfl, rfl, rfl⟩ := hst
                      exact ⟨rfl, rfl, rfl, t, hn⟩
                    · split at hst
                      · simp at hst
                      · split at hst
                        · unfold report at hst
                          simp only [] at hst
                          split at hst
                          · simp at hst
                          · split at hst
                            · split at hst
                              · simp at hst
                              · exact absurd hst (adv _ _)
                            · simp at hst
                        · exact absurd hst (adv _ _)
          · simp at hst
        · exact absurd hst (adv _ _)

theorem filesLoop_exit {p : Params} {E : Tle → Obs} (fs : List (CString × Option CString)) (s u : LoopSt) {st code : ℤ} {msg : CString}
    (h : filesLoop p E s fs = .exit st code msg u) :
    (st = 2 ∧ code = 2 ∧ ∃ path, (path, none) ∈ fs ∧ msg = b!"Could not open input file " ++ path) ∨
    (st = -2 ∧ code = -2 ∧ ∃ path, (path, some []) ∈ fs ∧ msg = b!"Could not read first TLE line from file " ++ path) ∨
    (st = 2 ∧ code = 1 ∧ msg = b!"Could not decode TLE data" ∧ ∃ t, (E t).nan = true) := by
  induction fs generalizing s with
  | nil => simp [filesLoop] at h
  | cons f fs ih =>
    obtain ⟨path, oc⟩ := f
    cases oc with
    | none =>
      simp only [filesLoop] at h
      split at h
      · simp only [Flow.exit.injEq] at h
        obtain ⟨rfl, rfl, rfl, rfl⟩ := h
        exact Or.inl ⟨rfl, rfl, path, by simp, rfl⟩
      · simp at h
    | some content =>
      simp only [filesLoop] at h
      cases hf : fileLoop p E path s content with
      | next v =>
        rw [hf] at h
        rcases ih v h with ⟨h1, h2, x, hx, h3⟩ | ⟨h1, h2, x, hx, h3⟩ | h3
        · exact Or.inl ⟨h1, h2, x, by simp [hx], h3⟩
        · exact Or.inr (Or.inl ⟨h1, h2, x, by simp [hx], h3⟩)
        · exact Or.inr (Or.inr h3)
      | stop v => rw [hf] at h; simp at h
      | ub => rw [hf] at h; simp at h
      | exit a b c v =>
        rw [hf] at h
        simp only [Flow.exit.injEq] at h
        obtain ⟨rfl, rfl, rfl, rfl⟩ := h
        unfold fileLoop at hf
        cases hl : fileLines 100 content with
        | nil =>
          rw [hl] at hf
          simp only [] at hf
          have hc : content = [] := by
            cases content with
            | nil => rfl
            | cons x t => simp [fileLines, linesGo, fgets] at hl
          split at hf
          · simp only [Flow.exit.injEq] at hf
            obtain ⟨rfl, rfl, rfl, rfl⟩ := hf
            exact Or.inr (Or.inl ⟨rfl, rfl, path, by simp [hc], rfl⟩)
          · simp at hf
        | cons l ls =>
          rw [hl] at hf
          simp only [] at hf
          split at hf
          · simp at hf
          · exact Or.inr (Or.inr (tleLoop_exit _ _ _ hf))

theorem letter_of_not {c : CChar} (h : isSwitch c ≠ true) : ¬ SwitchLetter c := fun h' => h ((isSwitch_iff c).mpr h')

theorem errorExit_stop {α : Type} {st st' : ℤ} {m m' : CString} (h : (errorExit st m : Res α) = .stop (.error st' m')) :
    st = st' ∧ m = m' := by
  unfold errorExit at h
  split at h
  · simpa using h
  · simp at h

theorem setValue_stop {W : World} {argv : List CString} {c : CChar} {v a r : CString} {p : Params} {st : ℤ} {msg : CString}
    (hc : 45 :: c :: r ∈ argv) (hs : isSwitch c ≠ true) (hh : c ≠ 104) (ha : a ∈ argv)
    (h : setValue W.L c v a p = .stop (.error st msg)) : Cause W argv st st msg := by
  by_cases hv : ValueLetter c
  · unfold ValueLetter at hv
    simp only [List.mem_cons, List.not_mem_nil, or_false] at hv
    rcases hv with rfl | rfl | rfl | rfl | rfl | rfl | rfl | rfl | rfl | rfl | rfl | rfl
    · rw [sv_a] at h; simp at h
    · rw [sv_d] at h; split at h <;> simp at h
    · rw [sv_D] at h; split at h <;> simp at h
    · rw [sv_i] at h; split at h <;> simp at h
    · rw [sv_j] at h; split at h <;> simp at h
    · rw [sv_l] at h
      generalize scan3 W.L v p.lat p.lon p.ht = x at h
      simp only [] at h
      split at h
      · rename_i hx
        obtain ⟨rfl, rfl⟩ := errorExit_stop h
        exact .latitude x.1 hx
      · simp at h
    · rw [sv_n] at h; split at h <;> simp at h
    · rw [sv_p] at h
      generalize scan2 W.L v p.ra p.dec = x at h
      simp only [] at h
      split at h
      · rename_i hx
        obtain ⟨rfl, rfl⟩ := errorExit_stop h
        exact .rightAscension x.1 hx
      · split at h
        · rename_i hx
          obtain ⟨rfl, rfl⟩ := errorExit_stop h
          exact .declination x.2 hx
        · simp at h
    · rw [sv_r] at h; simp at h
    · rw [sv_s] at h; simp at h
    · rw [sv_S] at h; split at h <;> simp at h
    · rw [sv_t] at h; split at h <;> simp at h
  · have hv' := hv
    unfold ValueLetter at hv'
    simp only [List.mem_cons, List.not_mem_nil, or_false, not_or] at hv'
    obtain ⟨h1, h2, h3, h4, h5, h6, h7, h8, h9, h10, h11, h12⟩ := hv'
    unfold setValue at h
    rw [if_neg h1, if_neg h2, if_neg h3, if_neg h4, if_neg h5, if_neg h6, if_neg h7, if_neg h8, if_neg h9, if_neg h10,
      if_neg h11, if_neg h12] at h
    obtain ⟨rfl, rfl⟩ := errorExit_stop h
    exact .option c r a hc (letter_of_not hs) hv hh ha

theorem steps_stop {W : World} {argv : List CString} (n : Nat) (u : St) {st : ℤ} {msg : CString}
    (h : steps W.L argv n u = .stop (.error st msg)) : Cause W argv st st msg := by
  induction n generalizing u with
  | zero => simp [steps] at h
  | succ n ih =>
    rw [steps] at h
    cases hst : step W.L argv u with
    | run v => rw [hst] at h; exact ih v h
    | done p => rw [hst] at h; simp at h
    | ub => rw [hst] at h; simp at h
    | stop e =>
      rw [hst] at h
      simp only [Next.stop.injEq] at h
      subst h
      unfold step at hst
      split at hst
      · split at hst
        · simp at hst
        · rename_i hb
          simp only [Next.stop.injEq] at hst
          subst hst
          unfold body arg at hb
          cases ha : argv[u.i]? with
          | none => rw [ha] at hb; simp at hb
          | some a =>
            rw [ha] at hb
            simp only [] at hb
            have hmem := List.mem_of_getElem? ha
            by_cases h0 : rd a 0 = some 45
            · rw [if_pos h0] at hb
              cases h1 : rd a 1 with
              | none => rw [h1] at hb; simp at hb
              | some opt =>
                cases h2 : rd a 2 with
                | none => rw [h1, h2] at hb; simp at hb
                | some c2 =>
                  rw [h1, h2] at hb
                  simp only [] at hb
                  by_cases hh : opt = 104
                  · rw [if_pos hh] at hb; simp at hb
                  · rw [if_neg hh] at hb
                    by_cases hs : isSwitch opt = true
                    · rw [if_pos hs] at hb; simp at hb
                    · rw [if_neg hs] at hb
                      have hform : ∃ r, a = 45 :: opt :: r := by
                        match a, h0, h1, h2 with
                        | [], h0, _, _ => simp [rd] at h0
                        | [_], _, _, h2 => simp [rd] at h2
                        | x :: y :: r, h0, h1, _ =>
                          simp only [rd, Option.some.injEq] at h0 h1
                          exact ⟨r, by rw [h0, h1]⟩
                      obtain ⟨r, rfl⟩ := hform
                      generalize (if c2 = 0 then u.i + 1 else u.i) = i' at hb
                      cases ha' : argv[i']? with
                      | none => rw [ha'] at hb; simp at hb
                      | some a' =>
                        rw [ha'] at hb
                        simp only [] at hb
                        split at hb
                        · simp at hb
                        · rename_i hv
                          simp only [Res.stop.injEq] at hb
                          subst hb
                          exact setValue_stop hmem hs hh (List.mem_of_getElem? ha') hv
                        · simp at hb
            · rw [if_neg h0] at hb; simp at hb
        · simp at hst
      · simp at hst

theorem StringMember.closeErr (argv : List CString) (il : Bool) (st : ℤ) (msg : CString) (a b c : ℤ) :
    StringMember (closeJson argv il st msg a b c) b!"errmsg" msg ∧
    NumberMember (closeJson argv il st msg a b c) b!"status" (intText st) := by
  constructor
  · refine ⟨b!" \"run_command\": " ++ q (command argv il) ++ b!", \"status\": " ++ intText st ++ b!", ",
      b!", \"n_sats_found\": " ++ intText a ++ b!", \"n_sats\": " ++ intText b
        ++ b!", \"n_sunlit_sats\": " ++ intText c ++ b!"}\n", ?_⟩
    unfold closeJson q
    simp only [List.cons_append, List.append_assoc, List.nil_append]
  · refine ⟨b!" \"run_command\": " ++ q (command argv il) ++ b!", ",
      b!" \"errmsg\": " ++ q msg ++ b!", \"n_sats_found\": " ++ intText a ++ b!", \"n_sats\": " ++ intText b
        ++ b!", \"n_sunlit_sats\": " ++ intText c ++ b!"}\n", ?_⟩
    unfold closeJson q
    simp only [List.cons_append, List.append_assoc, List.nil_append]

theorem afterLoop_ok {p p' : Params} (h : afterLoop p = .ok p') :
    p.inGeopos = true ∧ p'.singleN = p.singleN ∧ p'.singleI = p.singleI := by
  unfold afterLoop at h
  by_cases hd : p.defDir
  · simp only [if_pos hd] at h
    split at h
    · rename_i hg
      simp only [Res.ok.injEq] at h
      subst h
      exact ⟨hg, rfl, rfl⟩
    · simp at h
  · simp only [if_neg hd] at h
    split at h
    · rename_i hg
      simp only [Res.ok.injEq] at h
      subst h
      exact ⟨hg, rfl, rfl⟩
    · simp at h

/-- **C28** (partial).  Whatever the arguments and files: every answer has a status and a message, and
there is a cause for them among the documented ones; in particular the status is 0 only if the options
were accepted, the location was given and the reading loop came to its end.  (Missing: malformed values
of the other options are not noticed, and the exit code differs from the status in two of the cases.) -/
theorem C28_status_cause_partial (W : World) (argv : List CString) (code : ℤ) (out : CString)
    (h : Runs W argv (.exit code out)) :
    ∃ st msg, NumberMember out b!"status" (statusText st) ∧ StringMember out b!"errmsg" msg ∧ Cause W argv st code msg := by
  have key : ∀ pre argv' il st msg a b c, out = pre ++ closeJson argv' il st msg a b c → Cause W argv st code msg →
      ∃ st msg, NumberMember out b!"status" (statusText st) ∧ StringMember out b!"errmsg" msg ∧ Cause W argv st code msg := by
    intro pre argv' il st msg a b c ho hc
    have h := StringMember.closeErr argv' il st msg a b c
    refine ⟨st, msg, ?_, ?_, hc⟩
    · rw [ho, ← hc.text]; exact h.2.trans (List.suffix_append _ _).isInfix
    · rw [ho]; exact StringMember.append_left pre h.1
  have scan : ∀ p p' argv' il name paths, Parses W.L argv p → afterLoop p = .ok p' →
      scanFiles W p' argv' il name paths = .exit code out →
      ∃ st msg, NumberMember out b!"status" (statusText st) ∧ StringMember out b!"errmsg" msg ∧ Cause W argv st code msg := by
    intro p p' argv' il name paths hp hal h
    obtain ⟨hg, hN, hI⟩ := afterLoop_ok hal
    rcases scanFiles_exit h with ⟨s, -, rfl, ho⟩ | ⟨st, msg, s, hf, ho⟩
    · unfold ending at ho
      rw [← List.append_assoc] at ho
      refine key _ _ _ _ _ _ _ _ ho ?_
      split
      · rename_i hs
        refine .notFound p hp hg ?_
        simp only [single, Bool.and_eq_true, Bool.or_eq_true] at hs
        rw [← hN, ← hI]
        exact hs.1
      · exact .completed p hp hg
    · refine key _ _ _ _ _ _ _ _ ho ?_
      have hmem : ∀ path oc, (path, oc) ∈ paths.map (fun f => (f, W.file f)) → W.file path = oc := by
        intro path oc hm
        simp only [List.mem_map, Prod.mk.injEq] at hm
        obtain ⟨x, -, rfl, rfl⟩ := hm
        rfl
      rcases filesLoop_exit _ _ _ hf with ⟨rfl, rfl, path, hm, rfl⟩ | ⟨rfl, rfl, path, hm, rfl⟩ | ⟨rfl, rfl, rfl, t, ht⟩
      · exact .unopened path (hmem _ _ hm)
      · exact .empty path (hmem _ _ hm)
      · exact .undecodable p' t ht
  rcases Runs_exit h with ⟨hl, rfl, ho⟩ | ⟨n, msg, -, hs, ho⟩ | ⟨p, p', -, hp, hal, h⟩
  · exact key _ _ _ _ _ _ _ _ ho (.noArgs hl)
  · exact key _ _ _ _ _ _ _ _ ho (steps_stop n init hs)
  · rcases compute_exit h with ⟨name, -, hf, rfl, ho⟩ | ⟨name, content, -, -, h⟩ | ⟨path, -, -, h⟩
    · exact key _ _ _ _ _ _ _ _ ho (.unopened _ hf)
    · exact scan p p' _ _ _ _ hp hal h
    · exact scan p p' _ _ _ _ hp hal h

/-- **C28** fails for malformed values: with the "date" `tomorrow` and the limit `all` the answer has
status 0 and no message (for the default date). -/
theorem C28_bad_value_violated : ∃ W code out,
    Runs W [b!"sat_skymap", b!"f", b!"-l0,0,0", b!"-dtomorrow", b!"-nall"] (.exit code out) ∧
    code = 0 ∧ NumberMember out b!"status" b!"0" ∧ StringMember out b!"errmsg" [] := by
  obtain ⟨c, o, h1, h2⟩ := runs_of_check (W := world0 [(b!"./f", b!"x\n")])
    (argv := [b!"sat_skymap", b!"f", b!"-l0,0,0", b!"-dtomorrow", b!"-nall"]) (n := 6)
    (P := fun c o => decide (c = 0 ∧ NumberMember o b!"status" b!"0" ∧ StringMember o b!"errmsg" [])) (by decide +kernel)
  exact ⟨_, c, o, h1, of_decide_eq_true h2⟩

/-- **C28**: the exit code of the process is not the status: called without arguments it exits with 0
and says 1. -/
theorem C28_exit_code_violated (W : World) : ∃ out, Runs W [b!"sat_skymap"] (.exit 0 out) ∧ NumberMember out b!"status" b!"1" := by
  refine ⟨_, by unfold Runs; rw [if_pos (by decide)]; rfl, ?_⟩
  decide +kernel

example : ∃ c o, Runs (world0 []) [b!"sat_skymap", b!"f", b!"-l91,0,0"] (.exit c o) ∧ c = -1 ∧ NumberMember o b!"status" b!"-1" ∧
    StringMember o b!"errmsg" b!"Latitude must be in the range [-90, +90] degrees. Read '91.000000'" := by
  obtain ⟨c, o, h1, h2⟩ := runs_of_check (W := world0 []) (argv := [b!"sat_skymap", b!"f", b!"-l91,0,0"]) (n := 4)
    (P := fun c o => decide (c = -1 ∧ NumberMember o b!"status" b!"-1" ∧
    StringMember o b!"errmsg" b!"Latitude must be in the range [-90, +90] degrees. Read '91.000000'")) (by decide +kernel)
  exact ⟨c, o, h1, of_decide_eq_true h2⟩

end SatSky.Props
