import Verif.Lemmas.VisRuns
import Verif.Props.VisSearch

/-! What `sat_visibility` answers: C130 (the satellite named in the answer), C132 (status and message), C133 (the
region of the parameters), C134 (exit code). -/

namespace SatSky.Props

open SatSky Spec GetEl Dates Opts Sky Prog Vis

/-! ### C132 -/

/-- Why an answer of `sat_visibility` has this status, exit code and message. -/
inductive VCause (W : VWorld) (argv : List CString) : ℤ → ℤ → CString → Prop
  | noArgs : argv.length < 2 → VCause W argv 1 0
      b!"Example usage:\n sat_visibility stations.txt -l-29.25627,-70.73805,2400 -j58941.72,58941.73 -s 25544"
  | latitude (x : ℚ) : x < -90 ∨ 90 < x → VCause W argv (-1) (-1)
      (b!"Latitude must be in the range [-90, +90] degrees. Read '" ++ W.L.showF x ++ b!"'")
  | option (c : CChar) (r a : CString) : 45 :: c :: r ∈ argv → ¬ VisSwitchLetter c → ¬ VisValueLetter c → c ≠ 104 → a ∈ argv →
      VCause W argv (-2) (-2) (b!"Unrecognized command-line option '" ++ a ++ b!"'")
  | unopened (path : CString) : W.file path = none → VCause W argv 2 2 (b!"Could not open input file " ++ path)
  | noRequest (p : VParams) : VParses W.L argv p → p.inGeopos = true → p.singleN = false → p.singleI = false →
      VCause W argv 2 2 b!"Need to input a NORAD ID or an international designator."
  | empty (path : CString) : W.file path = some [] → VCause W argv (-2) (-2)
      (b!"Could not read first TLE line from file " ++ path)
  | notFound (p : VParams) (path : CString) : VParses W.L argv p → p.inGeopos = true → p.singleN = true ∨ p.singleI = true →
      VCause W argv 1 1 (b!"Satellite not found in " ++ path)
  | altitude (p p' : VParams) (t : Tle) (x : ℚ) : VParses W.L argv p → p.inGeopos = true → p.altRange = true →
      (W.hist p' t).alt x < p.altMin ∨ p.altMax < (W.hist p' t).alt x →
      VCause W argv 2 1 b!"Satellite altitude out of requested range"
  | completed (p : VParams) : VParses W.L argv p → p.inGeopos = true → p.singleN = true ∨ p.singleI = true → VCause W argv 0 0 []

theorem VCause.text {W : VWorld} {argv : List CString} {st code : ℤ} {msg : CString} (h : VCause W argv st code msg) :
    intText st = statusText st := by
  cases h <;> decide +kernel

theorem setVValue_stop {W : VWorld} {argv : List CString} {c : CChar} {v a r : CString} {p : VParams} {st : ℤ} {msg : CString}
    (hc : 45 :: c :: r ∈ argv) (hs : isVSwitch c ≠ true) (hh : c ≠ 104) (ha : a ∈ argv)
    (h : setVValue W.L c v a p = .stop (.error st msg)) : VCause W argv st st msg ∧ st ≠ 0 := by
  by_cases hv : VisValueLetter c
  · unfold VisValueLetter at hv
    simp only [List.mem_cons, List.not_mem_nil, or_false] at hv
    rcases hv with rfl | rfl | rfl | rfl | rfl | rfl | rfl | rfl | rfl
    · rw [vsv_a] at h; simp at h
    · rw [vsv_d] at h; split at h <;> simp at h
    · rw [vsv_D] at h; split at h <;> simp at h
    · rw [vsv_i] at h; split at h <;> simp at h
    · rw [vsv_j] at h
      split at h
      · simp at h
      · dsimp only at h
        split at h <;> simp at h
    · rw [vsv_l] at h
      generalize scan3 W.L v p.lat p.lon p.ht = x at h
      simp only [] at h
      split at h
      · rename_i hx
        obtain ⟨rfl, rfl⟩ := errorExit_stop h
        exact ⟨.latitude x.1 hx, by decide⟩
      · simp at h
    · rw [vsv_r] at h; simp at h
    · rw [vsv_s] at h; simp at h
    · rw [vsv_t] at h; split at h <;> simp at h
  · have hv' := hv
    unfold VisValueLetter at hv'
    simp only [List.mem_cons, List.not_mem_nil, or_false, not_or] at hv'
    obtain ⟨h1, h2, h3, h4, h5, h6, h7, h8, h9⟩ := hv'
    unfold setVValue at h
    rw [if_neg h1, if_neg h2, if_neg h3, if_neg h4, if_neg h5, if_neg h6, if_neg h7, if_neg h8, if_neg h9] at h
    obtain ⟨rfl, rfl⟩ := errorExit_stop h
    exact ⟨.option c r a hc (fun h' => hs ((isVSwitch_iff c).mpr h')) hv hh ha, by decide⟩

theorem vsteps_stop {W : VWorld} {argv : List CString} (n : Nat) (u : VSt) {st : ℤ} {msg : CString}
    (h : vsteps W.L argv n u = .stop (.error st msg)) : VCause W argv st st msg ∧ st ≠ 0 := by
  induction n generalizing u with
  | zero => simp [vsteps] at h
  | succ n ih =>
    rw [vsteps] at h
    cases hst : vstep W.L argv u with
    | run v => rw [hst] at h; exact ih v h
    | done p => rw [hst] at h; simp at h
    | ub => rw [hst] at h; simp at h
    | stop e =>
      rw [hst] at h
      simp only [VNext.stop.injEq] at h
      subst h
      unfold vstep at hst
      split at hst
      · split at hst
        · simp at hst
        · rename_i hb
          simp only [VNext.stop.injEq] at hst
          subst hst
          unfold vbody arg at hb
          cases ha : argv[u.i]? with
          | none => rw [ha] at hb; simp at hb
          | some a =>
            rw [ha] at hb
            simp only [] at hb
            have hmem := List.mem_of_getElem? ha
            by_cases h0 : rd a 0 = some 45
            · rw [if_pos h0] at hb
              cases h1 : rd a 1 with
              | none => rw [h1] at hb; simp at hb
              | some opt =>
                cases h2 : rd a 2 with
                | none => rw [h1, h2] at hb; simp at hb
                | some c2 =>
                  rw [h1, h2] at hb
                  simp only [] at hb
                  by_cases hh : opt = 104
                  · rw [if_pos hh] at hb; simp at hb
                  · rw [if_neg hh] at hb
                    by_cases hs : isVSwitch opt = true
                    · rw [if_pos hs] at hb; simp at hb
                    · rw [if_neg hs] at hb
                      have hform : ∃ r, a = 45 :: opt :: r := by
                        match a, h0, h1, h2 with
                        | [], h0, _, _ => simp [rd] at h0
                        | [_], _, _, h2 => simp [rd] at h2
                        | x :: y :: r, h0, h1, _ =>
                          simp only [rd, Option.some.injEq] at h0 h1
                          exact ⟨r, by rw [h0, h1]⟩
                      obtain ⟨r, rfl⟩ := hform
                      generalize (if c2 = 0 then u.i + 1 else u.i) = i' at hb
                      cases ha' : argv[i']? with
                      | none => rw [ha'] at hb; simp at hb
                      | some a' =>
                        rw [ha'] at hb
                        simp only [] at hb
                        split at hb
                        · simp at hb
                        · rename_i hv
                          simp only [Res.stop.injEq] at hb
                          subst hb
                          exact setVValue_stop hmem hs hh (List.mem_of_getElem? ha') hv
                        · simp at hb
            · rw [if_neg h0] at hb; simp at hb
        · simp at hst
      · simp at hst

theorem vclose_members (argv : List CString) (il : Bool) (st : ℤ) (msg : CString) (a : ℤ) :
    StringMember (vcloseJson argv il st msg a) b!"errmsg" msg ∧ NumberMember (vcloseJson argv il st msg a) b!"status" (intText st) := by
  constructor
  · refine ⟨b!"\"run_command\": " ++ q (b!"sat_visibility" ++
      (if il then b!" @" ++ argv.getD 1 [] ++ (argv.drop 2).flatMap (fun a => 32 :: a)
       else (argv.drop 1).flatMap (fun a => 32 :: a))) ++ b!", \"status\": " ++ intText st ++ b!", ",
      b!", \"n_sats_found\": " ++ intText a ++ b!"}\n", ?_⟩
    unfold vcloseJson q
    simp only [List.cons_append, List.append_assoc, List.nil_append]
  · refine ⟨b!"\"run_command\": " ++ q (b!"sat_visibility" ++
      (if il then b!" @" ++ argv.getD 1 [] ++ (argv.drop 2).flatMap (fun a => 32 :: a)
       else (argv.drop 1).flatMap (fun a => 32 :: a))) ++ b!", ",
      b!" \"errmsg\": " ++ q msg ++ b!", \"n_sats_found\": " ++ intText a ++ b!"}\n", ?_⟩
    unfold vcloseJson q
    simp only [List.cons_append, List.append_assoc, List.nil_append]

/-- **C132**.  Whatever the arguments, the files and the numerical results: every answer of `sat_visibility` has a
status and a message, and there is a cause for them among the documented ones.  In particular the status is 0 only
if the options were accepted, with a location and a request. -/
theorem C132_status_cause (W : VWorld) (argv : List CString) (code : ℤ) (out : CString) (h : VRuns W argv (.exit code out)) :
    ∃ st msg, NumberMember out b!"status" (statusText st) ∧ StringMember out b!"errmsg" msg ∧ VCause W argv st code msg := by
  have key : ∀ pre argv' il st msg a, out = pre ++ vcloseJson argv' il st msg a → VCause W argv st code msg →
      ∃ st msg, NumberMember out b!"status" (statusText st) ∧ StringMember out b!"errmsg" msg ∧ VCause W argv st code msg := by
    intro pre argv' il st msg a ho hc
    have h := vclose_members argv' il st msg a
    refine ⟨st, msg, ?_, ?_, hc⟩
    · rw [ho, ← hc.text]; exact h.2.trans (List.suffix_append _ _).isInfix
    · rw [ho]; exact StringMember.append_left pre h.1
  have search : ∀ p p' argv' il name paths, VParses W.L argv p → vafterLoop p = .ok p' → (p'.singleN = true ∨ p'.singleI = true) →
      Searches W argv' il name p' paths (.exit code out) →
      ∃ st msg, NumberMember out b!"status" (statusText st) ∧ StringMember out b!"errmsg" msg ∧ VCause W argv st code msg := by
    intro p p' argv' il name paths hp hal hreq h
    obtain ⟨hg, he, -⟩ := vafterLoop_ok hal
    have hN : p'.singleN = p.singleN := by rw [he]
    have hI : p'.singleI = p.singleI := by rw [he]
    have hreq' := hreq
    rw [hN, hI] at hreq'
    rcases Searches_exit h with ⟨msg, hf, ho⟩ | ⟨s, t, -, h⟩ | ⟨s, path, -, -, rfl, ho⟩
    · refine key _ _ _ _ _ _ ho ?_
      have hmem : ∀ path oc, (path, oc) ∈ paths.map (fun f => (f, W.file f)) → W.file path = oc := by
        intro path oc hm
        simp only [List.mem_map, Prod.mk.injEq] at hm
        obtain ⟨x, -, rfl, rfl⟩ := hm
        rfl
      rcases ffiles_exit _ _ hf with ⟨rfl, path, hm, rfl⟩ | ⟨rfl, path, hm, rfl⟩
      · exact .unopened path (hmem _ _ hm)
      · exact .empty path (hmem _ _ hm)
    · rcases Observes_exit h with ⟨r, x, -, -, rfl, ⟨-, ho⟩ | ⟨-, ho⟩⟩ | ⟨t0, n, r, x, -, hl, -, rfl, ho⟩
      · exact key _ _ _ _ _ _ ho (.completed p hp hg hreq')
      · exact key _ _ _ _ _ _ ho (.completed p hp hg hreq')
      · refine key _ _ _ _ _ _ ho ?_
        have := Shape.loop (C := cfgOf W.L.F p') (H := W.hist p' t) n (s := { t := t0 }) ⟨rfl, Or.inl ⟨rfl, rfl⟩⟩
        rw [hl] at this
        obtain ⟨-, k1, k2⟩ := this
        have e1 : p'.altRange = p.altRange := by rw [he]
        have e2 : p'.altMin = p.altMin := by rw [he]
        have e3 : p'.altMax = p.altMax := by rw [he]
        refine .altitude p p' t r.t hp hg (by rw [← e1]; exact k1) ?_
        rw [← e2, ← e3]
        exact k2
    · exact key _ _ _ _ _ _ ho (.notFound p path hp hg hreq')
  rcases VRuns_exit h with ⟨hl, rfl, ho⟩ | ⟨n, msg, -, hs, ho⟩ | ⟨p, p', -, hp, hal, h⟩
  · exact key _ _ _ _ _ _ ho (.noArgs hl)
  · exact key _ _ _ _ _ _ ho (vsteps_stop n vinit hs).1
  · rcases Computes_exit h with ⟨name, -, hf, rfl, ho⟩ | ⟨h1, h2, rfl, argv', il, -, ho⟩ | ⟨name, content, -, -, hreq, h⟩ | ⟨path, -, hreq, h⟩
    · exact key _ _ _ _ _ _ ho (.unopened _ hf)
    · obtain ⟨hg, he, -⟩ := vafterLoop_ok hal
      refine key _ _ _ _ _ _ ho (.noRequest p hp hg ?_ ?_)
      · rw [← h1, he]
      · rw [← h2, he]
    · exact search p p' _ _ _ _ hp hal hreq h
    · exact search p p' _ _ _ _ hp hal hreq h

set_option maxRecDepth 100000 in
/-- An altitude outside the requested range. -/
example : ∃ c o, VRuns (vworld [(b!"./a", vtwo)] alwaysUp) (vargs [b!"-s44238", b!"-a600,700"]) (.exit c o) ∧ c = 1 ∧
    NumberMember o b!"status" b!"2" ∧ StringMember o b!"errmsg" b!"Satellite altitude out of requested range" := by
  obtain ⟨c, o, h1, h2⟩ := vruns_of_check (W := vworld [(b!"./a", vtwo)] alwaysUp) (argv := vargs [b!"-s44238", b!"-a600,700"]) (n := 8) (m := 6)
    (P := fun c o => decide (c = 1 ∧ NumberMember o b!"status" b!"2" ∧ StringMember o b!"errmsg" b!"Satellite altitude out of requested range"))
    (by decide +kernel)
  exact ⟨c, o, h1, of_decide_eq_true h2⟩

/-! ### C134 -/

/-- **C134** (partial).  The exit code is the status of the answer, unless the program was called without arguments or
the altitude of the satellite is outside the requested range. -/
theorem C134_exit_partial (W : VWorld) (argv : List CString) (code : ℤ) (out : CString) (h : VRuns W argv (.exit code out)) :
    NumberMember out b!"status" (statusText code) ∨ (argv.length < 2 ∧ code = 0) ∨
      (code = 1 ∧ StringMember out b!"errmsg" b!"Satellite altitude out of requested range") := by
  obtain ⟨st, msg, h1, h2, h3⟩ := C132_status_cause W argv code out h
  cases h3 with
  | noArgs hl => exact Or.inr (Or.inl ⟨hl, rfl⟩)
  | altitude => exact Or.inr (Or.inr ⟨rfl, h2⟩)
  | latitude => exact Or.inl h1
  | option => exact Or.inl h1
  | unopened => exact Or.inl h1
  | noRequest => exact Or.inl h1
  | empty => exact Or.inl h1
  | notFound => exact Or.inl h1
  | completed => exact Or.inl h1

/-- **C134** fails without arguments: exit code 0, status 1. -/
theorem C134_no_args_violated (W : VWorld) : ∃ out, VRuns W [b!"sat_visibility"] (.exit 0 out) ∧ NumberMember out b!"status" b!"1" ∧
    ¬ NumberMember out b!"status" b!"0" := by
  refine ⟨_, by unfold VRuns; rw [if_pos (by decide)]; rfl, ?_, ?_⟩ <;> decide +kernel

set_option maxRecDepth 100000 in
/-- **C134** fails for the altitude filter: exit code 1, status 2; a satellite that is not found also exits with 1. -/
theorem C134_altitude_violated : ∃ W argv out, VRuns W argv (.exit 1 out) ∧ NumberMember out b!"status" b!"2" ∧
    ¬ NumberMember out b!"status" b!"1" := by
  obtain ⟨c, o, h1, h2⟩ := vruns_of_check (W := vworld [(b!"./a", vtwo)] alwaysUp) (argv := vargs [b!"-s44238", b!"-a600,700"]) (n := 8) (m := 6)
    (P := fun c o => decide (c = 1 ∧ NumberMember o b!"status" b!"2" ∧ ¬ NumberMember o b!"status" b!"1")) (by decide +kernel)
  obtain ⟨rfl, h3, h4⟩ := of_decide_eq_true h2
  exact ⟨_, _, o, h1, h3, h4⟩

example : ∃ c o, VRuns (vworld [] alwaysUp) (vargs [b!"-s44238"]) (.exit c o) ∧ c = 2 ∧ NumberMember o b!"status" b!"2" := by
  obtain ⟨c, o, h1, h2⟩ := vruns_of_check (W := vworld [] alwaysUp) (argv := vargs [b!"-s44238"]) (n := 8) (m := 6)
    (P := fun c o => decide (c = 2 ∧ NumberMember o b!"status" b!"2")) (by decide +kernel)
  exact ⟨c, o, h1, of_decide_eq_true h2⟩

/-! ### C133 -/

/-- An answer with exit code 0 and arguments contains the parameters. -/
theorem VRuns_zero {W : VWorld} {argv : List CString} {out : CString} (h : VRuns W argv (.exit 0 out)) (hl : 2 ≤ argv.length) :
    ∃ p p' name rest, VParses W.L argv p ∧ p' = { p with tlePath := p'.tlePath } ∧
      out = vopenJson ++ geoFields ++ vparamsJson name (W.zenith p') p' ++ rest := by
  have search : ∀ p p' argv' il name paths, VParses W.L argv p → vafterLoop p = .ok p' →
      Searches W argv' il name p' paths (.exit 0 out) →
      ∃ p p' name rest, VParses W.L argv p ∧ p' = { p with tlePath := p'.tlePath } ∧
      out = vopenJson ++ geoFields ++ vparamsJson name (W.zenith p') p' ++ rest := by
    intro p p' argv' il name paths hp hal h
    obtain ⟨-, he, -⟩ := vafterLoop_ok hal
    rcases Searches_exit h with ⟨msg, hf, -⟩ | ⟨s, t, -, h⟩ | ⟨s, path, -, -, h1, -⟩
    · rcases ffiles_exit _ _ hf with ⟨h1, -⟩ | ⟨h1, -⟩ <;> simp at h1
    · rcases Observes_exit h with ⟨r, x, -, -, -, ⟨-, ho⟩ | ⟨-, ho⟩⟩ | ⟨t0, n, r, x, -, -, -, h1, -⟩
      · refine ⟨p, p', name, x ++ (vsunJson b!"sun" (W.sun p' (cfgOf W.L.F p').jd0) ++ vcloseJson argv' il 0 [] 0), hp, he, ?_⟩
        rw [ho]; simp only [List.append_assoc]
      · refine ⟨p, p', name, x ++ (b!"}, \"sunlit_duration_minutes\": "
          ++ (fmtF 2 (minutes (cfgOf W.L.F p') W.L.G r) ++ (b!", " ++ vcloseJson argv' il 0 [] 1))), hp, he, ?_⟩
        rw [ho]; simp only [List.append_assoc]
      · simp at h1
    · simp at h1
  rcases VRuns_exit h with ⟨h1, -, -⟩ | ⟨n, msg, -, hs, -⟩ | ⟨p, p', -, hp, hal, h⟩
  · omega
  · exact absurd rfl (vsteps_stop n vinit hs).2
  · rcases Computes_exit h with ⟨name, -, -, h1, -⟩ | ⟨-, -, h1, -⟩ | ⟨name, content, -, -, -, h⟩ | ⟨path, -, -, h⟩
    · simp at h1
    · simp at h1
    · exact search p p' _ _ _ _ hp hal h
    · exact search p p' _ _ _ _ hp hal h

theorem params_dec (name : CString) (z : ℚ × ℚ × ℚ) (p' : VParams) : b!", \"dec\":" ++ fmtW 8 4 p'.lat ++ b!", \"radius\":" ++ fmtW 8 4 p'.radius ++ b!", \"lmst\":" <:+: vparamsJson name z p' := by
  refine ⟨b!"\"input_params\": {\"tle_file\": " ++ q name ++ b!", \"location\": {\"lat\":" ++ fmtW 8 4 p'.lat ++ b!", \"lon\":" ++ fmtW 9 4 p'.lon ++ b!", \"alt\":" ++ fmtW 8 1 p'.ht ++ b!"}, \"region\": {\"ra\":" ++ fmtW 9 4 0,
    fmtW 8 4 0 ++ b!", \"az\":" ++ fmtW 9 4 z.1 ++ b!", \"alt\":" ++ fmtW 8 4 z.2.1 ++ b!", \"parang\":" ++ fmtW 8 3 z.2.2 ++ b!"}, \"mjd_range\": [" ++ fmtW 11 5 p'.mjd0 ++ b!", " ++ fmtW 11 5 p'.mjd1 ++ b!"], \"date_utc_range\": [" ++ q p'.date0 ++ b!", " ++ q p'.date1 ++ b!"], \"gmst\":" ++ fmtW 8 4 0 ++ b!", \"delta_time_s\": " ++ intText p'.dt ++ b!", \"notes\": \"All coordinates and radius in degrees. GMST, LMST in hrs.\"}, ", ?_⟩
  unfold vparamsJson
  simp only [List.append_assoc]

theorem params_ra (name : CString) (z : ℚ × ℚ × ℚ) (p' : VParams) : b!"}, \"region\": {\"ra\":" ++ fmtW 9 4 0 ++ b!", \"dec\":" <:+: vparamsJson name z p' := by
  refine ⟨b!"\"input_params\": {\"tle_file\": " ++ q name ++ b!", \"location\": {\"lat\":" ++ fmtW 8 4 p'.lat ++ b!", \"lon\":" ++ fmtW 9 4 p'.lon ++ b!", \"alt\":" ++ fmtW 8 1 p'.ht,
    fmtW 8 4 p'.lat ++ b!", \"radius\":" ++ fmtW 8 4 p'.radius ++ b!", \"lmst\":" ++ fmtW 8 4 0 ++ b!", \"az\":" ++ fmtW 9 4 z.1 ++ b!", \"alt\":" ++ fmtW 8 4 z.2.1 ++ b!", \"parang\":" ++ fmtW 8 3 z.2.2 ++ b!"}, \"mjd_range\": [" ++ fmtW 11 5 p'.mjd0 ++ b!", " ++ fmtW 11 5 p'.mjd1 ++ b!"], \"date_utc_range\": [" ++ q p'.date0 ++ b!", " ++ q p'.date1 ++ b!"], \"gmst\":" ++ fmtW 8 4 0 ++ b!", \"delta_time_s\": " ++ intText p'.dt ++ b!", \"notes\": \"All coordinates and radius in degrees. GMST, LMST in hrs.\"}, ", ?_⟩
  unfold vparamsJson
  simp only [List.append_assoc]

theorem params_lmst (name : CString) (z : ℚ × ℚ × ℚ) (p' : VParams) : b!", \"lmst\":" ++ fmtW 8 4 0 ++ b!", \"az\":" <:+: vparamsJson name z p' := by
  refine ⟨b!"\"input_params\": {\"tle_file\": " ++ q name ++ b!", \"location\": {\"lat\":" ++ fmtW 8 4 p'.lat ++ b!", \"lon\":" ++ fmtW 9 4 p'.lon ++ b!", \"alt\":" ++ fmtW 8 1 p'.ht ++ b!"}, \"region\": {\"ra\":" ++ fmtW 9 4 0 ++ b!", \"dec\":" ++ fmtW 8 4 p'.lat ++ b!", \"radius\":" ++ fmtW 8 4 p'.radius,
    fmtW 9 4 z.1 ++ b!", \"alt\":" ++ fmtW 8 4 z.2.1 ++ b!", \"parang\":" ++ fmtW 8 3 z.2.2 ++ b!"}, \"mjd_range\": [" ++ fmtW 11 5 p'.mjd0 ++ b!", " ++ fmtW 11 5 p'.mjd1 ++ b!"], \"date_utc_range\": [" ++ q p'.date0 ++ b!", " ++ q p'.date1 ++ b!"], \"gmst\":" ++ fmtW 8 4 0 ++ b!", \"delta_time_s\": " ++ intText p'.dt ++ b!", \"notes\": \"All coordinates and radius in degrees. GMST, LMST in hrs.\"}, ", ?_⟩
  unfold vparamsJson
  simp only [List.append_assoc]

theorem params_gmst (name : CString) (z : ℚ × ℚ × ℚ) (p' : VParams) : b!"], \"gmst\":" ++ fmtW 8 4 0 ++ b!", \"delta_time_s\": " <:+: vparamsJson name z p' := by
  refine ⟨b!"\"input_params\": {\"tle_file\": " ++ q name ++ b!", \"location\": {\"lat\":" ++ fmtW 8 4 p'.lat ++ b!", \"lon\":" ++ fmtW 9 4 p'.lon ++ b!", \"alt\":" ++ fmtW 8 1 p'.ht ++ b!"}, \"region\": {\"ra\":" ++ fmtW 9 4 0 ++ b!", \"dec\":" ++ fmtW 8 4 p'.lat ++ b!", \"radius\":" ++ fmtW 8 4 p'.radius ++ b!", \"lmst\":" ++ fmtW 8 4 0 ++ b!", \"az\":" ++ fmtW 9 4 z.1 ++ b!", \"alt\":" ++ fmtW 8 4 z.2.1 ++ b!", \"parang\":" ++ fmtW 8 3 z.2.2 ++ b!"}, \"mjd_range\": [" ++ fmtW 11 5 p'.mjd0 ++ b!", " ++ fmtW 11 5 p'.mjd1 ++ b!"], \"date_utc_range\": [" ++ q p'.date0 ++ b!", " ++ q p'.date1,
    intText p'.dt ++ b!", \"notes\": \"All coordinates and radius in degrees. GMST, LMST in hrs.\"}, ", ?_⟩
  unfold vparamsJson
  simp only [List.append_assoc]

/-- **C133** (partial).  In every answer with exit code 0 (called with arguments) the declination of the region is
the latitude that was given (the zenith), and the radius is that of the options.  (Missing: right ascension and
sidereal times, `C133_region_violated`.) -/
theorem C133_declination_partial (W : VWorld) (argv : List CString) (out : CString) (h : VRuns W argv (.exit 0 out)) (hl : 2 ≤ argv.length) :
    ∃ p, VParses W.L argv p ∧
      b!", \"dec\":" ++ padLeft 8 (fmtF 4 p.lat) ++ b!", \"radius\":" ++ padLeft 8 (fmtF 4 p.radius) ++ b!", \"lmst\":" <:+: out := by
  obtain ⟨p, p', name, rest, hp, he, rfl⟩ := VRuns_zero h hl
  have e1 : p'.lat = p.lat := by rw [he]
  have e2 : p'.radius = p.radius := by rw [he]
  refine ⟨p, hp, ?_⟩
  refine List.IsInfix.trans ?_ (List.prefix_append _ _).isInfix
  refine List.IsInfix.trans ?_ (List.suffix_append _ _).isInfix
  rw [← e1, ← e2]
  exact params_dec name _ p'

/-- **C133** fails always: whatever the time and the place, the right ascension of the region and the sidereal times
printed are zero. -/
theorem C133_region_violated (W : VWorld) (argv : List CString) (out : CString) (h : VRuns W argv (.exit 0 out)) (hl : 2 ≤ argv.length) :
    b!"}, \"region\": {\"ra\":   0.0000, \"dec\":" <:+: out ∧ b!", \"lmst\":  0.0000, \"az\":" <:+: out ∧
      b!"], \"gmst\":  0.0000, \"delta_time_s\": " <:+: out := by
  obtain ⟨p, p', name, rest, hp, he, rfl⟩ := VRuns_zero h hl
  have up : ∀ x : CString, x <:+: vparamsJson name (W.zenith p') p' → x <:+: vopenJson ++ geoFields ++ vparamsJson name (W.zenith p') p' ++ rest :=
    fun x hx => (hx.trans (List.suffix_append _ _).isInfix).trans (List.prefix_append _ _).isInfix
  have z9 : fmtW 9 4 0 = b!"   0.0000" := by decide +kernel
  have z8 : fmtW 8 4 0 = b!"  0.0000" := by decide +kernel
  have h1 := params_ra name (W.zenith p') p'
  have h2 := params_lmst name (W.zenith p') p'
  have h3 := params_gmst name (W.zenith p') p'
  rw [z9] at h1
  rw [z8] at h2 h3
  exact ⟨up _ h1, up _ h2, up _ h3⟩

set_option maxRecDepth 100000 in
example : ∃ c o, VRuns (vworld [(b!"./a", vtwo)] alwaysUp) (vargs [b!"-s44238", b!"-l45,90,0"]) (.exit c o) ∧ c = 0 ∧
    b!"\"region\": {\"ra\":   0.0000, \"dec\": 45.0000, \"radius\": 90.0000, \"lmst\":  0.0000" <:+: o := by
  obtain ⟨c, o, h1, h2⟩ := vruns_of_check (W := vworld [(b!"./a", vtwo)] alwaysUp) (argv := vargs [b!"-s44238", b!"-l45,90,0"]) (n := 8) (m := 6)
    (P := fun c o => decide (c = 0 ∧ b!"\"region\": {\"ra\":   0.0000, \"dec\": 45.0000, \"radius\": 90.0000, \"lmst\":  0.0000" <:+: o))
    (by decide +kernel)
  exact ⟨c, o, h1, of_decide_eq_true h2⟩

/-! ### C130 -/

/-- The designator printed for a record with such a designator field. -/
def DesigShown (field shown : CString) : Prop :=
  (field.head? = some 32 ∧ shown = b!"none") ∨ ∃ yy n c, field = desigField yy n c ∧ shown = fullDesig yy n c

theorem desigShown_of {d : CString} (h : OneLetter d) : ∃ x, desigText d = some x ∧ DesigShown d x := by
  rcases h with h | ⟨yy, n, c, hy, hn, hc, rfl⟩
  · exact ⟨b!"none", by unfold desigText; rw [if_pos h], Or.inl ⟨h, rfl⟩⟩
  · exact ⟨_, C20_text yy n c hy hn hc, Or.inr ⟨yy, n, c, rfl, rfl⟩⟩

theorem found_one {pre : CString} {argv : List CString} {il : Bool} {st : ℤ} {msg : CString}
    (h : b!", \"n_sats_found\": 1}\n" <:+ pre ++ vcloseJson argv il st msg 0) : False := by
  have h0 : b!", \"n_sats_found\": 0}\n" <:+ pre ++ vcloseJson argv il st msg 0 := by
    refine List.IsSuffix.trans ?_ (List.suffix_append _ _)
    refine ⟨b!"\"run_command\": " ++ q (b!"sat_visibility" ++
      (if il then b!" @" ++ argv.getD 1 [] ++ (argv.drop 2).flatMap (fun a => 32 :: a)
       else (argv.drop 1).flatMap (fun a => 32 :: a)))
    ++ b!", \"status\": " ++ intText st ++ b!", \"errmsg\": " ++ q msg, ?_⟩
    unfold vcloseJson
    rw [show intText 0 = b!"0" by decide +kernel]
    simp only [List.append_assoc]
    rfl
  have := (List.suffix_of_suffix_length_le h h0 (by decide)).eq_of_length (by decide)
  revert this
  decide

/-- **C130**.  Over files of records whose designators are blank or have one letter, with either `-s` or `-i`: if a
pass is reported, the answer names the satellite by the name, the full designator ("none" if blank) and the number
of the first record that answers the request. -/
theorem C130_named (W : VWorld) (hjunk : BufOk W.junk) (argv : List CString) (il : Bool) (name : CString) (p : VParams)
    (hs : (p.singleN = true ∧ p.singleI = false) ∨ (p.singleN = false ∧ p.singleI = true)) (hi : IsCStr p.intlDesig)
    (hnone : p.singleN = false → ¬ p.intlDesig <+: b!"none")
    (files : List (CString × List (Record × Tle))) (hok : ∀ f ∈ files, FileOk f) (h1 : ∀ f ∈ files, ∀ x ∈ f.2, OneLetter x.2.intlDesig)
    (hread : Reads W files) (code : ℤ) (out : CString) (h : Searches W argv il name p (files.map Prod.fst) (.exit code out))
    (hfound : b!", \"n_sats_found\": 1}\n" <:+ out) :
    ∃ i d, (allItems files).find? (vanswers p) = some i ∧ DesigShown i.tle.intlDesig d ∧
      b!" \"satellite\": {\"name\": " ++ q i.name ++ b!", \"intl_desig\": " ++ q d ++ b!", \"norad_n\": " ++ intText i.tle.norad ++ b!", " <:+: out := by
  have hs' : p.singleN = true ∨ p.singleI = true := by rcases hs with hs | hs; exacts [Or.inl hs.1, Or.inr hs.2]
  obtain ⟨k1, -⟩ := C62_first_partial W hjunk argv il name p hs' hi hnone files hok hread _ h
  have hd : DesigOk p (b!"none" ++ List.replicate 8 0) := by
    unfold DesigOk
    split
    · rfl
    · rename_i hN
      rw [memEq_pad _ hi, Bool.eq_false_iff, Ne, List.isPrefixOf_iff_prefix]
      exact hnone (by simpa using hN)
  cases hf : (allItems files).find? (vanswers p) with
  | none =>
    exfalso
    obtain ⟨s, hr⟩ := (ffiles_items p hs' hi files hok { name := W.junk } hjunk hd).2 hf
    rw [← contents_of_reads hread] at hr
    rcases Searches_exit h with ⟨msg, hx, -⟩ | ⟨s, t, hx, -⟩ | ⟨s, path, -, -, -, ho⟩
    · rw [hr] at hx; simp at hx
    · rw [hr] at hx; simp at hx
    · rw [ho] at hfound; exact found_one hfound
  | some i =>
    obtain ⟨s, hhit, hobs⟩ := k1 i hf
    obtain ⟨f, hff, x, hx, -, hix⟩ := mem_allItems (List.mem_of_find?_eq_some hf)
    have hone := h1 f hff x hx
    rw [← hix] at hone
    obtain ⟨d, hd1, hd2⟩ := desigShown_of hone
    refine ⟨i, d, rfl, hd2, ?_⟩
    have hcs : IsCStr i.tle.intlDesig := by rw [hix]; exact good_desig_isCStr ((hok f hff).2.1 x hx)
    -- the designator
    have hpd : printedDesig p s i.tle = some d := by
      unfold printedDesig
      rcases hs with ⟨hN, hI⟩ | ⟨hN, hI⟩
      · rw [hI, if_neg (by decide), hhit.byNumber hN]
        by_cases hb : i.tle.intlDesig.head? = some 32
        · rw [putDesig_blank _ _ hb]
          unfold desigText at hd1
          rw [if_pos hb] at hd1
          rw [← hd1]
          decide
        · rw [putDesig_text _ _ d hb hd1]
          exact cstr_putStr _ _ (desigText_isCStr _ _ hcs hd1)
      · rw [if_pos hI, ← hd1, ← hhit.byDesig hN]; rfl
    have hin : ∀ bs x, bs ≠ [] → passText W p s i.tle bs = some x → b!" \"satellite\": {\"name\": " ++ q i.name ++ b!", \"intl_desig\": " ++ q d
        ++ b!", \"norad_n\": " ++ intText i.tle.norad ++ b!", " <:+: x := by
      intro bs x hne hx
      unfold passText at hx
      rw [if_neg hne, hhit.name, hpd] at hx
      split at hx
      · rename_i nm ds y h1 h2 h3
        simp only [Option.some.injEq] at h1 h2 hx
        subst h1 h2 hx
        refine ⟨vfieldsDesc, y, ?_⟩
        unfold satHead
        simp only [List.append_assoc]
      · simp at hx
    rcases Observes_exit hobs with ⟨r, x, -, hx, -, ⟨hb, ho⟩ | ⟨hb, ho⟩⟩ | ⟨t0, n, r, x, -, hl, hx, -, ho⟩
    · exfalso; rw [ho] at hfound; exact found_one hfound
    · obtain ⟨u, v, huv⟩ := hin _ _ hb hx
      rw [ho, ← huv]
      apply List.IsInfix.trans (l₂ := u ++ (b!" \"satellite\": {\"name\": " ++ q i.name ++ b!", \"intl_desig\": " ++ q d
        ++ b!", \"norad_n\": " ++ intText i.tle.norad ++ b!", ") ++ v) ⟨u, v, rfl⟩
      refine ⟨vopenJson ++ geoFields ++ vparamsJson name (W.zenith p) p, b!"}, \"sunlit_duration_minutes\": "
          ++ fmtF 2 (minutes (cfgOf W.L.F p) W.L.G r) ++ b!", " ++ vcloseJson argv il 0 [] 1, ?_⟩
      simp only [List.append_assoc]
    · by_cases hb : r.blocks = []
      · exfalso; rw [ho, if_pos hb] at hfound; exact found_one hfound
      · obtain ⟨u, v, huv⟩ := hin _ _ hb hx
        rw [ho, ← huv]
        apply List.IsInfix.trans (l₂ := u ++ (b!" \"satellite\": {\"name\": " ++ q i.name ++ b!", \"intl_desig\": " ++ q d
          ++ b!", \"norad_n\": " ++ intText i.tle.norad ++ b!", ") ++ v) ⟨u, v, rfl⟩
        refine ⟨vopenJson ++ geoFields ++ vparamsJson name (W.zenith p) p, vcloseJson argv il 2 b!"Satellite altitude out of requested range" (if r.blocks = [] then 0 else 1), ?_⟩
        simp only [List.append_assoc]

set_option maxRecDepth 100000 in
/-- **C130** needs "either -s or -i": with both, the designator of the satellite is printed as "none". -/
theorem C130_both_excluded : ∃ c o, VRuns (vworld [(b!"./a", vtwo)] alwaysUp) (vargs [b!"-s44238", b!"-i2019-029D"]) (.exit c o) ∧ c = 0 ∧
    StringMember o b!"name" b!"STARLINK-24" ∧ StringMember o b!"intl_desig" b!"none" ∧ ¬ StringMember o b!"intl_desig" b!"2019-029D" := by
  obtain ⟨c, o, h1, h2⟩ := vruns_of_check (W := vworld [(b!"./a", vtwo)] alwaysUp) (argv := vargs [b!"-s44238", b!"-i2019-029D"]) (n := 8) (m := 6)
    (P := fun c o => decide (c = 0 ∧ StringMember o b!"name" b!"STARLINK-24" ∧ StringMember o b!"intl_desig" b!"none" ∧ ¬ StringMember o b!"intl_desig" b!"2019-029D"))
    (by decide +kernel)
  exact ⟨c, o, h1, of_decide_eq_true h2⟩

set_option maxRecDepth 100000 in
/-- **C130** needs one-letter designators: 2019-006DE is printed as 2019-006D. -/
theorem C130_pieces_excluded : ∃ c o, VRuns (vworld [(b!"./a", vpieces)] alwaysUp) (vargs [b!"-s44383"]) (.exit c o) ∧ c = 0 ∧
    StringMember o b!"intl_desig" b!"2019-006D" ∧ NumberMember o b!"norad_n" b!"44383" := by
  obtain ⟨c, o, h1, h2⟩ := vruns_of_check (W := vworld [(b!"./a", vpieces)] alwaysUp) (argv := vargs [b!"-s44383"]) (n := 7) (m := 6)
    (P := fun c o => decide (c = 0 ∧ StringMember o b!"intl_desig" b!"2019-006D" ∧ NumberMember o b!"norad_n" b!"44383"))
    (by decide +kernel)
  exact ⟨c, o, h1, of_decide_eq_true h2⟩

set_option maxRecDepth 100000 in
/-- With `-s` alone the full designator is printed, and the answer ends with one satellite found. -/
example : ∃ c o, VRuns (vworld [(b!"./a", vtwo)] alwaysUp) (vargs [b!"-s44238"]) (.exit c o) ∧ c = 0 ∧ b!", \"n_sats_found\": 1}\n" <:+ o ∧
    b!" \"satellite\": {\"name\": \"STARLINK-24\", \"intl_desig\": \"2019-029D\", \"norad_n\": 44238, " <:+: o := by
  obtain ⟨c, o, h1, h2⟩ := vruns_of_check (W := vworld [(b!"./a", vtwo)] alwaysUp) (argv := vargs [b!"-s44238"]) (n := 7) (m := 6)
    (P := fun c o => decide (c = 0 ∧ b!", \"n_sats_found\": 1}\n" <:+ o ∧
      b!" \"satellite\": {\"name\": \"STARLINK-24\", \"intl_desig\": \"2019-029D\", \"norad_n\": 44238, " <:+: o))
    (by decide +kernel)
  exact ⟨c, o, h1, of_decide_eq_true h2⟩

end SatSky.Props
