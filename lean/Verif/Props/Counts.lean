import Verif.Props.Main

/-! C88: the counters in the answer. -/

namespace SatSky.Props

open SatSky Spec Dates GetEl Opts Sky Prog

/-- The last member of the object: `"key": t}`. -/
def LastMember (out key t : CString) : Prop := (34 :: key ++ b!"\": " ++ t ++ [125]) <:+: out

instance (out key t : CString) : Decidable (LastMember out key t) := by unfold LastMember; infer_instance

theorem render_sats (p : Params) (hi : p.infoOnly = false) (k : ℤ) (hk : 0 < k) (l : List Report) :
    render p k l = l.flatMap (fun r => b!", " ++ satJson (geoRequested p) r) := by
  induction l generalizing k with
  | nil => rfl
  | cons r l ih =>
    rw [render, ih (k + 1) (by omega), List.flatMap_cons]
    unfold emit
    rw [if_neg (by simp [hi]), if_pos hk]

/-- The text between the preamble and the counters when the satellites `rs` are listed. -/
def Listing (p : Params) (rs : List Report) (text : CString) : Prop :=
  (p.infoOnly = true ∧ text = []) ∨ (p.infoOnly = false ∧ rs = [] ∧ text = []) ∨
  (∃ r l, p.infoOnly = false ∧ rs = r :: l ∧
    text = fieldsDesc ++ b!" \"satellites\": [" ++ satJson (geoRequested p) r
      ++ l.flatMap (fun r => b!", " ++ satJson (geoRequested p) r))

theorem render_listing (p : Params) (rs : List Report) : Listing p rs (render p 0 rs) := by
  cases hi : p.infoOnly with
  | true =>
    refine Or.inl ⟨hi, ?_⟩
    have : ∀ k, render p k rs = [] := by
      induction rs with
      | nil => intro k; rfl
      | cons r l ih => intro k; simp [render, emit, hi, ih]
    exact this 0
  | false =>
    cases rs with
    | nil => exact Or.inr (Or.inl ⟨hi, rfl, rfl⟩)
    | cons r l =>
      refine Or.inr (Or.inr ⟨r, l, hi, rfl, ?_⟩)
      rw [render, render_sats p hi (0 + 1) (by decide)]
      unfold emit
      rw [if_neg (by simp [hi]), if_neg (by decide)]

theorem close_counts (argv : List CString) (il : Bool) (st : ℤ) (msg : CString) (a b c : ℤ) :
    NumberMember (closeJson argv il st msg a b c) b!"n_sats_found" (intText a) ∧
    NumberMember (closeJson argv il st msg a b c) b!"n_sats" (intText b) ∧
    LastMember (closeJson argv il st msg a b c) b!"n_sunlit_sats" (intText c) := by
  refine ⟨⟨b!" \"run_command\": " ++ q (command argv il) ++ b!", \"status\": " ++ intText st ++ b!", \"errmsg\": " ++ q msg ++ b!", ",
      b!" \"n_sats\": " ++ intText b ++ b!", \"n_sunlit_sats\": " ++ intText c ++ b!"}\n", ?_⟩,
    ⟨b!" \"run_command\": " ++ q (command argv il) ++ b!", \"status\": " ++ intText st ++ b!", \"errmsg\": " ++ q msg
        ++ b!", \"n_sats_found\": " ++ intText a ++ b!", ",
      b!" \"n_sunlit_sats\": " ++ intText c ++ b!"}\n", ?_⟩,
    ⟨b!" \"run_command\": " ++ q (command argv il) ++ b!", \"status\": " ++ intText st ++ b!", \"errmsg\": " ++ q msg
        ++ b!", \"n_sats_found\": " ++ intText a ++ b!", \"n_sats\": " ++ intText b ++ b!", ", b!"\n", ?_⟩⟩ <;>
  · unfold closeJson q
    simp only [List.cons_append, List.append_assoc, List.nil_append]

theorem advance_found {s u : LoopSt} {l : CString} (h : (advance s l).st? = some u) : u.found = s.found := by
  unfold advance at h
  split at h
  · split at h
    · simp [Flow.st?] at h
    · simp only [Flow.st?, Option.some.injEq] at h; subst h; rfl
  · simp only [Flow.st?, Option.some.injEq] at h; subst h; rfl

theorem report_found {p : Params} {s u : LoopSt} {cat : CString} {t : Tle} {o : Obs} {l : CString}
    (h : (report p s cat t o l).st? = some u) : u.found = s.found := by
  unfold report at h
  simp only [] at h
  split at h
  · simp only [Flow.st?, Option.some.injEq] at h; subst h; rfl
  · split at h
    · split at h
      · simp only [Flow.st?, Option.some.injEq] at h; subst h; rfl
      · rw [advance_found h]
    · simp [Flow.st?] at h

theorem observe_found {p : Params} {E : Tle → Obs} {s u : LoopSt} {cat : CString} {t : Tle} {l : CString}
    (h : (observe p E s cat t l).st? = some u) : u.found = s.found := by
  unfold observe at h
  simp only [] at h
  split at h
  · simp only [Flow.st?, Option.some.injEq] at h; subst h; rfl
  · split at h
    · simp only [Flow.st?, Option.some.injEq] at h; subst h; rfl
    · split at h
      · exact report_found h
      · exact advance_found h

/-- Without `-s` and `-i` the flag `single_sat_found` is never set. -/
theorem tleStep_found {p : Params} {E : Tle → Obs} {s u : LoopSt} {l : CString} (hp : single p = false)
    (hs : s.found = false) (h : (tleStep p E s l).st? = some u) : u.found = false := by
  simp only [single, Bool.or_eq_false_iff] at hp
  unfold tleStep at h
  split at h
  · simp [Flow.st?] at h
  · split at h
    · split at h
      · unfold consider at h
        simp only [] at h
        split at h
        · simp [Flow.st?] at h
        · rename_i skip fnd hsel
          have hf : fnd = false := by
            unfold select at hsel
            rw [if_neg (by simp [hp.1]), if_neg (by simp [hp.2])] at hsel
            split at hsel
            · simp only [Option.some.injEq, Prod.mk.injEq] at hsel; rw [← hsel.2]; exact hs
            · simp only [Option.some.injEq, Prod.mk.injEq] at hsel; rw [← hsel.2]; exact hs
          subst hf
          cases skip
          · rw [if_neg (by simp)] at h
            split at h
            · simp only [Flow.st?, Option.some.injEq] at h; subst h; rfl
            · split at h
              · simp [Flow.st?] at h
              · rename_i v hv
                rw [observe_found h]
                unfold remember at hv
                simp only [Option.ite_none_right_eq_some, Option.some.injEq] at hv
                rw [← hv.2]
          · rw [if_pos rfl] at h
            simp only [Flow.st?, Option.some.injEq] at h; subst h; rfl
      · simp [Flow.st?] at h
    · rw [advance_found h, hs]

theorem notFound_of_region {p : Params} {E : Tle → Obs} {junk : List Int} {fs : List (CString × Option CString)}
    {s : LoopSt} (hp : single p = false) (h : (filesLoop p E (Sky.start junk) fs).st? = some s) : s.found = false :=
  filesLoop_inv p E (fun s => s.found = false) (fun _ _ _ h => h) (fun _ _ _ h hs => tleStep_found hp h hs) fs _ s rfl h

/-- **C88** (partial).  Whatever the files contain, whenever the reading loop comes to an end or to an
error, the answer lists some satellites `rs` — each once — and `n_sats_found` and `n_sunlit_sats` are
their number and the number of those in sunlight; when the run completes and no single satellite was
asked for, `n_sats` is the number listed as well. -/
theorem C88_counts_partial (W : World) (p : Params) (argv : List CString) (il : Bool) (name : CString)
    (paths : List CString) (code : ℤ) (out : CString) (h : scanFiles W p argv il name paths = .exit code out) :
    ∃ rs pre text post, out = pre ++ text ++ post ∧ Listing p rs text ∧ (rs.map Report.cat).Nodup ∧
      NumberMember post b!"n_sats_found" (intText rs.length) ∧
      LastMember post b!"n_sunlit_sats" (intText (rs.filter (fun r => (W.E p r.tle).sunlit)).length) ∧
      (code = 0 → single p = false → NumberMember post b!"n_sats" (intText rs.length)) := by
  have app : ∀ pre' a b : CString, a <:+: b → a <:+: pre' ++ b := fun pre' a b hab => hab.trans (List.suffix_append pre' b).isInfix
  have sunEq : ∀ s, (filesLoop p (W.E p) (start W.junk) (paths.map (fun f => (f, W.file f)))).st? = some s →
      s.nSunlit = (s.reports.filter (fun r => (W.E p r.tle).sunlit)).length := by
    intro s hs
    have hR := RInv.run hs
    rw [hR.sun]
    congr 2
    apply List.filter_congr
    intro r hr
    rw [(hR.ok r hr).obs]
  rcases scanFiles_exit h with ⟨s, hs, -, ho⟩ | ⟨st, msg, s, hs, ho⟩
  · have hst : (filesLoop p (W.E p) (start W.junk) (paths.map (fun f => (f, W.file f)))).st? = some s := by
      rcases hs with hs | hs <;> rw [hs] <;> rfl
    have hR := RInv.run hst
    obtain ⟨c1, c2, c3⟩ := close_counts argv il 0 (if single p && !s.found then b!"Requested satellite not found in TLE file" else [])
      s.nFound (if s.found then 1 else s.nFound) s.nSunlit
    refine ⟨s.reports, _, s.out, ending p argv il s, ho, by rw [hR.out]; exact render_listing p s.reports, hR.nodup, ?_, ?_, ?_⟩
    · rw [← hR.cnt]; exact app _ _ _ c1
    · rw [← sunEq s hst]; exact app _ _ _ c3
    · intro _ hsg
      have hfound : s.found = false := notFound_of_region hsg hst
      rw [hfound] at c2
      rw [← hR.cnt]
      unfold ending
      rw [hfound]
      exact app _ _ _ c2
  · have hst : (filesLoop p (W.E p) (start W.junk) (paths.map (fun f => (f, W.file f)))).st? = some s := by rw [hs]; rfl
    have hR := RInv.run hst
    obtain ⟨c1, c2, c3⟩ := close_counts argv il st msg s.nFound 0 s.nSunlit
    refine ⟨s.reports, _, s.out, _, ho, by rw [hR.out]; exact render_listing p s.reports, hR.nodup, ?_, ?_, ?_⟩
    · rw [← hR.cnt]; exact c1
    · rw [← sunEq s hst]; exact c3
    · rintro rfl -
      exfalso
      rcases filesLoop_exit _ _ _ hs with ⟨-, hc, -⟩ | ⟨-, hc, -⟩ | ⟨-, hc, -⟩ <;> exact absurd hc (by decide)

/-- **C88**: `n_sats` is wrong when the satellite asked for with `-s` is found but filtered out: nothing
is listed, `n_sats_found` is 0 and `n_sats` is 1. -/
theorem C88_filtered_violated : ∃ W argv out, Runs W argv (.exit 0 out) ∧
    ¬ (b!"\"satellites\"" <:+: out) ∧ NumberMember out b!"n_sats_found" b!"0" ∧ NumberMember out b!"n_sats" b!"1" := by
  obtain ⟨c, o, h1, h2⟩ := runs_of_check
    (W := { world0 [(b!"./f", recText b!"ISS (ZARYA)" (sat 25544 b!"98067A  "))] with E := fun _ _ => { here with sunlit := false } })
    (argv := [b!"sat_skymap", b!"f", b!"-l0,0,0", b!"-s25544", b!"-V"]) (n := 6)
    (P := fun c o => decide (c = 0 ∧ ¬ (b!"\"satellites\"" <:+: o) ∧ NumberMember o b!"n_sats_found" b!"0"
      ∧ NumberMember o b!"n_sats" b!"1")) (by decide +kernel)
  obtain ⟨rfl, h3⟩ := of_decide_eq_true h2
  exact ⟨_, _, o, h1, h3⟩

example : ∃ c o, Runs (world0 [(b!"./f", recText b!"A" (sat 25544 b!"98067A  ") ++ recText b!"B" (sat 44238 b!"19029D  "))])
    [b!"sat_skymap", b!"f", b!"-l0,0,0"] (.exit c o) ∧ c = 0 ∧ NumberMember o b!"n_sats_found" b!"2" ∧
    NumberMember o b!"n_sats" b!"2" ∧ LastMember o b!"n_sunlit_sats" b!"2" := by
  obtain ⟨c, o, h1, h2⟩ := runs_of_check
    (W := world0 [(b!"./f", recText b!"A" (sat 25544 b!"98067A  ") ++ recText b!"B" (sat 44238 b!"19029D  "))])
    (argv := [b!"sat_skymap", b!"f", b!"-l0,0,0"]) (n := 4)
    (P := fun c o => decide (c = 0 ∧ NumberMember o b!"n_sats_found" b!"2" ∧
    NumberMember o b!"n_sats" b!"2" ∧ LastMember o b!"n_sunlit_sats" b!"2")) (by decide +kernel)
  exact ⟨c, o, h1, of_decide_eq_true h2⟩

end SatSky.Props
