import Verif.Model.VisMain
import Verif.Lemmas.VisOpt

/-! The ways in which a run of `sat_visibility` ends with an answer. -/

namespace SatSky.Vis

open SatSky Dates GetEl Opts Sky Prog

theorem fits_msg {n : Nat} {msg : CString} {code c : ℤ} {out t : CString}
    (h : Outcome.exit code out = if fits n msg then Outcome.exit c t else .ub) : code = c ∧ out = t := by
  split at h
  · simpa using h
  · simp at h

theorem vafterLoop_ok {p p' : VParams} (h : vafterLoop p = .ok p') :
    p.inGeopos = true ∧ p' = { p with tlePath := p'.tlePath } ∧ (p'.tlePath = p.tlePath ∨ p'.tlePath = b!"/usr/local/TLErepo") := by
  unfold vafterLoop at h
  by_cases hd : p.defDir
  · simp only [if_pos hd] at h
    split at h
    · rename_i hg
      simp only [Res.ok.injEq] at h
      subst h
      exact ⟨hg, rfl, Or.inr rfl⟩
    · simp at h
  · simp only [if_neg hd] at h
    split at h
    · rename_i hg
      simp only [Res.ok.injEq] at h
      subst h
      exact ⟨hg, rfl, Or.inl rfl⟩
    · simp at h

theorem vafterLoop_not_error {p : VParams} {st : ℤ} {msg : CString} : vafterLoop p ≠ .stop (.error st msg) := by
  unfold vafterLoop
  intro h
  simp only [] at h
  split at h <;> split at h <;> simp at h

theorem VRuns_exit {W : VWorld} {argv : List CString} {code : ℤ} {out : CString} (h : VRuns W argv (.exit code out)) :
    (argv.length < 2 ∧ code = 0 ∧ out = vopenJson ++ vcloseJson argv false 1 vmsgUsage 0) ∨
    (∃ n msg, 2 ≤ argv.length ∧ vsteps W.L argv n vinit = .stop (.error code msg) ∧ out = vopenJson ++ vcloseJson argv false code msg 0) ∨
    ∃ p p', 2 ≤ argv.length ∧ VParses W.L argv p ∧ vafterLoop p = .ok p' ∧ Computes W argv p' (.exit code out) := by
  unfold VRuns at h
  by_cases hl : argv.length < 2
  · rw [if_pos hl] at h
    unfold vnoArgs at h
    simp only [Outcome.exit.injEq] at h
    exact Or.inl ⟨hl, h.1, h.2⟩
  · rw [if_neg hl] at h
    obtain ⟨n, h⟩ := h
    cases hs : vsteps W.L argv n vinit with
    | run s => rw [hs] at h; exact h.elim
    | ub => rw [hs] at h; simp at h
    | stop e =>
      cases e with
      | usage => rw [hs] at h; simp at h
      | error st msg =>
        rw [hs] at h
        simp only [Outcome.exit.injEq] at h
        obtain ⟨rfl, rfl⟩ := h
        exact Or.inr (Or.inl ⟨n, msg, by omega, hs, rfl⟩)
    | done p =>
      rw [hs] at h
      simp only [] at h
      cases ha : vafterLoop p with
      | ub => rw [ha] at h; simp at h
      | stop e =>
        cases e with
        | usage => rw [ha] at h; simp at h
        | error st msg => exact absurd ha vafterLoop_not_error
      | ok p' =>
        rw [ha] at h
        exact Or.inr (Or.inr ⟨p, p', by omega, ⟨n, hs⟩, ha, h⟩)

theorem head64 {a : CString} (h : a.head? = some 64) : a = 64 :: a.drop 1 := by
  cases a with
  | nil => simp at h
  | cons x t => simp only [List.head?_cons, Option.some.injEq] at h; subst h; rfl

/-- The message when neither `-s` nor `-i` was given. -/
def msgNeed : CString := b!"Need to input a NORAD ID or an international designator."

theorem Computes_exit {W : VWorld} {argv : List CString} {p : VParams} {code : ℤ} {out : CString} (h : Computes W argv p (.exit code out)) :
    (∃ name, argv.getD (fileIndex argv) [] = 64 :: name ∧ W.file (p.tlePath ++ 47 :: name) = none ∧ code = 2 ∧
      out = vopenJson ++ vcloseJson (argv.set (fileIndex argv) name) true 2 (b!"Could not open input file " ++ (p.tlePath ++ 47 :: name)) 0) ∨
    (p.singleN = false ∧ p.singleI = false ∧ code = 2 ∧ ∃ argv' il, (argv' = argv ∧ il = false ∨
        ∃ name, argv.getD (fileIndex argv) [] = 64 :: name ∧ argv' = argv.set (fileIndex argv) name ∧ il = true) ∧
      out = vopenJson ++ vcloseJson argv' il 2 msgNeed 0) ∨
    (∃ name content, argv.getD (fileIndex argv) [] = 64 :: name ∧ W.file (p.tlePath ++ 47 :: name) = some content ∧
      (p.singleN = true ∨ p.singleI = true) ∧
      Searches W (argv.set (fileIndex argv) name) true name p (listPaths p.tlePath content) (.exit code out)) ∨
    ∃ path, singlePath p.tlePath (argv.getD (fileIndex argv) []) = some path ∧ (p.singleN = true ∨ p.singleI = true) ∧
      Searches W argv false (argv.getD (fileIndex argv) []) p [path] (.exit code out) := by
  have hreq : ¬ (p.singleN = false ∧ p.singleI = false) → p.singleN = true ∨ p.singleI = true := by
    cases p.singleN <;> cases p.singleI <;> simp
  unfold Computes at h
  dsimp only at h
  by_cases h64 : (argv.getD (fileIndex argv) []).head? = some 64
  · rw [if_pos h64] at h
    have e := head64 h64
    split at h
    · cases hf : W.file (p.tlePath ++ 47 :: (argv.getD (fileIndex argv) []).drop 1) with
      | none =>
        rw [hf] at h
        obtain ⟨h1, h2⟩ := fits_msg h
        exact Or.inl ⟨_, e, hf, h1, h2⟩
      | some content =>
        rw [hf] at h
        dsimp only at h
        by_cases hn : p.singleN = false ∧ p.singleI = false
        · rw [if_pos hn] at h
          simp only [Outcome.exit.injEq] at h
          exact Or.inr (Or.inl ⟨hn.1, hn.2, h.1, _, _, Or.inr ⟨_, e, rfl, rfl⟩, h.2⟩)
        · rw [if_neg hn] at h
          exact Or.inr (Or.inr (Or.inl ⟨_, content, e, hf, hreq hn, h⟩))
    · simp at h
  · rw [if_neg h64] at h
    by_cases hn : p.singleN = false ∧ p.singleI = false
    · rw [if_pos hn] at h
      simp only [Outcome.exit.injEq] at h
      exact Or.inr (Or.inl ⟨hn.1, hn.2, h.1, _, _, Or.inl ⟨rfl, rfl⟩, h.2⟩)
    · rw [if_neg hn] at h
      cases hp : singlePath p.tlePath (argv.getD (fileIndex argv) []) with
      | none => rw [hp] at h; simp at h
      | some path =>
        rw [hp] at h
        exact Or.inr (Or.inr (Or.inr ⟨path, rfl, hreq hn, h⟩))

theorem Searches_exit {W : VWorld} {argv : List CString} {il : Bool} {name : CString} {p : VParams} {paths : List CString} {code : ℤ} {out : CString}
    (h : Searches W argv il name p paths (.exit code out)) :
    (∃ msg, ffiles p { name := W.junk } (paths.map (fun f => (f, W.file f))) = .exit code msg ∧
      out = vopenJson ++ vcloseJson argv il code msg 0) ∨
    (∃ s t, ffiles p { name := W.junk } (paths.map (fun f => (f, W.file f))) = .hit s t ∧ Observes W argv il name p s t (.exit code out)) ∨
    ∃ s path, ffiles p { name := W.junk } (paths.map (fun f => (f, W.file f))) = .next s ∧ paths.getLast? = some path ∧ code = 1 ∧
      out = vopenJson ++ vcloseJson argv il 1 (b!"Satellite not found in " ++ path) 0 := by
  unfold Searches at h
  cases hf : ffiles p { name := W.junk } (paths.map (fun f => (f, W.file f))) with
  | ub => rw [hf] at h; simp at h
  | exit st msg =>
    rw [hf] at h
    simp only [Outcome.exit.injEq] at h
    obtain ⟨rfl, rfl⟩ := h
    exact Or.inl ⟨msg, rfl, rfl⟩
  | hit s t => rw [hf] at h; exact Or.inr (Or.inl ⟨s, t, rfl, h⟩)
  | next s =>
    rw [hf] at h
    dsimp only at h
    cases hp : paths.getLast? with
    | none => rw [hp] at h; simp at h
    | some path =>
      rw [hp] at h
      obtain ⟨h1, h2⟩ := fits_msg h
      exact Or.inr (Or.inr ⟨s, path, rfl, rfl, h1, h2⟩)

/-- The search ends with an error for a file that cannot be opened or is empty. -/
theorem ffiles_exit {p : VParams} (fs : List (CString × Option CString)) (s : FSt) {st : ℤ} {msg : CString} (h : ffiles p s fs = .exit st msg) :
    (st = 2 ∧ ∃ path, (path, none) ∈ fs ∧ msg = b!"Could not open input file " ++ path) ∨
    (st = -2 ∧ ∃ path, (path, some []) ∈ fs ∧ msg = b!"Could not read first TLE line from file " ++ path) := by
  have adv : ∀ s l, fadvance s l ≠ .exit st msg := by
    intro s l hc
    unfold fadvance at hc
    split at hc
    · split at hc <;> simp at hc
    · simp at hc
  have cons : ∀ s t l, fconsider p s t l ≠ .exit st msg := by
    intro s t l hc
    unfold fconsider at hc
    split at hc
    · split at hc
      · simp at hc
      · exact adv _ _ hc
    · split at hc
      · split at hc
        · simp at hc
        · split at hc
          · simp at hc
          · exact adv _ _ hc
      · exact adv _ _ hc
  have stp : ∀ s l, fstep p s l ≠ .exit st msg := by
    intro s l hc
    unfold fstep at hc
    split at hc
    · simp at hc
    · split at hc
      · split at hc
        · exact cons _ _ _ hc
        · simp at hc
      · exact adv _ _ hc
  have lns : ∀ ls s, flines p s ls ≠ .exit st msg := by
    intro ls
    induction ls with
    | nil => intro s hc; simp [flines] at hc
    | cons l ls ih =>
      intro s hc
      rw [flines] at hc
      split at hc
      · exact ih _ hc
      · exact stp _ _ hc
  induction fs generalizing s with
  | nil => simp [ffiles] at h
  | cons f fs ih =>
    obtain ⟨path, oc⟩ := f
    cases oc with
    | none =>
      simp only [ffiles] at h
      split at h
      · simp only [Find.exit.injEq] at h
        obtain ⟨rfl, rfl⟩ := h
        exact Or.inl ⟨rfl, path, by simp, rfl⟩
      · simp at h
    | some content =>
      simp only [ffiles] at h
      split at h
      · rename_i v hv
        rcases ih v h with ⟨h1, x, hx, h3⟩ | ⟨h1, x, hx, h3⟩
        · exact Or.inl ⟨h1, x, by simp [hx], h3⟩
        · exact Or.inr ⟨h1, x, by simp [hx], h3⟩
      · unfold ffile at h
        cases hl : fileLines 100 content with
        | nil =>
          rw [hl] at h
          simp only [] at h
          have hc : content = [] := by
            cases content with
            | nil => rfl
            | cons x t => simp [fileLines, linesGo, fgets] at hl
          split at h
          · simp only [Find.exit.injEq] at h
            obtain ⟨rfl, rfl⟩ := h
            exact Or.inr ⟨rfl, path, by simp [hc], rfl⟩
          · simp at h
        | cons l ls =>
          rw [hl] at h
          simp only [] at h
          split at h
          · simp at h
          · exact absurd h (lns _ _)

/-- The answer for a record that was found. -/
theorem Observes_exit {W : VWorld} {argv : List CString} {il : Bool} {name : CString} {p : VParams} {s : FSt} {t : Tle} {code : ℤ} {out : CString}
    (h : Observes W argv il name p s t (.exit code out)) :
    (∃ r x, Ends (cfgOf W.L.F p) (W.hist p t) r ∧ passText W p s t r.blocks = some x ∧ code = 0 ∧
      (r.blocks = [] ∧ out = vopenJson ++ geoFields ++ vparamsJson name (W.zenith p) p ++ x ++ vsunJson b!"sun" (W.sun p (cfgOf W.L.F p).jd0)
          ++ vcloseJson argv il 0 [] 0 ∨
       r.blocks ≠ [] ∧ out = vopenJson ++ geoFields ++ vparamsJson name (W.zenith p) p ++ x ++ b!"}, \"sunlit_duration_minutes\": "
          ++ fmtF 2 (minutes (cfgOf W.L.F p) W.L.G r) ++ b!", " ++ vcloseJson argv il 0 [] 1)) ∨
    ∃ t0 n r x, Begins (cfgOf W.L.F p) (W.hist p t) t0 ∧ timeLoop (cfgOf W.L.F p) (W.hist p t) n { t := t0 } = .outOfRange r ∧
      passText W p s t r.blocks = some x ∧ code = 1 ∧
      out = vopenJson ++ geoFields ++ vparamsJson name (W.zenith p) p ++ x
        ++ vcloseJson argv il 2 b!"Satellite altitude out of requested range" (if r.blocks = [] then 0 else 1) := by
  rcases h with ⟨r, hr, ho⟩ | ⟨t0, n, r, hb, hr, ho⟩
  · left
    unfold normalEnd at ho
    dsimp only at ho
    cases hx : passText W p s t r.blocks with
    | none => rw [hx] at ho; simp at ho
    | some x =>
      rw [hx] at ho
      dsimp only at ho
      by_cases hbl : r.blocks = []
      · rw [if_pos hbl] at ho
        simp only [Outcome.exit.injEq] at ho
        exact ⟨r, x, hr, hx, ho.1, Or.inl ⟨hbl, ho.2⟩⟩
      · rw [if_neg hbl] at ho
        simp only [Outcome.exit.injEq] at ho
        exact ⟨r, x, hr, hx, ho.1, Or.inr ⟨hbl, ho.2⟩⟩
  · right
    unfold rangeEnd at ho
    dsimp only at ho
    cases hx : passText W p s t r.blocks with
    | none => rw [hx] at ho; simp at ho
    | some x =>
      rw [hx] at ho
      simp only [Outcome.exit.injEq] at ho
      exact ⟨t0, n, r, x, hb, hr, hx, ho.1, ho.2⟩

/-! ### The groups printed -/

/-- The groups printed while the time loop runs. -/
def Shape (s : TSt) : Prop :=
  s.endFound = false ∧ ((s.startFound = false ∧ s.blocks = []) ∨ (s.startFound = true ∧ s.blocks.map Block.label = [.start]))

/-- The groups printed when it is left. -/
def ShapeOver (s : TSt) : Prop :=
  (s.startFound = false ∧ s.blocks = []) ∨ (s.startFound = true ∧ s.endFound = false ∧ s.blocks.map Block.label = [.start]) ∨
  (s.startFound = true ∧ s.endFound = true ∧ s.blocks.map Block.label = [.start, .fin])

theorem Shape.over {s : TSt} (h : Shape s) : ShapeOver s := by
  obtain ⟨h1, h | h⟩ := h
  · exact Or.inl h
  · exact Or.inr (Or.inl ⟨h.1, h1, h.2⟩)

theorem Shape.step {C : Cfg} {H : History} {s : TSt} (h : Shape s) :
    match timeStep C H s with
    | .run s' => Shape s'
    | .over s' => ShapeOver s'
    | .outOfRange s' => Shape s' ∧ C.filter = true ∧ (H.alt s'.t < C.altMin ∨ H.alt s'.t > C.altMax) := by
  have hf : ∀ u : TSt, Shape u → (match inField C H u with
      | .run s' => Shape s' | .over s' => ShapeOver s' | .outOfRange _ => False) := by
    intro u hu
    have hu' : ∀ v : TSt, v.endFound = u.endFound → v.startFound = u.startFound → v.blocks = u.blocks → Shape v := by
      intro v k1 k2 k3; unfold Shape; rw [k1, k2, k3]; exact hu
    obtain ⟨v, hi, k1, k2, k3⟩ : ∃ v : TSt, inField C H u = (if H.lit u.t = false then
          if v.startFound = false then .run v else if v.endFound = false then .over (markEnd C v) else .run v
        else if v.startFound = false then .run (markStart C v) else .run v) ∧
        v.endFound = u.endFound ∧ v.startFound = u.startFound ∧ v.blocks = u.blocks := by
      refine ⟨_, rfl, ?_, ?_, ?_⟩ <;> dsimp only <;> split <;> rfl
    rw [hi]
    have hsv : Shape v := hu' v k1 k2 k3
    obtain ⟨he, hc⟩ := hsv
    by_cases hl : H.lit u.t = false
    · rw [if_pos hl]
      by_cases hst : v.startFound = false
      · rw [if_pos hst]; exact ⟨he, hc⟩
      · rw [if_neg hst, if_pos he]
        rcases hc with hc | hc
        · exact absurd hc.1 hst
        · refine Or.inr (Or.inr ⟨hc.1, rfl, ?_⟩)
          unfold markEnd
          simp [hc.2]
    · rw [if_neg hl]
      by_cases hst : v.startFound = false
      · rw [if_pos hst]
        rcases hc with hc | hc
        · refine ⟨he, Or.inr ⟨rfl, ?_⟩⟩
          unfold markStart
          simp [hc.2]
        · rw [hst] at hc; simp at hc
      · rw [if_neg hst]; exact ⟨he, hc⟩
  unfold timeStep
  by_cases ht : s.t ≤ C.jd1
  · rw [if_pos ht]
    by_cases hr : C.filter = true ∧ (H.alt s.t < C.altMin ∨ H.alt s.t > C.altMax)
    · rw [if_pos hr]; exact ⟨h, hr.1, hr.2⟩
    · rw [if_neg hr]
      dsimp only
      by_cases hsep : H.sep s.t > C.radius
      · rw [if_pos hsep]
        by_cases hst : s.startFound = false
        · rw [if_pos hst]; exact h
        · rw [if_neg hst]
          exact Shape.over h
      · rw [if_neg hsep]
        have := hf { s with posT := s.t, conv := 0 } h
        revert this
        cases inField C H { s with posT := s.t, conv := 0 } <;> simp
  · rw [if_neg ht]; exact h.over

theorem Shape.loop {C : Cfg} {H : History} (n : Nat) {s : TSt} (h : Shape s) :
    match timeLoop C H n s with
    | .run s' => Shape s'
    | .over s' => ShapeOver s'
    | .outOfRange s' => Shape s' ∧ C.filter = true ∧ (H.alt s'.t < C.altMin ∨ H.alt s'.t > C.altMax) := by
  induction n generalizing s with
  | zero => exact h
  | succ n ih =>
    rw [timeLoop]
    have hs := h.step (C := C) (H := H)
    cases ht : timeStep C H s with
    | run s' => rw [ht] at hs; exact ih hs
    | over s' => rw [ht] at hs; exact hs
    | outOfRange s' => rw [ht] at hs; exact hs

/-- A completed answer has no group or the four of them. -/
theorem ends_labels {C : Cfg} {H : History} {r : TSt} (h : Ends C H r) :
    r.blocks = [] ∨ r.blocks.map Block.label = [.start, .fin, .mid, .max] := by
  obtain ⟨t0, n, s, -, hl, rfl⟩ := h
  have := Shape.loop (C := C) (H := H) n (s := { t := t0 }) ⟨rfl, Or.inl ⟨rfl, rfl⟩⟩
  rw [hl] at this
  unfold finish addMid closePass
  rcases this with ⟨h1, h2⟩ | ⟨h1, h2, h3⟩ | ⟨h1, h2, h3⟩
  · left; simp [h1, h2]
  · right; simp [h1, h2, h3]
  · right; simp [h1, h2, h3]

end SatSky.Vis
