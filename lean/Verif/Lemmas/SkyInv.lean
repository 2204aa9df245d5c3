import Verif.Lemmas.SkyRun

/-! What one step of the reading loop can do, for arbitrary lines (no assumption on the file). -/

namespace SatSky.Sky

open SatSky Spec GetEl Opts

/-- Nothing was printed or counted. -/
structure Quiet (s s' : LoopSt) : Prop where
  reports : s'.reports = s.reports
  nFound : s'.nFound = s.nFound
  nSunlit : s'.nSunlit = s.nSunlit
  out : s'.out = s.out
  seen : ∃ x, s'.seen = s.seen ++ x
  found : s.found = true → s'.found = true

/-- One satellite was printed and counted. -/
structure Pushed (p : Params) (E : Tle → Obs) (s s' : LoopSt) (l : CString) (r : Report) : Prop where
  reports : s'.reports = s.reports ++ [r]
  nFound : s'.nFound = s.nFound + 1
  nSunlit : s'.nSunlit = if r.obs.sunlit then s.nSunlit + 1 else s.nSunlit
  out : s'.out = s.out ++ emit p s.nFound r
  seen : s'.seen = s.seen ++ (r.cat ++ [44])
  fresh : ¬ (r.cat ++ [44]) <:+: s.seen
  obs : r.obs = E r.tle
  nan : r.obs.nan = false
  alt : AltOk p r.obs
  region : single p = true ∨ p.nameFilter = true ∨ InRegion p r.obs
  light : LightOk p r.obs
  desig : desigText r.tle.intlDesig = some r.desig
  name : cstr s.name = some r.name
  cat : r.cat = (s.line1.drop 2).take 5
  parse : parseElements s.line1 l = some (0, some r.tle)
  sel : select p s r.cat r.tle = some (false, s'.found)

theorem Quiet.refl' {s s' : LoopSt} (h1 : s'.reports = s.reports) (h2 : s'.nFound = s.nFound)
    (h3 : s'.nSunlit = s.nSunlit) (h4 : s'.out = s.out) (h5 : s'.seen = s.seen)
    (h6 : s.found = true → s'.found = true) : Quiet s s' :=
  ⟨h1, h2, h3, h4, ⟨[], by simpa using h5⟩, h6⟩

theorem advance_cases (s : LoopSt) (l : CString) :
    advance s l = .ub ∨ ∃ b, advance s l = .next { s with line1 := l, name := b } := by
  unfold advance
  split
  · cases h : setName s.name l with
    | none => exact Or.inl rfl
    | some b => exact Or.inr ⟨b, rfl⟩
  · exact Or.inr ⟨s.name, rfl⟩

theorem select_found {p : Params} {s : LoopSt} {cat : CString} {t : Tle} {a b : Bool}
    (h : select p s cat t = some (a, b)) : s.found = true → b = true := by
  intro hf
  unfold select at h
  split at h
  · simp at h; rw [← h.2, hf]; simp
  · split at h
    · split at h
      · simp at h
      · simp at h; rw [← h.2, hf]; simp
    · split at h
      · simp at h; rw [← h.2, hf]
      · simp at h; rw [← h.2, hf]

/-- The selection does not look at the ghost list. -/
theorem select_exam (p : Params) (s : LoopSt) (e) (cat : CString) (t : Tle) :
    select p { s with exam := e } cat t = select p s cat t := rfl

theorem tleStep_cases (p : Params) (E : Tle → Obs) (s s' : LoopSt) (l : CString)
    (h : (tleStep p E s l).st? = some s') :
    Quiet s s' ∨ ((∃ r, Pushed p E s s' l r) ∧
      (∀ u, tleStep p E s l = .next u → s'.found = false ∧ s'.nFound ≠ p.maxSats) ∧
      ∀ a b c u, tleStep p E s l ≠ .exit a b c u) := by
  unfold tleStep at h ⊢
  cases hp : parseElements s.line1 l with
  | none => rw [hp] at h; simp [Flow.st?] at h
  | some v =>
    obtain ⟨rv, ot⟩ := v
    rw [hp] at h
    simp only [] at h ⊢
    by_cases hr : rv = 0
    · subst hr
      rw [if_pos rfl] at h ⊢
      cases ot with
      | none => simp [Flow.st?] at h
      | some t =>
        simp only [] at h ⊢
        unfold consider at h ⊢
        simp only [select_exam] at h ⊢
        set cat := (s.line1.drop 2).take 5 with hcat
        cases hsel : select p s cat t with
        | none => rw [hsel] at h; simp [Flow.st?] at h
        | some ab =>
          obtain ⟨skip, fnd⟩ := ab
          have hfnd := select_found hsel
          rw [hsel] at h
          simp only [] at h ⊢
          by_cases hskip : skip = true
          · rw [if_pos hskip] at h
            simp only [Flow.st?, Option.some.injEq] at h
            subst h
            exact Or.inl (Quiet.refl' rfl rfl rfl rfl rfl hfnd)
          · rw [if_neg hskip] at h ⊢
            have hskip' : skip = false := by simpa using hskip
            subst hskip'
            by_cases hstr : strstr s.seen (cat ++ [44]) = true
            · rw [if_pos hstr] at h
              simp only [Flow.st?, Option.some.injEq] at h
              subst h
              exact Or.inl (Quiet.refl' rfl rfl rfl rfl rfl hfnd)
            · rw [if_neg hstr] at h ⊢
              have hfresh : ¬ (cat ++ [44]) <:+: s.seen := fun hc => hstr ((strstr_iff _ _).mpr hc)
              cases hrem : remember { s with exam := s.exam ++ [(s.line1, l)], found := fnd } (cat ++ [44]) with
              | none => rw [hrem] at h; simp [Flow.st?] at h
              | some s1 =>
                rw [hrem] at h
                simp only [] at h ⊢
                unfold remember at hrem
                simp only [] at hrem
                have hs1 : ∃ c, s1 = { s with exam := s.exam ++ [(s.line1, l)], found := fnd, seen := s.seen ++ (cat ++ [44]), useLen := s.useLen + 6, curLen := c } := by
                  generalize (if s.useLen ≥ s.curLen then s.curLen + 10000 else s.curLen) = cl at hrem
                  split at hrem
                  · simp only [Option.some.injEq] at hrem; exact ⟨_, hrem.symm⟩
                  · simp at hrem
                clear hrem
                obtain ⟨cl, rfl⟩ := hs1
                unfold observe at h ⊢
                simp only [] at h ⊢
                by_cases hnan : (E t).nan = true
                · rw [if_pos hnan] at h
                  simp only [Flow.st?, Option.some.injEq] at h
                  subst h
                  exact Or.inl ⟨rfl, rfl, rfl, rfl, ⟨_, rfl⟩, hfnd⟩
                · rw [if_neg hnan] at h ⊢
                  by_cases halt : (p.altRange && (decide ((E t).alt < p.altMin) || decide ((E t).alt > p.altMax))) = true
                  · rw [if_pos halt] at h
                    simp only [Flow.st?, Option.some.injEq] at h
                    subst h
                    exact Or.inl ⟨rfl, rfl, rfl, rfl, ⟨_, rfl⟩, hfnd⟩
                  · rw [if_neg halt] at h ⊢
                    have hAlt : AltOk p (E t) := by
                      intro ha
                      simp only [ha, Bool.true_and, Bool.or_eq_true, decide_eq_true_eq, not_or, not_lt] at halt
                      exact ⟨halt.1, halt.2⟩
                    by_cases hreg : (single p || p.nameFilter || decide ((E t).sep ≤ p.radius) || decide ((E t).sep1 ≤ p.radius)) = true
                    · rw [if_pos hreg] at h ⊢
                      have hReg : single p = true ∨ p.nameFilter = true ∨ InRegion p (E t) := by
                        simp only [Bool.or_eq_true, decide_eq_true_eq] at hreg
                        unfold InRegion
                        tauto
                      unfold report at h ⊢
                      simp only [] at h ⊢
                      by_cases hsun : (p.sunlitOnly && !(E t).sunlit) = true
                      · rw [if_pos hsun] at h
                        simp only [Flow.st?, Option.some.injEq] at h
                        subst h
                        exact Or.inl ⟨rfl, rfl, rfl, rfl, ⟨_, rfl⟩, hfnd⟩
                      · rw [if_neg hsun] at h ⊢
                        have hLight : LightOk p (E t) := by
                          intro ha
                          simpa [ha] using hsun
                        cases hnm : cstr s.name with
                        | none => rw [hnm] at h; simp [Flow.st?] at h
                        | some nm =>
                          cases hd : desigText t.intlDesig with
                          | none => rw [hnm, hd] at h; simp [Flow.st?] at h
                          | some d =>
                            rw [hnm, hd] at h
                            simp only [] at h ⊢
                            right
                            by_cases hst : (fnd || decide (s.nFound + 1 = p.maxSats)) = true
                            · rw [if_pos hst] at h
                              simp only [Flow.st?, Option.some.injEq] at h
                              subst h
                              refine ⟨⟨{ name := nm, desig := d, cat := cat, tle := t, obs := E t },
                                ⟨rfl, rfl, rfl, rfl, rfl, hfresh, rfl, by simpa using hnan, hAlt, hReg, hLight,
                                  hd, hnm, rfl, hp, hsel⟩⟩, ?_, ?_⟩
                              · intro u hu
                                rw [if_pos hst] at hu
                                simp at hu
                              · intro a b c u hu
                                rw [if_pos hst] at hu
                                simp at hu
                            · rw [if_neg hst] at h ⊢
                              have hst' : fnd = false ∧ s.nFound + 1 ≠ p.maxSats := by
                                simpa using hst
                              generalize hbig : ({ line1 := List.take 16 s.line1, name := s.name, seen := s.seen ++ (cat ++ [44]), useLen := s.useLen + 6, curLen := cl, found := fnd, nFound := s.nFound + 1, nSunlit := if (E t).sunlit = true then s.nSunlit + 1 else s.nSunlit, out := s.out ++ emit p s.nFound { name := nm, desig := d, cat := cat, tle := t, obs := E t }, reports := s.reports ++ [{ name := nm, desig := d, cat := cat, tle := t, obs := E t }], exam := s.exam ++ [(s.line1, l)] } : LoopSt) = big at h ⊢
                              rcases advance_cases big l with hadv | ⟨b, hadv⟩
                              · rw [hadv] at h; simp [Flow.st?] at h
                              · rw [hadv] at h ⊢
                                simp only [Flow.st?, Option.some.injEq] at h
                                subst h
                                subst hbig
                                refine ⟨⟨{ name := nm, desig := d, cat := cat, tle := t, obs := E t },
                                  ⟨rfl, rfl, rfl, rfl, rfl, hfresh, rfl, by simpa using hnan, hAlt, hReg, hLight,
                                    hd, hnm, rfl, hp, hsel⟩⟩, ?_, ?_⟩
                                · intro u _
                                  exact hst'
                                · intro a b c u hu
                                  simp at hu
                    · rw [if_neg hreg] at h
                      generalize hbig : ({ line1 := s.line1, name := s.name, seen := s.seen ++ (cat ++ [44]), useLen := s.useLen + 6, curLen := cl, found := fnd, nFound := s.nFound, nSunlit := s.nSunlit, out := s.out, reports := s.reports, exam := s.exam ++ [(s.line1, l)] } : LoopSt) = big at h
                      rcases advance_cases big l with hadv | ⟨b, hadv⟩
                      · rw [hadv] at h; simp [Flow.st?] at h
                      · rw [hadv] at h
                        simp only [Flow.st?, Option.some.injEq] at h
                        subst h
                        subst hbig
                        exact Or.inl ⟨rfl, rfl, rfl, rfl, ⟨_, rfl⟩, hfnd⟩
    · rw [if_neg hr] at h
      rcases advance_cases s l with hadv | ⟨b, hadv⟩
      · rw [hadv] at h; simp [Flow.st?] at h
      · rw [hadv] at h
        simp only [Flow.st?, Option.some.injEq] at h
        subst h
        exact Or.inl (Quiet.refl' rfl rfl rfl rfl rfl id)

end SatSky.Sky
