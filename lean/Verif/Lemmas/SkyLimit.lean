import Verif.Lemmas.SkyInv2

/-! The run with a limit on the number of satellites against the run without. -/

namespace SatSky.Sky

open SatSky Spec GetEl Opts

/-- The same parameters with another limit. -/
def withMax (p : Params) (n : ℤ) : Params := { p with maxSats := n }

/-- Comparison of one step under limit `N` and without limit. -/
def SimStep (p : Params) (N : ℤ) (s : LoopSt) (f g : Flow) : Prop :=
  f = g ∨ (s.nFound + 1 = N ∧ ∃ s' r, f = .stop s' ∧ s'.reports = s.reports ++ [r] ∧
    ∀ u, g.st? = some u → u.reports = s.reports ++ [r])

theorem report_sim (p : Params) (N : ℤ) (s : LoopSt) (cat : CString) (t : Tle) (o : Obs) (l : CString)
    (h0 : 0 ≤ s.nFound) :
    SimStep p N s (report (withMax p N) s cat t o l) (report (withMax p 0) s cat t o l) := by
  unfold report
  simp only [show (withMax p N).sunlitOnly = p.sunlitOnly from rfl,
    show (withMax p 0).sunlitOnly = p.sunlitOnly from rfl,
    show (withMax p N).maxSats = N from rfl, show (withMax p 0).maxSats = 0 from rfl,
    show ∀ k r, emit (withMax p N) k r = emit p k r from fun _ _ => rfl,
    show ∀ k r, emit (withMax p 0) k r = emit p k r from fun _ _ => rfl]
  by_cases hsun : (p.sunlitOnly && !o.sunlit) = true
  · rw [if_pos hsun, if_pos hsun]; exact Or.inl rfl
  · rw [if_neg hsun, if_neg hsun]
    cases cstr s.name with
    | none => exact Or.inl rfl
    | some nm =>
      cases desigText t.intlDesig with
      | none => exact Or.inl rfl
      | some d =>
        simp only []
        have hz : decide (s.nFound + 1 = 0) = false := by simp; omega
        by_cases hN : s.nFound + 1 = N
        · right
          refine ⟨hN, ?_⟩
          rw [if_pos (by simp [hN])]
          refine ⟨_, _, rfl, rfl, ?_⟩
          intro u hu
          split at hu
          · simp only [Flow.st?, Option.some.injEq] at hu
            subst hu; rfl
          · rename_i hst
            generalize hbig : ({ line1 := List.take 16 s.line1, name := s.name, seen := s.seen, useLen := s.useLen, curLen := s.curLen, found := s.found, nFound := s.nFound + 1, nSunlit := if o.sunlit = true then s.nSunlit + 1 else s.nSunlit, out := s.out ++ emit p s.nFound { name := nm, desig := d, cat := cat, tle := t, obs := o }, reports := s.reports ++ [{ name := nm, desig := d, cat := cat, tle := t, obs := o }], exam := s.exam } : LoopSt) = big at hu
            rcases advance_cases big l with hadv | ⟨b, hadv⟩
            · rw [hadv] at hu; simp [Flow.st?] at hu
            · rw [hadv] at hu
              simp only [Flow.st?, Option.some.injEq] at hu
              subst hu; subst hbig; rfl
        · left
          have hN' : decide (s.nFound + 1 = N) = false := by simpa using hN
          rw [hz, hN']

theorem SimStep.congr {p : Params} {N : ℤ} {s s1 : LoopSt} {f g : Flow} (h : SimStep p N s1 f g)
    (h1 : s1.nFound = s.nFound) (h2 : s1.reports = s.reports) : SimStep p N s f g := by
  unfold SimStep at h ⊢
  rw [h1, h2] at h
  exact h

theorem tleStep_sim (p : Params) (N : ℤ) (E : Tle → Obs) (s : LoopSt) (l : CString) (h0 : 0 ≤ s.nFound) :
    SimStep p N s (tleStep (withMax p N) E s l) (tleStep (withMax p 0) E s l) := by
  unfold tleStep
  cases parseElements s.line1 l with
  | none => exact Or.inl rfl
  | some v =>
    obtain ⟨rv, ot⟩ := v
    simp only []
    by_cases hr : rv = 0
    · rw [if_pos hr, if_pos hr]
      cases ot with
      | none => exact Or.inl rfl
      | some t =>
        simp only []
        unfold consider
        simp only [show ∀ u c, select (withMax p N) u c t = select p u c t from fun _ _ => rfl,
          show ∀ u c, select (withMax p 0) u c t = select p u c t from fun _ _ => rfl]
        generalize select p _ _ t = sel
        cases sel with
        | none => exact Or.inl rfl
        | some ab =>
          obtain ⟨skip, fnd⟩ := ab
          simp only []
          by_cases hskip : skip = true
          · rw [if_pos hskip, if_pos hskip]; exact Or.inl rfl
          · rw [if_neg hskip, if_neg hskip]
            split
            · exact Or.inl rfl
            · cases hrem : remember { s with exam := s.exam ++ [(s.line1, l)], found := fnd } ((s.line1.drop 2).take 5 ++ [44]) with
              | none => exact Or.inl rfl
              | some s1 =>
                simp only []
                have hs1 : s1.nFound = s.nFound ∧ s1.reports = s.reports := by
                  unfold remember at hrem
                  simp only [] at hrem
                  generalize (if s.useLen ≥ s.curLen then s.curLen + 10000 else s.curLen) = cl at hrem
                  split at hrem
                  · simp only [Option.some.injEq] at hrem; subst hrem; exact ⟨rfl, rfl⟩
                  · simp at hrem
                refine SimStep.congr (s1 := s1) ?_ hs1.1 hs1.2
                unfold observe
                simp only [show (withMax p N).altRange = p.altRange from rfl,
                  show (withMax p 0).altRange = p.altRange from rfl,
                  show (withMax p N).altMin = p.altMin from rfl, show (withMax p 0).altMin = p.altMin from rfl,
                  show (withMax p N).altMax = p.altMax from rfl, show (withMax p 0).altMax = p.altMax from rfl,
                  show (withMax p N).radius = p.radius from rfl, show (withMax p 0).radius = p.radius from rfl,
                  show (withMax p N).nameFilter = p.nameFilter from rfl,
                  show (withMax p 0).nameFilter = p.nameFilter from rfl,
                  show single (withMax p N) = single p from rfl, show single (withMax p 0) = single p from rfl]
                split
                · exact Or.inl rfl
                · split
                  · exact Or.inl rfl
                  · split
                    · exact report_sim p N s1 _ t _ l (by rw [hs1.1]; exact h0)
                    · exact Or.inl rfl
    · rw [if_neg hr, if_neg hr]; exact Or.inl rfl

/-! Reports only grow. -/

theorem tleStep_mono (p : Params) (E : Tle → Obs) (s s' : LoopSt) (l : CString)
    (h : (tleStep p E s l).st? = some s') : s.reports <+: s'.reports ∧ s.nFound ≤ s'.nFound := by
  rcases tleStep_cases p E s s' l h with hq | ⟨⟨r, hr⟩, -⟩
  · rw [hq.reports, hq.nFound]; exact ⟨List.prefix_rfl, le_rfl⟩
  · rw [hr.reports, hr.nFound]; exact ⟨List.prefix_append _ _, by omega⟩

theorem tleLoop_mono (p : Params) (E : Tle → Obs) (ls : List CString) (s s' : LoopSt)
    (h : (tleLoop p E s ls).st? = some s') : s.reports <+: s'.reports := by
  induction ls generalizing s with
  | nil => simp only [tleLoop, Flow.st?, Option.some.injEq] at h; subst h; exact List.prefix_rfl
  | cons l ls ih =>
    rw [tleLoop_cons] at h
    cases hst : tleStep p E s l with
    | next u =>
      rw [hst] at h
      exact (tleStep_mono p E s u l (by rw [hst]; rfl)).1.trans (ih u h)
    | stop u => rw [hst] at h; exact (tleStep_mono p E s s' l (by rw [hst]; exact h)).1
    | exit a b c u => rw [hst] at h; exact (tleStep_mono p E s s' l (by rw [hst]; exact h)).1
    | ub => rw [hst] at h; simp [Flow.st?] at h

theorem filesLoop_mono (p : Params) (E : Tle → Obs) (fs : List (CString × Option CString)) (s s' : LoopSt)
    (h : (filesLoop p E s fs).st? = some s') : s.reports <+: s'.reports :=
  filesLoop_inv p E (fun u => s.reports <+: u.reports) (fun _ _ _ h => h)
    (fun u u' l h hs => h.trans (tleStep_mono p E u u' l hs).1) fs s s' List.prefix_rfl h

/-- Relation between the results of the two runs from the same state. -/
def SimRun (N : ℤ) (s : LoopSt) (f g : Flow) : Prop :=
  f = g ∨ ∃ s', f = .stop s' ∧ (s'.reports.length : ℤ) = N ∧
    ∀ u, g.st? = some u → s'.reports <+: u.reports

theorem tleLoop_sim (p : Params) (N : ℤ) (E : Tle → Obs) (ls : List CString) (s : LoopSt)
    (h0 : s.nFound = s.reports.length) :
    SimRun N s (tleLoop (withMax p N) E s ls) (tleLoop (withMax p 0) E s ls) := by
  induction ls generalizing s with
  | nil => exact Or.inl rfl
  | cons l ls ih =>
    rw [tleLoop_cons, tleLoop_cons]
    rcases tleStep_sim p N E s l (by omega) with heq | ⟨hN, s', r, hf, hr, hg⟩
    · rw [heq]
      cases hst : tleStep (withMax p 0) E s l with
      | next u =>
        simp only []
        have hu : u.nFound = u.reports.length := by
          rcases tleStep_cases _ E s u l (by rw [hst]; rfl) with hq | ⟨⟨r, hr⟩, -⟩
          · rw [hq.nFound, hq.reports]; exact h0
          · rw [hr.nFound, hr.reports, h0]; simp
        exact ih u hu
      | stop u => exact Or.inl rfl
      | exit a b c u => exact Or.inl rfl
      | ub => exact Or.inl rfl
    · right
      rw [hf]
      refine ⟨s', rfl, by rw [hr]; simp; omega, ?_⟩
      intro u hu
      cases hst : tleStep (withMax p 0) E s l with
      | next v =>
        rw [hst] at hu
        simp only [] at hu
        rw [hr, ← hg v (by rw [hst]; rfl)]
        exact tleLoop_mono _ E ls v u hu
      | stop v =>
        rw [hst] at hu hg
        rw [hr, hg u hu]
      | exit a b c v =>
        rw [hst] at hu hg
        rw [hr, hg u hu]
      | ub => rw [hst] at hu; simp [Flow.st?] at hu

theorem filesLoop_sim (p : Params) (N : ℤ) (E : Tle → Obs) (fs : List (CString × Option CString))
    (s : LoopSt) (h0 : s.nFound = s.reports.length) :
    SimRun N s (filesLoop (withMax p N) E s fs) (filesLoop (withMax p 0) E s fs) := by
  induction fs generalizing s with
  | nil => exact Or.inl rfl
  | cons f fs ih =>
    obtain ⟨path, oc⟩ := f
    cases oc with
    | none => exact Or.inl rfl
    | some content =>
      simp only [filesLoop]
      have hfile : SimRun N s (fileLoop (withMax p N) E path s content) (fileLoop (withMax p 0) E path s content) := by
        unfold fileLoop
        cases fileLines 100 content with
        | nil => exact Or.inl rfl
        | cons l ls =>
          simp only []
          cases setName s.name l with
          | none => exact Or.inl rfl
          | some b => exact tleLoop_sim p N E ls _ h0
      rcases hfile with heq | ⟨s', hf, hl, hg⟩
      · rw [heq]
        cases hst : fileLoop (withMax p 0) E path s content with
        | next u =>
          simp only []
          apply ih
          exact (fileLoop_ind (withMax p 0) E (fun s => s.nFound = s.reports.length) (fun _ => True)
            (fun _ _ _ h => h)
            (fun s s' l h hs => by
              rcases tleStep_cases _ E s s' l (by rw [hs]; rfl) with hq | ⟨⟨r, hr⟩, -⟩
              · rw [hq.nFound, hq.reports]; exact h
              · rw [hr.nFound, hr.reports, h]; simp)
            (fun _ _ _ _ _ _ => trivial) (fun _ _ => trivial) path content s u h0 (by rw [hst]; rfl)).1 hst
        | stop u => exact Or.inl rfl
        | exit a b c u => exact Or.inl rfl
        | ub => exact Or.inl rfl
      · right
        rw [hf]
        refine ⟨s', rfl, hl, ?_⟩
        intro u hu
        cases hst : fileLoop (withMax p 0) E path s content with
        | next v =>
          rw [hst] at hu
          exact (hg v (by rw [hst]; rfl)).trans (filesLoop_mono _ E fs v u hu)
        | stop v => rw [hst] at hu; exact hg u (by rw [hst]; exact hu)
        | exit a b c v => rw [hst] at hu; exact hg u (by rw [hst]; exact hu)
        | ub => rw [hst] at hu; simp [Flow.st?] at hu

end SatSky.Sky
