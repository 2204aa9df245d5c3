import Verif.Lemmas.SkyInv

/-! Invariants of whole runs of the reading loop, for arbitrary files. -/

namespace SatSky.Sky

open SatSky Spec GetEl Opts

/-- Induction over the loops: `P` holds while running, `Q` when the program has left the loop. -/
theorem tleLoop_ind (p : Params) (E : Tle → Obs) (P Q : LoopSt → Prop)
    (hnext : ∀ s s' l, P s → tleStep p E s l = .next s' → P s')
    (hend : ∀ s s' l, P s → (tleStep p E s l).st? = some s' → (∀ u, tleStep p E s l ≠ .next u) → Q s')
    (ls : List CString) (s s' : LoopSt) (hs : P s) (h : (tleLoop p E s ls).st? = some s') :
    (tleLoop p E s ls = .next s' → P s') ∧ ((∀ u, tleLoop p E s ls ≠ .next u) → Q s') := by
  induction ls generalizing s with
  | nil =>
    simp only [tleLoop, Flow.st?, Option.some.injEq] at h
    subst h
    exact ⟨fun _ => hs, fun hc => absurd rfl (hc s)⟩
  | cons l ls ih =>
    rw [tleLoop_cons] at h ⊢
    cases hstep : tleStep p E s l with
    | next u =>
      rw [hstep] at h
      exact ih u (hnext s u l hs hstep) h
    | stop u =>
      rw [hstep] at h
      simp only [] at h ⊢
      refine ⟨fun hc => by simp at hc, fun _ => hend s s' l hs (by rw [hstep]; exact h) (by simp [hstep])⟩
    | exit a b c u =>
      rw [hstep] at h
      simp only [] at h ⊢
      refine ⟨fun hc => by simp at hc, fun _ => hend s s' l hs (by rw [hstep]; exact h) (by simp [hstep])⟩
    | ub => rw [hstep] at h; simp [Flow.st?] at h

theorem fileLoop_ind (p : Params) (E : Tle → Obs) (P Q : LoopSt → Prop)
    (hline : ∀ s l b, P s → P { s with line1 := l, name := b })
    (hnext : ∀ s s' l, P s → tleStep p E s l = .next s' → P s')
    (hend : ∀ s s' l, P s → (tleStep p E s l).st? = some s' → (∀ u, tleStep p E s l ≠ .next u) → Q s')
    (hexit : ∀ s, P s → Q s)
    (path content : CString) (s s' : LoopSt) (hs : P s) (h : (fileLoop p E path s content).st? = some s') :
    (fileLoop p E path s content = .next s' → P s') ∧
      ((∀ u, fileLoop p E path s content ≠ .next u) → Q s') := by
  unfold fileLoop at h ⊢
  cases hl : fileLines 100 content with
  | nil =>
    rw [hl] at h
    simp only [] at h ⊢
    split at h
    · rename_i hf
      simp only [Flow.st?, Option.some.injEq] at h
      subst h
      rw [if_pos hf]
      exact ⟨fun hc => by simp at hc, fun _ => hexit _ hs⟩
    · simp [Flow.st?] at h
  | cons l ls =>
    rw [hl] at h
    simp only [] at h ⊢
    cases hn : setName s.name l with
    | none => rw [hn] at h; simp [Flow.st?] at h
    | some b =>
      rw [hn] at h
      exact tleLoop_ind p E P Q hnext hend ls _ s' (hline s l b hs) h

theorem filesLoop_ind (p : Params) (E : Tle → Obs) (P Q : LoopSt → Prop)
    (hline : ∀ s l b, P s → P { s with line1 := l, name := b })
    (hnext : ∀ s s' l, P s → tleStep p E s l = .next s' → P s')
    (hend : ∀ s s' l, P s → (tleStep p E s l).st? = some s' → (∀ u, tleStep p E s l ≠ .next u) → Q s')
    (hexit : ∀ s, P s → Q s)
    (fs : List (CString × Option CString)) (s s' : LoopSt) (hs : P s)
    (h : (filesLoop p E s fs).st? = some s') :
    (filesLoop p E s fs = .next s' → P s') ∧ ((∀ u, filesLoop p E s fs ≠ .next u) → Q s') := by
  induction fs generalizing s with
  | nil =>
    simp only [filesLoop, Flow.st?, Option.some.injEq] at h
    subst h
    exact ⟨fun _ => hs, fun hc => absurd rfl (hc s)⟩
  | cons f fs ih =>
    obtain ⟨path, oc⟩ := f
    cases oc with
    | none =>
      simp only [filesLoop] at h ⊢
      split at h
      · rename_i hf
        simp only [Flow.st?, Option.some.injEq] at h
        subst h
        rw [if_pos hf]
        exact ⟨fun hc => by simp at hc, fun _ => hexit _ hs⟩
      · simp [Flow.st?] at h
    | some content =>
      simp only [filesLoop] at h ⊢
      cases hstep : fileLoop p E path s content with
      | next u =>
        rw [hstep] at h
        have := fileLoop_ind p E P Q hline hnext hend hexit path content s u hs (by rw [hstep]; rfl)
        exact ih u (this.1 hstep) h
      | stop u =>
        rw [hstep] at h
        simp only [Flow.st?, Option.some.injEq] at h
        subst h
        have := fileLoop_ind p E P Q hline hnext hend hexit path content s u hs (by rw [hstep]; rfl)
        exact ⟨fun hc => by simp at hc, fun _ => this.2 (by simp [hstep])⟩
      | exit a b c u =>
        rw [hstep] at h
        simp only [Flow.st?, Option.some.injEq] at h
        subst h
        have := fileLoop_ind p E P Q hline hnext hend hexit path content s u hs (by rw [hstep]; rfl)
        exact ⟨fun hc => by simp at hc, fun _ => this.2 (by simp [hstep])⟩
      | ub => rw [hstep] at h; simp [Flow.st?] at h

/-- A single invariant `P` that holds at the end as well. -/
theorem filesLoop_inv (p : Params) (E : Tle → Obs) (P : LoopSt → Prop)
    (hline : ∀ s l b, P s → P { s with line1 := l, name := b })
    (hstep : ∀ s s' l, P s → (tleStep p E s l).st? = some s' → P s')
    (fs : List (CString × Option CString)) (s s' : LoopSt) (hs : P s)
    (h : (filesLoop p E s fs).st? = some s') : P s' := by
  have := filesLoop_ind p E P P hline (fun s s' l hs h => hstep s s' l hs (by rw [h]; rfl))
    (fun s s' l hs h _ => hstep s s' l hs h) (fun _ h => h) fs s s' hs h
  cases hf : filesLoop p E s fs with
  | next u =>
    rw [hf] at h this
    simp only [Flow.st?, Option.some.injEq] at h
    subst h
    exact this.1 rfl
  | stop u => exact this.2 (by simp [hf])
  | exit a b c u => exact this.2 (by simp [hf])
  | ub => rw [hf] at h; simp [Flow.st?] at h

/-- What is printed for the satellites found, `k` of them having been printed before. -/
def render (p : Params) : ℤ → List Report → CString
  | _, [] => []
  | k, r :: l => emit p k r ++ render p (k + 1) l

theorem render_append (p : Params) (k : ℤ) (l : List Report) (r : Report) :
    render p k (l ++ [r]) = render p k l ++ emit p (k + l.length) r := by
  induction l generalizing k with
  | nil => simp [render]
  | cons a l ih =>
    simp only [List.cons_append, render, ih, List.length_cons, List.append_assoc, Nat.cast_add, Nat.cast_one]
    rw [show k + 1 + (l.length : ℤ) = k + (l.length + 1) by ring]

/-- A reported satellite satisfies every requested condition. -/
structure ReportOk (p : Params) (E : Tle → Obs) (r : Report) : Prop where
  obs : r.obs = E r.tle
  nan : r.obs.nan = false
  alt : AltOk p r.obs
  region : single p = true ∨ p.nameFilter = true ∨ InRegion p r.obs
  light : LightOk p r.obs
  desig : desigText r.tle.intlDesig = some r.desig

/-- The invariant of the reports and counters. -/
structure RInv (p : Params) (E : Tle → Obs) (s : LoopSt) : Prop where
  cnt : s.nFound = s.reports.length
  sun : s.nSunlit = (s.reports.filter (fun r => r.obs.sunlit)).length
  ok : ∀ r ∈ s.reports, ReportOk p E r
  nodup : (s.reports.map Report.cat).Nodup
  seen : ∀ r ∈ s.reports, (r.cat ++ [44]) <:+: s.seen
  out : s.out = render p 0 s.reports

theorem RInv.step {p : Params} {E : Tle → Obs} {s s' : LoopSt} {l : CString} (h : RInv p E s)
    (hs : (tleStep p E s l).st? = some s') : RInv p E s' := by
  rcases tleStep_cases p E s s' l hs with hq | ⟨⟨r, hr⟩, -⟩
  · obtain ⟨x, hx⟩ := hq.seen
    refine ⟨by rw [hq.nFound, hq.reports]; exact h.cnt, by rw [hq.nSunlit, hq.reports]; exact h.sun,
      by rw [hq.reports]; exact h.ok, by rw [hq.reports]; exact h.nodup, ?_, by rw [hq.out, hq.reports]; exact h.out⟩
    intro r hr
    rw [hq.reports] at hr
    rw [hx]
    exact (h.seen r hr).trans ⟨[], x, by simp⟩
  · refine ⟨?_, ?_, ?_, ?_, ?_, ?_⟩
    · rw [hr.nFound, hr.reports, h.cnt]; simp
    · rw [hr.nSunlit, hr.reports, h.sun]
      cases hsun : r.obs.sunlit <;> simp [hsun]
    · intro x hx
      rw [hr.reports, List.mem_append] at hx
      rcases hx with hx | hx
      · exact h.ok x hx
      · simp at hx; subst hx
        exact ⟨hr.obs, hr.nan, hr.alt, hr.region, hr.light, hr.desig⟩
    · rw [hr.reports, List.map_append, List.nodup_append]
      refine ⟨h.nodup, by simp, ?_⟩
      intro a ha b hb hab
      simp at hb; subst hb; subst hab
      obtain ⟨y, hy, hyc⟩ := List.mem_map.mp ha
      exact hr.fresh (by rw [← hyc]; exact h.seen y hy)
    · intro x hx
      rw [hr.reports, List.mem_append] at hx
      rw [hr.seen]
      rcases hx with hx | hx
      · exact (h.seen x hx).trans ⟨[], r.cat ++ [44], by simp⟩
      · simp at hx; subst hx
        exact ⟨s.seen, [], by simp⟩
    · rw [hr.out, hr.reports, render_append, h.out, h.cnt]; simp

theorem RInv.start (p : Params) (E : Tle → Obs) (junk : List Int) : RInv p E (start junk) := by
  constructor <;> simp [Sky.start, render]

theorem RInv.run {p : Params} {E : Tle → Obs} {junk : List Int} {fs : List (CString × Option CString)}
    {s : LoopSt} (h : (filesLoop p E (Sky.start junk) fs).st? = some s) : RInv p E s :=
  filesLoop_inv p E (RInv p E) (fun _ _ _ h => ⟨h.cnt, h.sun, h.ok, h.nodup, h.seen, h.out⟩)
    (fun _ _ _ h hs => h.step hs) fs _ s (RInv.start p E junk) h

end SatSky.Sky
