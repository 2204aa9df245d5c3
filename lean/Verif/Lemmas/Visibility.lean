import Verif.Model.Visibility
import Verif.Spec.Pass

/-! The invariant of the time loop of `sat_visibility`. -/

namespace SatSky.Vis

open SatSky Spec

/-- The sampling times of a run that begins at `t0`. -/
abbrev Cfg.T (C : Cfg) (t0 : ℚ) : ℕ → ℚ := sample C.next t0

/-- Visible in the sense of the parameters. -/
abbrev Cfg.V (C : Cfg) (H : History) : ℚ → Prop := Visible H.sep H.lit C.radius

theorem sample_succ (f : ℚ → ℚ) (t : ℚ) (n : ℕ) : sample f t (n + 1) = f (sample f t n) := by
  unfold sample; exact Function.iterate_succ_apply' f n t

/-- The block printed when the pass starts at sample `k`. -/
def startBlock (C : Cfg) (t0 : ℚ) (k : ℕ) : Block :=
  { label := .start, mjd := C.stepBack (C.T t0 (k + 1)), date := C.stepBack (C.T t0 (k + 1)), satAt := C.T t0 k, sunAt := C.T t0 k,
    rateAt := C.T t0 k, conv := 1 }

/-- Nothing found before sample `n`. -/
structure Before (C : Cfg) (H : History) (t0 : ℚ) (n : ℕ) (s : TSt) : Prop where
  time : s.t = C.T t0 n
  off : s.startFound = false
  noEnd : s.endFound = false
  blocks : s.blocks = []
  least : s.minSep = 181
  none : ∀ m < n, C.T t0 m ≤ C.jd1 ∧ ¬ C.V H (C.T t0 m)

/-- In a pass that started at sample `k`. -/
structure During (C : Cfg) (H : History) (t0 : ℚ) (k n : ℕ) (s : TSt) : Prop where
  time : s.t = C.T t0 n
  on : s.startFound = true
  noEnd : s.endFound = false
  first : IsFirst (C.T t0) (C.V H) C.jd1 k
  lt : k < n
  run : ∀ m, k ≤ m → m < n → C.T t0 m ≤ C.jd1 ∧ C.V H (C.T t0 m)
  start : s.mjdStart = C.F.rnd (C.T t0 (k + 1) - jdOff)
  blocks : s.blocks = [startBlock C t0 k]
  pos : s.posT = C.T t0 (n - 1)
  sun : s.sunT = C.T t0 (n - 1)
  rate : s.rateT = C.T t0 k
  conv : s.conv = if n = k + 1 then 1 else 0
  least : ∃ j, FirstMin (fun m => H.sep (C.T t0 m)) k n j ∧ s.minSep = H.sep (C.T t0 j) ∧ s.tMin = C.T t0 j

/-- How the loop was left at sample `e` of a pass that started at `k`. -/
structure After (C : Cfg) (H : History) (t0 : ℚ) (k e : ℕ) (s : TSt) : Prop where
  pass : IsPass (C.T t0) (C.V H) C.jd1 k e
  on : s.startFound = true
  start : s.mjdStart = C.F.rnd (C.T t0 (k + 1) - jdOff)
  rate : s.rateT = C.T t0 k
  least : ∃ j, FirstMin (fun m => H.sep (C.T t0 m)) k e j ∧ s.minSep = H.sep (C.T t0 j) ∧ s.tMin = C.T t0 j
  /-- Left the range, left the field, or lost the sunlight. -/
  how : (C.jd1 < C.T t0 e ∧ s.endFound = false ∧ s.t = C.T t0 e ∧ s.blocks = [startBlock C t0 k] ∧
          s.posT = C.T t0 (e - 1) ∧ s.sunT = C.T t0 (e - 1) ∧ s.conv = if e = k + 1 then 1 else 0) ∨
        (C.T t0 e ≤ C.jd1 ∧ C.radius < H.sep (C.T t0 e) ∧ s.endFound = false ∧ s.t = C.T t0 (e + 1) ∧
          s.blocks = [startBlock C t0 k] ∧ s.posT = C.T t0 e ∧ s.sunT = C.T t0 (e - 1) ∧ s.conv = 0) ∨
        (C.T t0 e ≤ C.jd1 ∧ H.sep (C.T t0 e) ≤ C.radius ∧ H.lit (C.T t0 e) = false ∧ s.endFound = true ∧
          s.mjdEnd = C.F.rnd (C.T t0 (e + 1) - jdOff) ∧ s.cur = C.stepBack (C.T t0 (e + 1)) ∧
          s.blocks = [startBlock C t0 k,
            { label := .fin, mjd := C.stepBack (C.T t0 (e + 1)), date := C.stepBack (C.T t0 (e + 1)),
              satAt := C.T t0 e, sunAt := C.T t0 e, rateAt := C.T t0 k, conv := 1 }])

/-- One step from a state before the pass. -/
theorem step_before {C : Cfg} {H : History} {t0 : ℚ} {n : ℕ} {s : TSt} (hs : ∀ t, C.V H t → H.sep t < 181)
    (h : Before C H t0 n s) :
    (∀ s', timeStep C H s = .run s' → Before C H t0 (n + 1) s' ∨ During C H t0 n (n + 1) s') ∧
    (∀ s', timeStep C H s = .over s' → C.jd1 < C.T t0 n ∧ s' = s) := by
  have hn : C.T t0 (n + 1) = C.next (C.T t0 n) := sample_succ _ _ _
  by_cases hle : s.t ≤ C.jd1
  · have hle' : C.T t0 n ≤ C.jd1 := h.time ▸ hle
    by_cases hf : C.filter = true ∧ (H.alt s.t < C.altMin ∨ H.alt s.t > C.altMax)
    · simp [timeStep, hle, hf]
    · by_cases hr : H.sep s.t > C.radius
      · have hv : ¬ C.V H (C.T t0 n) := by
          intro hv; rw [← h.time] at hv; exact absurd hv.1 (not_le.mpr hr)
        have e1 : timeStep C H s = .run { s with posT := s.t, conv := 0, t := C.next s.t } := by
          unfold timeStep
          rw [if_pos hle, if_neg hf]
          dsimp only
          rw [if_pos hr, if_pos h.off]
        rw [e1]
        refine ⟨?_, by simp⟩
        intro s' e
        injection e with e
        subst e
        left
        refine ⟨by dsimp only; rw [hn, h.time], h.off, h.noEnd, h.blocks, h.least, ?_⟩
        intro m hm
        rcases Nat.lt_succ_iff_lt_or_eq.mp hm with hm | rfl
        · exact h.none m hm
        · exact ⟨hle', hv⟩
      · have hr' : H.sep (C.T t0 n) ≤ C.radius := h.time ▸ not_lt.mp hr
        have e1 : timeStep C H s = inField C H { s with posT := s.t, conv := 0 } := by
          unfold timeStep
          rw [if_pos hle, if_neg hf]
          dsimp only
          rw [if_neg hr]
        rw [e1]
        by_cases hl : H.lit s.t = false
        · have hl' : H.lit (C.T t0 n) = false := h.time ▸ hl
          have e2 : inField C H { s with posT := s.t, conv := 0 } = .run { s with posT := s.t, conv := 0, sunT := s.t, t := C.next s.t } := by
            unfold inField
            simp [hl, h.off]
          rw [e2]
          refine ⟨?_, by simp⟩
          intro s' e
          injection e with e
          subst e
          left
          refine ⟨by dsimp only; rw [hn, h.time], h.off, h.noEnd, h.blocks, h.least, ?_⟩
          intro m hm
          rcases Nat.lt_succ_iff_lt_or_eq.mp hm with hm | rfl
          · exact h.none m hm
          · refine ⟨hle', fun hv => ?_⟩
            exact absurd (hv.2.symm.trans hl') (by decide)
        · have hl1 : H.lit s.t = true := by simpa using hl
          have hv : C.V H (C.T t0 n) := ⟨hr', h.time ▸ hl1⟩
          have h181 : H.sep s.t < s.minSep := by rw [h.least, h.time]; exact hs _ hv
          have e2 : inField C H { s with posT := s.t, conv := 0 } = .run (markStart C
              { s with posT := s.t, conv := 0, sunT := s.t, minSep := H.sep s.t, tMin := s.t, t := C.next s.t }) := by
            unfold inField
            simp [hl1, h.off, h181]
          rw [e2]
          refine ⟨?_, by simp⟩
          intro s' e
          injection e with e
          subst e
          right
          refine ⟨by simp only [markStart]; rw [hn, h.time], rfl, h.noEnd, ⟨hv, ?_, fun m hm => (h.none m hm).2⟩, Nat.lt_succ_self n, ?_, ?_, ?_, ?_, ?_, ?_, ?_, ?_⟩
          · intro m hm
            rcases Nat.lt_or_eq_of_le hm with hm | rfl
            · exact (h.none m hm).1
            · exact hle'
          · intro m h1 h2
            have : m = n := by omega
            subst this
            exact ⟨hle', hv⟩
          · simp only [markStart]; rw [hn, h.time]
          · simp only [markStart, h.blocks, startBlock]; rw [hn, h.time]; rfl
          · simp only [markStart]; rw [h.time]; rfl
          · simp only [markStart]; rw [h.time]; rfl
          · simp only [markStart]; rw [h.time]
          · simp only [markStart, if_true]
          · refine ⟨n, ⟨le_refl n, Nat.lt_succ_self n, ?_, ?_⟩, ?_, ?_⟩
            · intro m h1 h2
              have : m = n := by omega
              subst this; exact le_refl _
            · intro m h1 h2; omega
            · simp only [markStart]; rw [h.time]
            · simp only [markStart]; rw [h.time]
  · have e1 : timeStep C H s = .over s := by unfold timeStep; rw [if_neg hle]
    rw [e1]
    refine ⟨by simp, ?_⟩
    intro s' e
    injection e with e
    exact ⟨h.time ▸ not_le.mp hle, e.symm⟩

/-- One step from a state in the pass. -/
theorem step_during {C : Cfg} {H : History} {t0 : ℚ} {k n : ℕ} {s : TSt} (h : During C H t0 k n s) :
    (∀ s', timeStep C H s = .run s' → During C H t0 k (n + 1) s') ∧
    (∀ s', timeStep C H s = .over s' → After C H t0 k n s') := by
  have hn : C.T t0 (n + 1) = C.next (C.T t0 n) := sample_succ _ _ _
  by_cases hle : s.t ≤ C.jd1
  · have hle' : C.T t0 n ≤ C.jd1 := h.time ▸ hle
    by_cases hf : C.filter = true ∧ (H.alt s.t < C.altMin ∨ H.alt s.t > C.altMax)
    · simp [timeStep, hle, hf]
    · by_cases hr : H.sep s.t > C.radius
      · have hv : ¬ C.V H (C.T t0 n) := by
          intro hv; rw [← h.time] at hv; exact absurd hv.1 (not_le.mpr hr)
        have e1 : timeStep C H s = .over { s with posT := s.t, conv := 0, t := C.next s.t } := by
          unfold timeStep
          rw [if_pos hle, if_neg hf]
          dsimp only
          rw [if_pos hr, if_neg (by rw [h.on]; decide)]
        rw [e1]
        refine ⟨by simp, ?_⟩
        intro s' e
        injection e with e
        subst e
        refine ⟨⟨h.first, h.lt, h.run, fun hc => hv hc.2⟩, h.on, h.start, h.rate, h.least, Or.inr (Or.inl ?_)⟩
        exact ⟨hle', h.time ▸ hr, h.noEnd, by dsimp only; rw [hn, h.time], h.blocks, h.time, h.sun, rfl⟩
      · have hr' : H.sep (C.T t0 n) ≤ C.radius := h.time ▸ not_lt.mp hr
        have e1 : timeStep C H s = inField C H { s with posT := s.t, conv := 0 } := by
          unfold timeStep
          rw [if_pos hle, if_neg hf]
          dsimp only
          rw [if_neg hr]
        rw [e1]
        by_cases hl : H.lit s.t = false
        · have hl' : H.lit (C.T t0 n) = false := h.time ▸ hl
          have e2 : inField C H { s with posT := s.t, conv := 0 } =
              .over (markEnd C { s with posT := s.t, conv := 0, sunT := s.t, t := C.next s.t }) := by
            unfold inField
            simp [hl, h.on, h.noEnd]
          rw [e2]
          refine ⟨by simp, ?_⟩
          intro s' e
          injection e with e
          subst e
          refine ⟨⟨h.first, h.lt, h.run, ?_⟩, h.on, h.start, h.rate, h.least, Or.inr (Or.inr ?_)⟩
          · rintro ⟨-, hv⟩
            exact absurd (hv.2.symm.trans hl') (by decide)
          · refine ⟨hle', hr', hl', rfl, ?_, ?_, ?_⟩
            · simp only [markEnd]; rw [hn, h.time]
            · simp only [markEnd]; rw [hn, h.time]
            · simp only [markEnd, h.blocks, h.rate]; rw [hn, h.time]; rfl
        · have hl1 : H.lit s.t = true := by simpa using hl
          have hv : C.V H (C.T t0 n) := ⟨hr', h.time ▸ hl1⟩
          obtain ⟨j, hj, hm, ht⟩ := h.least
          have e2 : inField C H { s with posT := s.t, conv := 0 } = .run
              { s with posT := s.t, conv := 0, sunT := s.t, t := C.next s.t,
                       minSep := if H.sep s.t < s.minSep then H.sep s.t else s.minSep,
                       tMin := if H.sep s.t < s.minSep then s.t else s.tMin } := by
            unfold inField
            by_cases hq : H.sep s.t < s.minSep
            · simp [hl1, h.on, hq]
            · simp [hl1, h.on, hq]
          rw [e2]
          refine ⟨?_, by simp⟩
          intro s' e
          injection e with e
          subst e
          have hlt := h.lt
          refine ⟨by dsimp only; rw [hn, h.time], h.on, h.noEnd, h.first, by omega, ?_, h.start, h.blocks, h.time, h.time, h.rate, ?_, ?_⟩
          · intro m h1 h2
            rcases Nat.lt_succ_iff_lt_or_eq.mp h2 with h2 | rfl
            · exact h.run m h1 h2
            · exact ⟨hle', hv⟩
          · show (0 : ℕ) = _; rw [if_neg (by omega)]
          · by_cases hq : H.sep s.t < s.minSep
            · have hq' : H.sep (C.T t0 n) < H.sep (C.T t0 j) := by rw [← hm, ← h.time]; exact hq
              refine ⟨n, ⟨by omega, by omega, ?_, ?_⟩, ?_, ?_⟩
              · intro m h1 h2
                rcases Nat.lt_succ_iff_lt_or_eq.mp h2 with h2 | rfl
                · exact le_of_lt (lt_of_lt_of_le hq' (hj.2.2.1 m h1 h2))
                · exact le_refl _
              · intro m h1 h2
                exact lt_of_lt_of_le hq' (hj.2.2.1 m h1 h2)
              · simp only [if_pos hq]; rw [h.time]
              · simp only [if_pos hq]; rw [h.time]
            · have hq' : H.sep (C.T t0 j) ≤ H.sep (C.T t0 n) := by rw [← hm, ← h.time]; exact not_lt.mp hq
              refine ⟨j, ⟨hj.1, by have := hj.2.1; omega, ?_, hj.2.2.2⟩, ?_, ?_⟩
              · intro m h1 h2
                rcases Nat.lt_succ_iff_lt_or_eq.mp h2 with h2 | rfl
                · exact hj.2.2.1 m h1 h2
                · exact hq'
              · simp only [if_neg hq]; exact hm
              · simp only [if_neg hq]; exact ht
  · have e1 : timeStep C H s = .over s := by unfold timeStep; rw [if_neg hle]
    rw [e1]
    refine ⟨by simp, ?_⟩
    intro s' e
    injection e with e
    subst e
    have hgt : C.jd1 < C.T t0 n := h.time ▸ not_le.mp hle
    refine ⟨⟨h.first, h.lt, h.run, fun hc => absurd hc.1 (not_le.mpr hgt)⟩, h.on, h.start, h.rate, h.least, Or.inl ?_⟩
    exact ⟨hgt, h.noEnd, h.time, h.blocks, h.pos, h.sun, h.conv⟩

theorem loop_during {C : Cfg} {H : History} {t0 : ℚ} (N : ℕ) : ∀ {k n : ℕ} {s s' : TSt}, During C H t0 k n s →
    timeLoop C H N s = .over s' → ∃ e, After C H t0 k e s' := by
  induction N with
  | zero => intro k n s s' h e; simp [timeLoop] at e
  | succ N ih =>
    intro k n s s' h e
    unfold timeLoop at e
    obtain ⟨h1, h2⟩ := step_during h
    cases hst : timeStep C H s with
    | run u => rw [hst] at e; exact ih (h1 u hst) e
    | over u => rw [hst] at e; injection e with e; subst e; exact ⟨n, h2 u hst⟩
    | outOfRange u => rw [hst] at e; simp at e

theorem loop_before {C : Cfg} {H : History} {t0 : ℚ} (hs : ∀ t, C.V H t → H.sep t < 181) (N : ℕ) :
    ∀ {n : ℕ} {s s' : TSt}, Before C H t0 n s → timeLoop C H N s = .over s' →
    (NoneIn (C.T t0) (C.V H) C.jd1 ∧ s'.startFound = false ∧ s'.endFound = false ∧ s'.blocks = []) ∨
      ∃ k e, After C H t0 k e s' := by
  induction N with
  | zero => intro n s s' h e; simp [timeLoop] at e
  | succ N ih =>
    intro n s s' h e
    unfold timeLoop at e
    obtain ⟨h1, h2⟩ := step_before hs h
    cases hst : timeStep C H s with
    | run u =>
      rw [hst] at e
      rcases h1 u hst with hb | hd
      · exact ih hb e
      · obtain ⟨e', he⟩ := loop_during N hd e
        exact Or.inr ⟨n, e', he⟩
    | over u =>
      rw [hst] at e; injection e with e; subst e
      obtain ⟨hgt, rfl⟩ := h2 u hst
      exact Or.inl ⟨⟨n, hgt, h.none⟩, h.off, h.noEnd, h.blocks⟩
    | outOfRange u => rw [hst] at e; simp at e

theorem before_init (C : Cfg) (H : History) (t0 : ℚ) : Before C H t0 0 { t := t0 } :=
  ⟨rfl, rfl, rfl, rfl, rfl, fun m hm => absurd hm (Nat.not_lt_zero m)⟩

/-- What a run that ended normally found. -/
theorem ends_cases {C : Cfg} {H : History} {r : TSt} (hs : ∀ t, C.V H t → H.sep t < 181) (h : Ends C H r) :
    ∃ t0, Begins C H t0 ∧
      ((NoneIn (C.T t0) (C.V H) C.jd1 ∧ r.blocks = []) ∨ ∃ k e s, After C H t0 k e s ∧ r = finish C s) := by
  obtain ⟨t0, n, s, hb, hl, rfl⟩ := h
  refine ⟨t0, hb, ?_⟩
  rcases loop_before hs n (before_init C H t0) hl with ⟨h1, h2, h3, h4⟩ | ⟨k, e, h⟩
  · left
    refine ⟨h1, ?_⟩
    simp [finish, addMid, closePass, h2, h4]
  · right; exact ⟨k, e, s, h, rfl⟩

/-- The sample that the end block of a pass `k`, …, `e - 1` shows: the first sample that is not visible,
or the last one of the range. -/
def lastShown (C : Cfg) (t0 : ℚ) (e : ℕ) : ℕ := if C.T t0 e ≤ C.jd1 then e else e - 1

/-- The blocks of the answer, in terms of the pass. -/
theorem finish_blocks {C : Cfg} {H : History} {t0 : ℚ} {k e : ℕ} {s : TSt} (h : After C H t0 k e s) :
    ∃ bf bm bx : Block, (finish C s).blocks = [startBlock C t0 k, bf, bm, bx] ∧
      bf.label = .fin ∧ bm.label = .mid ∧ bx.label = .max ∧
      bf.satAt = C.T t0 (lastShown C t0 e) ∧
      bf.sunAt = C.T t0 (if C.T t0 e ≤ C.jd1 ∧ C.radius < H.sep (C.T t0 e) then e - 1 else lastShown C t0 e) ∧
      bf.date = bf.mjd ∧ bm.mjd = bf.mjd ∧ bx.mjd = bf.mjd ∧
      bm.date = midOf C (finish C s) ∧ bm.satAt = C.F.rnd (bm.date + jdOff) ∧ bm.sunAt = bm.satAt ∧
      (∃ j, FirstMin (fun m => H.sep (C.T t0 m)) k e j ∧ bx.satAt = C.T t0 j) ∧
      (∀ b ∈ (finish C s).blocks, b.rateAt = C.T t0 k) ∧
      bm.conv = 1 ∧ bx.conv = 1 ∧ bf.conv = (if e = k + 1 ∧ C.jd1 < C.T t0 e then 2 else 1) ∧
      bx.sunAt = bx.satAt ∧ bx.date = C.F.rnd (bx.satAt - jdOff) ∧
      (finish C s).mjdStart = C.F.rnd (C.T t0 (k + 1) - jdOff) ∧
      ((C.T t0 e ≤ C.jd1 ∧ H.sep (C.T t0 e) ≤ C.radius ∧ H.lit (C.T t0 e) = false ∧
          bf.mjd = C.stepBack (C.T t0 (e + 1)) ∧ (finish C s).mjdEnd = C.F.rnd (C.T t0 (e + 1) - jdOff)) ∨
       (C.T t0 e ≤ C.jd1 ∧ C.radius < H.sep (C.T t0 e) ∧
          bf.mjd = C.F.rnd (C.F.rnd (C.T t0 (e + 1) - C.d) - jdOff) ∧ (finish C s).mjdEnd = bf.mjd) ∨
       (C.jd1 < C.T t0 e ∧
          bf.mjd = C.F.rnd (C.F.rnd (C.T t0 e - C.d) - jdOff) ∧ (finish C s).mjdEnd = bf.mjd)) := by
  obtain ⟨j, hj, -, hjt⟩ := h.least
  have hfin : ∀ (x : ℚ) (hc : s.startFound = true ∧ s.endFound = false), C.F.rnd (s.t - C.d) = x → (finish C s) =
      { s with
        t := x, conv := s.conv + 1, mjdEnd := C.F.rnd (x - jdOff), cur := C.F.rnd (x - jdOff),
        blocks := s.blocks ++ [{ label := .fin, mjd := C.F.rnd (x - jdOff), date := C.F.rnd (x - jdOff), satAt := s.posT, sunAt := s.sunT, rateAt := s.rateT, conv := s.conv + 1 }] ++
          [{ label := .mid, mjd := C.F.rnd (x - jdOff), date := midOf C { s with mjdEnd := C.F.rnd (x - jdOff) }, satAt := C.F.rnd (midOf C { s with mjdEnd := C.F.rnd (x - jdOff) } + jdOff), sunAt := C.F.rnd (midOf C { s with mjdEnd := C.F.rnd (x - jdOff) } + jdOff), rateAt := s.rateT, conv := 1 },
           { label := .max, mjd := C.F.rnd (x - jdOff), date := C.F.rnd (s.tMin - jdOff), satAt := s.tMin, sunAt := s.tMin, rateAt := s.rateT, conv := 1 }] } := by
    intro x hc hx
    subst hx
    simp only [finish, closePass, hc, and_self, if_true, addMid, midOf]
  rcases h.how with ⟨h1, h2, h3, h4, h5, h6, h8⟩ | ⟨h1, h2, h3, h4, h5, h6, h7, h8⟩ | ⟨h1, h2, h3, h4, h5, h6, h7⟩
  · have hng : ¬ C.T t0 e ≤ C.jd1 := not_le.mpr h1
    rw [hfin _ ⟨h.on, h2⟩ rfl]
    dsimp only
    rw [h4]
    refine ⟨_, _, _, rfl, rfl, rfl, rfl, ?_, ?_, rfl, rfl, rfl, rfl, rfl, rfl, ⟨j, hj, hjt⟩, ?_, rfl, rfl, ?_, rfl, rfl, h.start, Or.inr (Or.inr ⟨h1, ?_, rfl⟩)⟩
    · simp only [lastShown, if_neg hng]; exact h5
    · simp only [lastShown, hng, false_and, if_false]; exact h6
    · simp [startBlock, h.rate]
    · simp only [h8, h1, and_true]; split <;> rfl
    · rw [h3]
  · rw [hfin _ ⟨h.on, h3⟩ rfl]
    dsimp only
    rw [h5]
    refine ⟨_, _, _, rfl, rfl, rfl, rfl, ?_, ?_, rfl, rfl, rfl, rfl, rfl, rfl, ⟨j, hj, hjt⟩, ?_, rfl, rfl, ?_, rfl, rfl, h.start, Or.inr (Or.inl ⟨h1, h2, ?_, rfl⟩)⟩
    · simp only [lastShown, if_pos h1]; exact h6
    · simp only [h1, h2, and_self, if_true]; exact h7
    · simp [startBlock, h.rate]
    · rw [if_neg (by rintro ⟨-, hc⟩; exact absurd h1 (not_le.mpr hc))]; simp [h8]
    · rw [h4]
  · have hng : ¬ C.radius < H.sep (C.T t0 e) := not_lt.mpr h2
    have e1 : finish C s = addMid C { s with t := C.F.rnd (s.t - C.d) } := by
      simp only [finish, closePass, h4, reduceCtorEq, and_false, if_false]
    have e2 : finish C s =
      { s with
        t := C.F.rnd (s.t - C.d)
        blocks := s.blocks ++
          [{ label := .mid, mjd := s.cur, date := midOf C s, satAt := C.F.rnd (midOf C s + jdOff), sunAt := C.F.rnd (midOf C s + jdOff), rateAt := s.rateT, conv := 1 },
           { label := .max, mjd := s.cur, date := C.F.rnd (s.tMin - jdOff), satAt := s.tMin, sunAt := s.tMin, rateAt := s.rateT, conv := 1 }] } := by
      rw [e1]; simp only [addMid, h.on, if_true, midOf]
    rw [e2]
    dsimp only
    rw [h7]
    refine ⟨_, _, _, rfl, rfl, rfl, rfl, ?_, ?_, rfl, h6, h6, rfl, rfl, rfl, ⟨j, hj, hjt⟩, ?_, rfl, rfl, ?_, rfl, rfl, h.start, Or.inl ⟨h1, h2, h3, rfl, h5⟩⟩
    · simp only [lastShown, if_pos h1]
    · simp only [hng, and_false, if_false, lastShown, if_pos h1]
    · simp [startBlock, h.rate]
    · rw [if_neg (by rintro ⟨-, hc⟩; exact absurd h1 (not_le.mpr hc))]

end SatSky.Vis
