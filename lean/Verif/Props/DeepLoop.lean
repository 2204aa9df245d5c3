import Verif.Props.DeepStep

/-! The resonance integration over the whole interval: C51 (termination, array), C101 (epoch), C102 (no forces), C50 (independence of the calls made
before, in the "Dundee" mode). -/

namespace SatSky.Props

open SatSky.Spec SatSky.Sxp Real

/-! ### C51 -/

/-- C51: the derivatives fit the array of 20 numbers exactly for orders up to 20. -/
theorem C51_array (cfg : Cfg) (c : Deep) (atime xli : ℝ) : (compute_dpsec_derivs cfg c atime xli).isSome ↔ cfg.order ≤ 20 := by
  unfold compute_dpsec_derivs
  dsimp only
  have : 2 * passes cfg.order ≤ 20 ↔ cfg.order ≤ 20 := by unfold passes; omega
  by_cases h : 2 * passes cfg.order ≤ 20
  · rw [if_pos h]; simp [this.mp h]
  · rw [if_neg h]; simp [mt this.mpr h]

theorem step_some {cfg : Cfg} (ho : cfg.order ≤ 20) (c : Deep) (atime xli xni h : ℝ) : ∃ p, dpsecStep cfg c atime xli xni h = some p := by
  have := (C51_array cfg c atime xli).mpr ho
  obtain ⟨ds, hd⟩ := Option.isSome_iff_exists.mp this
  exact ⟨_, by unfold dpsecStep; rw [hd]; rfl⟩

/-- C51: for a positive step and orders up to 20 the loop ends after at most `|t - atime| / step + 1` passes. -/
theorem dpsecLoop_ends {cfg : Cfg} (hs : 0 < cfg.step) (ho : cfg.order ≤ 20) (c : Deep) (t : ℝ) :
    ∀ (fuel : ℕ) (atime xli xni : ℝ), |t - atime| ≤ cfg.step * fuel → (dpsecLoop cfg c t (fuel + 1) atime xli xni).isSome
  | fuel, atime, xli, xni, h => by
    obtain ⟨h1, h2⟩ := abs_le.mp h
    unfold dpsecLoop
    dsimp only
    by_cases c1 : t - atime > cfg.step
    · rw [if_pos c1]
      obtain ⟨p, hp⟩ := step_some ho c atime xli xni cfg.step
      rw [hp]
      cases fuel with
      | zero => simp at h2; linarith
      | succ k =>
        refine dpsecLoop_ends hs ho c t k _ _ _ ?_
        push_cast at h2
        rw [abs_le]
        constructor <;> linarith [mul_nonneg hs.le (Nat.cast_nonneg (α := ℝ) k)]
    · rw [if_neg c1]
      by_cases c2 : t - atime < -cfg.step
      · rw [if_pos c2]
        obtain ⟨p, hp⟩ := step_some ho c atime xli xni (-cfg.step)
        rw [hp]
        cases fuel with
        | zero => simp at h1; linarith
        | succ k =>
          refine dpsecLoop_ends hs ho c t k _ _ _ ?_
          push_cast at h1
          rw [abs_le]
          constructor <;> linarith [mul_nonneg hs.le (Nat.cast_nonneg (α := ℝ) k)]
      · rw [if_neg c2]
        obtain ⟨p, hp⟩ := step_some ho c atime xli xni (t - atime)
        rw [hp]
        rfl

theorem restart_near (cfg : Cfg) (c : Deep) (s : State) (t : ℝ) : |t - (restart cfg c s t).1| ≤ |t| := by
  unfold restart
  split_ifs with h
  · simp
  · push Not at h
    exact h.1

/-- C51: whatever was asked for before, `Deep_dpsec` reaches `t` in at most `|t| / step + 1` steps. -/
theorem C51_terminates {cfg : Cfg} (hs : 0 < cfg.step) (ho : cfg.order ≤ 20) (c : Deep) (e : Elem) (s : State) {t : ℝ} (w : Work) {fuel : ℕ}
    (hf : |t| / cfg.step ≤ fuel) : (Deep_dpsec (fuel + 1) cfg c e s t w).isSome := by
  unfold Deep_dpsec
  dsimp only
  by_cases hr : c.res = .none
  · rw [if_pos hr]; rfl
  · rw [if_neg hr]
    have h1 : |t| ≤ cfg.step * fuel := by rwa [div_le_iff₀ hs, mul_comm] at hf
    have h2 := (restart_near cfg c s t).trans h1
    have := dpsecLoop_ends hs ho c t fuel (restart cfg c s t).1 (restart cfg c s t).2.1 (restart cfg c s t).2.2 h2
    simpa using this

/-- The settings of the programs. -/
example (c : Deep) (e : Elem) (s : State) (w : Work) : (Deep_dpsec 15 Cfg.initial c e s 10000 w).isSome :=
  C51_terminates (fuel := 14) (by unfold Cfg.initial; norm_num) (by unfold Cfg.initial; norm_num) c e s w
    (by unfold Cfg.initial; norm_num [abs_of_pos])

/-- The restriction to orders up to 20 is needed: the interface accepts any order, and for 21 the array is overrun. -/
theorem C51_order_excluded (c : Deep) (atime xli : ℝ) : compute_dpsec_derivs ⟨720, 21, false⟩ c atime xli = none := by
  have := (C51_array ⟨720, 21, false⟩ c atime xli).not.mpr (by norm_num)
  simpa using this

/-- The restriction to positive steps is needed: the interface accepts any step, and for a step that is not positive the loop does not end. -/
theorem C51_step_excluded {cfg : Cfg} (hs : cfg.step ≤ 0) (c : Deep) {t : ℝ} :
    ∀ (fuel : ℕ) (atime xli xni : ℝ), t > atime → dpsecLoop cfg c t fuel atime xli xni = none
  | 0, _, _, _, _ => rfl
  | fuel + 1, atime, xli, xni, h => by
    unfold dpsecLoop
    dsimp only
    rw [if_pos (by linarith)]
    cases dpsecStep cfg c atime xli xni cfg.step with
    | none => rfl
    | some p => exact C51_step_excluded hs c fuel _ _ _ (by linarith)

/-! ### What is kept between the calls -/

/-- The calls of `SDP4` for the times `ts`, one after the other. -/
noncomputable def calls (fuel : ℕ) (cfg : Cfg) (c : Deep) (e : Elem) : List ℝ → State → Option State
  | [], s => some s
  | t :: ts, s => (SDP4 fuel cfg c e s t).bind fun r => calls fuel cfg c e ts r.1

/-- The part of the state that `Deep_dpsec` uses. -/
def _root_.SatSky.Sxp.State.integ (s : State) : ℝ × ℝ × ℝ := (s.atime, s.xli, s.xni)

theorem refresh_integ (cfg : Cfg) (c : Deep) (s : State) (t : ℝ) : (refresh cfg c s t).integ = s.integ := by
  unfold refresh
  split_ifs <;> rfl

/-- The state after `SDP4` is, as far as the integration is concerned, that after `Deep_dpsec`. -/
theorem SDP4_state {fuel : ℕ} {cfg : Cfg} {c : Deep} {e : Elem} {s s' : State} {t : ℝ} {r : ℤ × Option (V3 × V3)}
    (h : SDP4 fuel cfg c e s t = some (s', r)) : ∃ s1 w, Deep_dpsec fuel cfg c e s t (secular c e t) = some (s1, w) ∧ s'.integ = s1.integ := by
  unfold SDP4 at h
  obtain ⟨⟨s1, w⟩, hd, h⟩ := Option.map_eq_some_iff.mp h
  refine ⟨s1, w, hd, ?_⟩
  dsimp only at h
  split_ifs at h
  · rw [Prod.mk.injEq] at h
    rw [← h.1]
  · rw [Prod.mk.injEq] at h
    rw [← h.1]
    exact refresh_integ ..

/-- A property of the integration that every step from a restart or from a state with it keeps, holds after all calls. -/
theorem calls_inv {fuel : ℕ} {cfg : Cfg} {c : Deep} {e : Elem} (P : ℝ × ℝ × ℝ → Prop)
    (hP : ∀ (s s1 : State) (t : ℝ) (w w' : Work), P s.integ → Deep_dpsec fuel cfg c e s t w = some (s1, w') → P s1.integ) :
    ∀ (ts : List ℝ) (s s' : State), P s.integ → calls fuel cfg c e ts s = some s' → P s'.integ
  | [], s, s', h, hc => by
    unfold calls at hc
    exact Option.some.inj hc ▸ h
  | t :: ts, s, s', h, hc => by
    unfold calls at hc
    obtain ⟨⟨s2, r⟩, h2, hc⟩ := Option.bind_eq_some_iff.mp hc
    obtain ⟨s1, w, hd, e1⟩ := SDP4_state h2
    refine calls_inv P hP ts s2 s' ?_ hc
    rw [e1]
    exact hP s s1 t _ w h hd

/-- The steps of `Deep_dpsec` for a resonant orbit. -/
theorem dpsec_steps {fuel : ℕ} {cfg : Cfg} {c : Deep} {e : Elem} {s s1 : State} {t : ℝ} {w w' : Work} (hr : c.res ≠ .none)
    (h : Deep_dpsec fuel cfg c e s t w = some (s1, w')) :
    ∃ l n, dpsecLoop cfg c t fuel (restart cfg c s t).1 (restart cfg c s t).2.1 (restart cfg c s t).2.2 = some ((l, n), s1.integ) ∧
      w' = { w with
        xll := l + (-(w.xnode + c.ssh * t) + c.thgr + t * thdt) +
          (if c.res = .full then -(w.omgadf + c.ssg * t) else -(w.xnode + c.ssh * t) + c.thgr + t * thdt)
        omgadf := w.omgadf + c.ssg * t, xnode := w.xnode + c.ssh * t, em := e.eo + c.sse * t, xinc := e.xincl + c.ssi * t, xn := n } := by
  unfold Deep_dpsec at h
  dsimp only at h
  rw [if_neg hr] at h
  obtain ⟨⟨⟨l, n⟩, a, l', n'⟩, hl, h⟩ := Option.map_eq_some_iff.mp h
  rw [Prod.mk.injEq] at h
  obtain ⟨rfl, rfl⟩ := h
  exact ⟨l, n, hl, rfl⟩

theorem taylorLoop_zero (x : ℝ) : ∀ (ds : List ℝ) (i : ℕ) (p q l n : ℝ), taylorLoop x 0 ds i p 0 q l n = (l, n)
  | [], _, _, _, _, _ => rfl
  | d :: ds, i, p, q, l, n => by
    unfold taylorLoop
    simp only [zero_mul, add_zero]
    exact taylorLoop_zero x ds _ _ _ _ _

/-- A step over no time changes nothing. -/
theorem step_zero {cfg : Cfg} {c : Deep} {atime xli xni : ℝ} {p : ℝ × ℝ} (h : dpsecStep cfg c atime xli xni 0 = some p) : p = (xli, xni) := by
  unfold dpsecStep at h
  obtain ⟨ds, _, rfl⟩ := Option.map_eq_some_iff.mp h
  simp only [zero_mul, add_zero]
  exact taylorLoop_zero _ _ _ _ _ _ _

end SatSky.Props
