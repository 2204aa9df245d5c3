import Verif.Props.DeepHist
import Verif.Props.Kepler
import Verif.Props.Tesseral

/-! C143: SDP4 writes a position; how far the mean motion of a resonant orbit can move. -/

namespace SatSky.Props

open SatSky.Spec SatSky.Sxp Real

/-! ### The early return -/

theorem code_ne (m : Mean) : (sxpx_posn_vel m).1 ≠ -5 := by
  intro h
  have := (C48_codes_partial m).2.2.2.2.2.1
  rw [h] at this
  norm_num at this

/-- **C143**: `SDP4` leaves `pos` and `vel` alone exactly when it returns -5, which it does exactly when the perturbed mean motion is negative. -/
theorem C143_early {fuel : ℕ} {cfg : Cfg} {c : Deep} {e : Elem} {s s' : State} {t : ℝ} {code : ℤ} {r : Option (V3 × V3)}
    (h : SDP4 fuel cfg c e s t = some (s', code, r)) :
    ∃ s1 w, Deep_dpsec fuel cfg c e s t (secular c e t) = some (s1, w) ∧ (r = none ↔ w.xn < 0) ∧ (r = none ↔ code = -5) := by
  unfold SDP4 at h
  obtain ⟨⟨s1, w⟩, hd, h⟩ := Option.map_eq_some_iff.mp h
  refine ⟨s1, w, hd, ?_⟩
  dsimp only at h
  by_cases hn : w.xn < 0
  · rw [if_pos hn, Prod.mk.injEq, Prod.mk.injEq] at h
    exact ⟨⟨fun _ => hn, fun _ => h.2.2.symm⟩, fun _ => h.2.1.symm, fun _ => h.2.2.symm⟩
  · rw [if_neg hn, Prod.mk.injEq, Prod.mk.injEq] at h
    rw [← h.2.2, ← h.2.1]
    refine ⟨⟨fun h => by simp at h, fun h => absurd h hn⟩, fun h => by simp at h, fun h => ?_⟩
    exact absurd h (code_ne _)

/-- **C143**: without resonance the mean motion does not change, so a position is always written. -/
theorem C143_nonresonant {fuel : ℕ} {cfg : Cfg} {c : Deep} {e : Elem} {s s' : State} {t : ℝ} {code : ℤ} {r : Option (V3 × V3)} (hr : c.res = .none)
    (hn : 0 ≤ c.i.xnodp) (h : SDP4 fuel cfg c e s t = some (s', code, r)) : r ≠ none := by
  obtain ⟨s1, w, hd, hw, -⟩ := C143_early h
  unfold Deep_dpsec at hd
  dsimp only at hd
  rw [if_pos hr, Option.some.injEq, Prod.mk.injEq] at hd
  intro h0
  have := hw.1 h0
  rw [← hd.2] at this
  exact absurd this (not_lt.2 hn)

/-! ### Bounds of the acceleration -/

theorem wave_le (w : Wave) (hw : w.cosPhase ^ 2 + w.sinPhase ^ 2 ≤ 101 / 100) (l : ℝ) : |w.at l| ≤ 101 / 100 * |w.amp| := by
  unfold Wave.at
  rw [abs_mul, mul_comm]
  refine mul_le_mul_of_nonneg_right ?_ (abs_nonneg _)
  refine abs_le_of_sq_le_sq ?_ (by norm_num)
  have h := sin_sq_add_cos_sq (w.n * l + w.k)
  nlinarith [sq_nonneg (sin (w.n * l + w.k) * w.sinPhase + cos (w.n * l + w.k) * w.cosPhase), sq_nonneg w.cosPhase, sq_nonneg w.sinPhase]

/-- The sum of the amplitudes. -/
noncomputable def ampSum (ws : List Wave) : ℝ := (ws.map fun w => |w.amp|).sum

theorem waves_le {ws : List Wave} (h : ∀ w ∈ ws, w.cosPhase ^ 2 + w.sinPhase ^ 2 ≤ 101 / 100) (l : ℝ) : |waves ws l| ≤ 101 / 100 * ampSum ws := by
  induction ws with
  | nil => simp [waves, ampSum]
  | cons w ws ih =>
    have h1 := wave_le w (h w (by simp)) l
    have h2 := ih fun v hv => h v (by simp [hv])
    unfold waves ampSum at *
    simp only [List.map_cons, List.sum_cons]
    refine (abs_add_le _ _).trans ?_
    linarith

theorem ampSum_deriv {ws : List Wave} {m : ℕ} (h : ∀ w ∈ ws, w.n ≤ m) : ampSum (ws.map waveDeriv) ≤ m * ampSum ws := by
  induction ws with
  | nil => simp [ampSum]
  | cons w ws ih =>
    have h2 := ih fun v hv => h v (by simp [hv])
    have h1 : (w.n : ℝ) ≤ m := by exact_mod_cast h w (by simp)
    unfold ampSum at *
    simp only [List.map_cons, List.sum_cons]
    have h3 : |(waveDeriv w).amp| ≤ m * |w.amp| := by
      show |w.amp * w.n| ≤ _
      rw [abs_mul, Nat.abs_cast, mul_comm]
      exact mul_le_mul_of_nonneg_right h1 (abs_nonneg _)
    linarith

/-! ### One step, the loop, the calls -/

/-- Bounds of the acceleration and its derivative, of the epoch's drift of the resonant longitude and of the path. -/
structure Slow (c : Deep) (A A' B L : ℝ) : Prop where
  acc : ∀ a l, |accel c a l| ≤ A
  acc' : ∀ a l, |deriv (accel c a) l| ≤ A'
  drift : |c.xnq + c.xfact| + (A + 360 * A' * B) * L ≤ B
  B0 : 0 ≤ B

theorem Slow.nonneg {c : Deep} {A A' B L : ℝ} (h : Slow c A A' B L) : 0 ≤ A ∧ 0 ≤ A' :=
  ⟨(abs_nonneg _).trans (h.acc 0 0), (abs_nonneg _).trans (h.acc' 0 0)⟩

theorem step_slow {cfg : Cfg} (ho : cfg.order = 2) {c : Deep} {A A' B L : ℝ} (hS : Slow c A A' B L) {atime xli xni h l n : ℝ} (hh : |h| ≤ 720)
    (hx : |xni + c.xfact| ≤ B) (hs : dpsecStep cfg c atime xli xni h = some (l, n)) : |n - xni| ≤ (A + 360 * A' * B) * |h| := by
  obtain ⟨h1, -⟩ := C99_step (N := 1) (by rw [ho]; norm_num) hs
  rw [Finset.sum_range_succ, Finset.sum_range_one, iteratedDeriv_one, iteratedDeriv_zero] at h1
  have e : n - xni = h * accel c atime xli + h * (h / 2 * (xni + c.xfact) * deriv (accel c atime) xli) := by
    rw [h1]
    norm_num [Nat.factorial]
    ring
  obtain ⟨hA, hA'⟩ := hS.nonneg
  rw [e]
  refine (abs_add_le _ _).trans ?_
  rw [abs_mul, abs_mul h (_ * _), abs_mul, abs_mul, abs_div, abs_two]
  have b1 := hS.acc atime xli
  have b2 := hS.acc' atime xli
  have b3 : |h| / 2 * |xni + c.xfact| * |deriv (accel c atime) xli| ≤ 360 * B * A' := by
    refine mul_le_mul (mul_le_mul (by linarith) hx (abs_nonneg _) (by norm_num)) b2 (abs_nonneg _) ?_
    exact mul_nonneg (by norm_num) ((abs_nonneg _).trans hx)
  nlinarith [abs_nonneg h]

theorem loop_slow {cfg : Cfg} (ho : cfg.order = 2) (h0 : 0 < cfg.step) (h7 : cfg.step ≤ 720) {c : Deep} {A A' B L : ℝ} (hS : Slow c A A' B L) (t : ℝ) :
    ∀ (fuel : ℕ) (atime xli xni P l n : ℝ) (st : ℝ × ℝ × ℝ), |xni - c.xnq| ≤ (A + 360 * A' * B) * P → P + |t - atime| ≤ L →
      dpsecLoop cfg c t fuel atime xli xni = some ((l, n), st) → |n - c.xnq| ≤ (A + 360 * A' * B) * (P + |t - atime|)
  | 0, _, _, _, _, _, _, _, _, _, h => by unfold dpsecLoop at h; cases h
  | fuel + 1, atime, xli, xni, P, l, n, st, hP, hL, h => by
    have hB : |xni + c.xfact| ≤ B := by
      have h1 : |xni + c.xfact| ≤ |xni - c.xnq| + |c.xnq + c.xfact| := by
        rw [show xni + c.xfact = (xni - c.xnq) + (c.xnq + c.xfact) by ring]
        exact abs_add_le _ _
      have h2 := hS.drift
      obtain ⟨hA, hA'⟩ := hS.nonneg
      have : (A + 360 * A' * B) * P ≤ (A + 360 * A' * B) * L := mul_le_mul_of_nonneg_left (by linarith [abs_nonneg (t - atime)])
        (add_nonneg hA (mul_nonneg (by linarith) hS.B0))
      linarith
    have hstep : ∀ {d l' n'}, |d| ≤ 720 → dpsecStep cfg c atime xli xni d = some (l', n') → |n' - c.xnq| ≤ (A + 360 * A' * B) * (P + |d|) := by
      intro d l' n' hd hs
      have h1 := step_slow ho hS hd hB hs
      have h2 : |n' - c.xnq| ≤ |n' - xni| + |xni - c.xnq| := by
        rw [show n' - c.xnq = (n' - xni) + (xni - c.xnq) by ring]
        exact abs_add_le _ _
      linarith
    unfold dpsecLoop at h
    dsimp only at h
    by_cases c1 : t - atime > cfg.step
    · rw [if_pos c1] at h
      obtain ⟨⟨l', n'⟩, hp, h⟩ := Option.bind_eq_some_iff.mp h
      have e1 : |t - (atime + cfg.step)| = |t - atime| - cfg.step := by rw [abs_of_nonneg (by linarith), abs_of_nonneg (by linarith)]; ring
      have h1 := hstep (by rwa [abs_of_pos h0]) hp
      rw [abs_of_pos h0] at h1
      have := loop_slow ho h0 h7 hS t fuel _ _ _ _ l n st h1 (by rw [e1]; linarith) h
      rw [e1] at this
      convert this using 2
      ring
    · rw [if_neg c1] at h
      by_cases c2 : t - atime < -cfg.step
      · rw [if_pos c2] at h
        obtain ⟨⟨l', n'⟩, hp, h⟩ := Option.bind_eq_some_iff.mp h
        have e1 : |t - (atime + -cfg.step)| = |t - atime| - cfg.step := by rw [abs_of_nonpos (by linarith), abs_of_nonpos (by linarith)]; ring
        have h1 := hstep (by rwa [abs_neg, abs_of_pos h0]) hp
        rw [abs_neg, abs_of_pos h0] at h1
        have := loop_slow ho h0 h7 hS t fuel _ _ _ _ l n st h1 (by rw [e1]; linarith) h
        rw [e1] at this
        convert this using 2
        ring
      · rw [if_neg c2] at h
        obtain ⟨⟨l', n'⟩, hp, h⟩ := Option.map_eq_some_iff.mp h
        rw [Prod.mk.injEq, Prod.mk.injEq] at h
        rw [← h.1.2]
        exact hstep (abs_le.2 ⟨by linarith, by linarith⟩) hp

/-- How far the time moves from `a` on when the times `ts` are asked for one after the other. -/
def travelled : ℝ → List ℝ → ℝ
  | _, [] => 0
  | a, t :: ts => |t - a| + travelled t ts

theorem travelled_nonneg : ∀ (ts : List ℝ) (a : ℝ), 0 ≤ travelled a ts
  | [], _ => le_rfl
  | t :: ts, a => add_nonneg (abs_nonneg _) (travelled_nonneg ts t)

theorem dpsec_slow {fuel : ℕ} {cfg : Cfg} (ho : cfg.order = 2) (h0 : 0 < cfg.step) (h7 : cfg.step ≤ 720) (hd : cfg.dundee = false) {c : Deep}
    {A A' B L : ℝ} (hS : Slow c A A' B L) (hr : c.res ≠ .none) {e : Elem} {s s1 : State} {t P : ℝ} {w w' : Work}
    (hs : |s.xni - c.xnq| ≤ (A + 360 * A' * B) * P) (hP : 0 ≤ P) (hL : P + |t - s.atime| ≤ L) (h : Deep_dpsec fuel cfg c e s t w = some (s1, w')) :
    |w'.xn - c.xnq| ≤ (A + 360 * A' * B) * (P + |t - s.atime|) ∧ s1.atime = t ∧ s1.xni = w'.xn := by
  obtain ⟨l, n, hl, hw⟩ := dpsec_steps hr h
  have hst := loop_atime hd c t _ _ _ _ _ _ hl
  unfold State.integ at hst
  rw [Prod.mk.injEq, Prod.mk.injEq] at hst
  have hn : w'.xn = n := by rw [hw]
  rw [hn]
  refine ⟨?_, hst.1, hst.2.2⟩
  obtain ⟨hA, hA'⟩ := hS.nonneg
  have hK : 0 ≤ A + 360 * A' * B := add_nonneg hA (mul_nonneg (by linarith) hS.B0)
  unfold restart at hl
  by_cases hc : |t| < |t - s.atime| ∨ (cfg.dundee = true ∧ |t| < |s.atime|)
  · rw [if_pos hc] at hl
    have ht : |t| < |t - s.atime| := hc.resolve_right (by rw [hd]; simp)
    have := loop_slow ho h0 h7 hS t fuel 0 c.xlamo c.xnq 0 l n _ (by simp) (by rw [sub_zero]; linarith) hl
    refine this.trans (mul_le_mul_of_nonneg_left ?_ hK)
    rw [sub_zero]
    linarith
  · rw [if_neg hc] at hl
    exact loop_slow ho h0 h7 hS t fuel _ _ _ P l n _ hs hL hl

/-- After any calls, the mean motion has moved at most in proportion to the time travelled. -/
theorem calls_slow {fuel : ℕ} {cfg : Cfg} (ho : cfg.order = 2) (h0 : 0 < cfg.step) (h7 : cfg.step ≤ 720) (hd : cfg.dundee = false) {c : Deep}
    {A A' B L : ℝ} (hS : Slow c A A' B L) (hr : c.res ≠ .none) {e : Elem} :
    ∀ (ts : List ℝ) (s s' : State) (t P : ℝ), |s.xni - c.xnq| ≤ (A + 360 * A' * B) * P → 0 ≤ P →
      P + travelled s.atime (ts ++ [t]) ≤ L → calls fuel cfg c e ts s = some s' → ∀ s1 w, Deep_dpsec fuel cfg c e s' t (secular c e t) = some (s1, w) →
      |w.xn - c.xnq| ≤ (A + 360 * A' * B) * (P + travelled s.atime (ts ++ [t]))
  | [], s, s', t, P, hs, hP, hL, hc, s1, w, h => by
    unfold calls at hc
    obtain rfl := Option.some.inj hc
    simp only [List.nil_append, travelled, add_zero] at hL ⊢
    exact (dpsec_slow ho h0 h7 hd hS hr hs hP hL h).1
  | t' :: ts, s, s', t, P, hs, hP, hL, hc, s1, w, h => by
    unfold calls at hc
    obtain ⟨⟨s2, r2⟩, h2, hc⟩ := Option.bind_eq_some_iff.mp hc
    obtain ⟨s3, w3, hd3, e3⟩ := SDP4_state h2
    unfold State.integ at e3
    rw [Prod.mk.injEq, Prod.mk.injEq] at e3
    simp only [List.cons_append, travelled] at hL ⊢
    have hn := travelled_nonneg (ts ++ [t]) t'
    obtain ⟨k1, k2, k3⟩ := dpsec_slow ho h0 h7 hd hS hr hs hP (by linarith) hd3
    have := calls_slow ho h0 h7 hd hS hr ts s2 s' t (P + |t' - s.atime|) (by rw [e3.2.2, k3]; exact k1) (by positivity)
      (by rw [e3.1, k2]; linarith) hc s1 w h
    rw [e3.1, k2] at this
    rwa [← add_assoc]

/-- **C143**: with bounds of the acceleration, `SDP4` writes a position as long as the time travelled, times the bound of the change, stays below
the mean motion. -/
theorem C143_slow {fuel : ℕ} {cfg : Cfg} (ho : cfg.order = 2) (h0 : 0 < cfg.step) (h7 : cfg.step ≤ 720) (hd : cfg.dundee = false) {c : Deep}
    {A A' B L : ℝ} (hS : Slow c A A' B L) (hr : c.res ≠ .none) (hL : (A + 360 * A' * B) * L ≤ c.xnq) {e : Elem} {ts : List ℝ} {t : ℝ} {p : Periodic}
    {s s' : State} {code : ℤ} {r : Option (V3 × V3)} (hc : calls fuel cfg c e ts (c.start p) = some s) (ht : travelled 0 (ts ++ [t]) ≤ L)
    (h : SDP4 fuel cfg c e s t = some (s', code, r)) : r ≠ none := by
  obtain ⟨s1, w, hdp, hw, -⟩ := C143_early h
  have := calls_slow ho h0 h7 hd hS hr ts (c.start p) s t 0 (by simp [Deep.start]) le_rfl (by rw [zero_add]; exact ht) hc s1 w hdp
  rw [zero_add] at this
  obtain ⟨hA, hA'⟩ := hS.nonneg
  have hK : 0 ≤ A + 360 * A' * B := add_nonneg hA (mul_nonneg (by linarith) hS.B0)
  have h1 := mul_le_mul_of_nonneg_left ht hK
  intro h3
  have h4 := hw.1 h3
  have h5 := (abs_le.1 this).1
  have h6 : travelled (c.start p).atime (ts ++ [t]) = travelled 0 (ts ++ [t]) := rfl
  rw [h6] at h5
  linarith

/-! ### The bounds for 12-hour orbits -/

theorem half_phases (c : Deep) (om : ℝ) : ∀ w ∈ halfWaves c om, w.cosPhase ^ 2 + w.sinPhase ^ 2 ≤ 101 / 100 := by
  intro w hw
  simp only [halfWaves, List.mem_cons, List.not_mem_nil, or_false] at hw
  rcases hw with rfl | rfl | rfl | rfl | rfl | rfl | rfl | rfl | rfl | rfl <;> dsimp only <;>
    norm_num [c_g22, s_g22, c_g32, s_g32, c_g44, s_g44, c_g52, s_g52, c_g54, s_g54]

theorem half_orders (c : Deep) (om : ℝ) : ∀ w ∈ halfWaves c om, w.n ≤ 2 := by
  intro w hw
  simp only [halfWaves, List.mem_cons, List.not_mem_nil, or_false] at hw
  rcases hw with rfl | rfl | rfl | rfl | rfl | rfl | rfl | rfl | rfl | rfl <;> norm_num

theorem poly_le {c : ℝ} (a : -1 ≤ c) (b : c ≤ 1) :
    |984375 / 10 ^ 5 * ((1 - c ^ 2) * (1 - 2 * c - 5 * (c * c)) + 33333333 / 10 ^ 8 * (-2 + 4 * c + 6 * (c * c)))| ≤ 30 ∧
    |492187512 / 10 ^ 8 * (1 - c ^ 2) * (-2 - 4 * c + 10 * (c * c)) + 656250012 / 10 ^ 8 * (1 + 2 * c - 3 * (c * c))| ≤ 30 ∧
    |2953125 / 10 ^ 5 * (2 - 8 * c + c * c * (-12 + 8 * c + 10 * (c * c)))| ≤ 180 := by
  have hcc : c ^ 2 ≤ 1 := by nlinarith
  have q1 := mul_nonneg (sub_nonneg.2 hcc) (sq_nonneg c)
  have q2 := mul_nonneg (sub_nonneg.2 hcc) (sq_nonneg (1 - c))
  have q3 := mul_nonneg (sub_nonneg.2 hcc) (sq_nonneg (1 + c))
  have q4 := sq_nonneg (c ^ 2 - c)
  have q5 := sq_nonneg (c ^ 2 + c)
  refine ⟨?_, ?_, ?_⟩ <;> rw [abs_le] <;> constructor <;> nlinarith [sq_nonneg c, sq_nonneg (c ^ 2), sq_nonneg (c ^ 2 - c / 2), sq_nonneg (c ^ 2 + c / 2)]

theorem incl_le {i : Init} {x : ℝ} (h1 : i.cosio = cos x) (h2 : i.cosio2 = cos x * cos x) (h3 : i.sinio = sin x) :
    |(halfIncl i).f220| ≤ 3 ∧ |(halfIncl i).f221| ≤ 3 / 2 ∧ |(halfIncl i).f321| ≤ 15 / 2 ∧ |(halfIncl i).f322| ≤ 15 / 2 ∧
    |(halfIncl i).f441| ≤ 105 ∧ |(halfIncl i).f442| ≤ 40 ∧ |(halfIncl i).f522| ≤ 30 ∧ |(halfIncl i).f523| ≤ 30 ∧
    |(halfIncl i).f542| ≤ 180 ∧ |(halfIncl i).f543| ≤ 180 := by
  have hs := sin_sq_add_cos_sq x
  have hs1 := abs_sin_le_one x
  have hc1 := abs_le.1 (abs_cos_le_one x)
  simp only [halfIncl, h1, h2, h3]
  generalize sin x = s at *
  generalize cos x = c at *
  have hs2 : s * s = 1 - c ^ 2 := by linear_combination hs
  obtain ⟨a, b⟩ := hc1
  have hcc : c ^ 2 ≤ 1 := by nlinarith
  have key : ∀ {k q K : ℝ}, |k * q| ≤ K → |k * s * q| ≤ K := by
    intro k q K h
    rw [mul_right_comm, abs_mul]
    nlinarith [abs_nonneg (k * q), abs_nonneg s]
  have key' : ∀ {q K : ℝ}, |q| ≤ K → |s * q| ≤ K := by
    intro q K h
    rw [abs_mul]
    nlinarith [abs_nonneg q, abs_nonneg s]
  refine ⟨?_, ?_, key ?_, key ?_, ?_, ?_, key ?_, key' ?_, key ?_, key ?_⟩
  · rw [abs_le]; constructor <;> nlinarith
  · rw [hs2, abs_le]; constructor <;> nlinarith
  · rw [abs_le]; constructor <;> nlinarith
  · rw [abs_le]; constructor <;> nlinarith
  · rw [hs2, show 35 * (1 - c ^ 2) * (3 / 4 * (1 + 2 * c + c * c)) = 105 / 4 * ((1 - c ^ 2) * (1 + c) ^ 2) by ring, abs_le]
    have : (1 + c) ^ 2 ≤ 4 := by nlinarith
    constructor <;> nlinarith [mul_nonneg (sub_nonneg.2 hcc) (sq_nonneg (1 + c))]
  · rw [mul_assoc, hs2, abs_le]; constructor <;> nlinarith [mul_nonneg (sub_nonneg.2 hcc) (sub_nonneg.2 hcc)]
  · rw [hs2]; exact (poly_le a b).1
  · rw [hs2]; exact (poly_le a b).2.1
  · exact (poly_le a b).2.2
  · have := (poly_le (c := -c) (by linarith) (by linarith)).2.2
    rw [← abs_neg]
    convert this using 2
    ring

set_option maxHeartbeats 2000000 in
theorem ecc_le {e : Elem} {i : Init} (hi : i.eosq = e.eo * e.eo) (h1 : 1 / 2 ≤ e.eo) (h2 : e.eo ≤ 4 / 5) :
    |(halfEcc e i).g201| ≤ 2 / 5 ∧ |(halfEcc e i).g211| ≤ 5 ∧ |(halfEcc e i).g310| ≤ 12 ∧ |(halfEcc e i).g322| ≤ 10 ∧ |(halfEcc e i).g410| ≤ 20 ∧
    |(halfEcc e i).g422| ≤ 66 ∧ |(halfEcc e i).g520| ≤ 225 ∧ |(halfEcc e i).g521| ≤ 255 ∧ |(halfEcc e i).g532| ≤ 220 ∧ |(halfEcc e i).g533| ≤ 205 := by
  simp only [halfEcc, hi, cubic]
  generalize e.eo = x at *
  refine ⟨?_, ?_, ?_, ?_, ?_, ?_, ?_, ?_, ?_, ?_⟩
  all_goals (try split_ifs) <;> try simp only [decide_eq_true_eq, not_le, not_lt] at *
  all_goals rw [abs_le] <;> constructor <;>
    nlinarith [mul_nonneg (sub_nonneg.2 h1) (sub_nonneg.2 h2), sq_nonneg (x - 1 / 2), sq_nonneg (x - 4 / 5),
      mul_nonneg (mul_nonneg (sub_nonneg.2 h1) (sub_nonneg.2 h2)) (sub_nonneg.2 h1), mul_nonneg (mul_nonneg (sub_nonneg.2 h1) (sub_nonneg.2 h2)) (sub_nonneg.2 h2)]

theorem amp_le {x X r f F g G : ℝ} (h0 : 0 ≤ x) (hx : x ≤ X) (hr : 0 ≤ r) (hf : |f| ≤ F) (hg : |g| ≤ G) : |x * r * f * g| ≤ X * r * F * G := by
  rw [abs_mul, abs_mul, abs_mul, abs_of_nonneg h0, abs_of_nonneg hr]
  have hF := (abs_nonneg f).trans hf
  have hX := h0.trans hx
  gcongr

theorem powers_le {n a N A : ℝ} (hn0 : 0 ≤ n) (hn : n ≤ N) (hA : 0 < A) (ha : A ≤ a) (k : ℕ) :
    0 ≤ 3 * n * n * (1 / a) ^ k ∧ 3 * n * n * (1 / a) ^ k ≤ 3 * N * N * (1 / A) ^ k := by
  have ha0 : 0 < a := hA.trans_le ha
  have hN : 0 ≤ N := hn0.trans hn
  refine ⟨by positivity, ?_⟩
  gcongr

/-- The amplitudes for 12-hour orbits. -/
theorem half_amp {c : Deep} {e : Elem} (hd : c.d = halfDay e c.i) {x : ℝ} (h1 : c.i.cosio = cos x) (h2 : c.i.cosio2 = cos x * cos x)
    (h3 : c.i.sinio = sin x) (h4 : c.i.eosq = e.eo * e.eo) (he1 : 1 / 2 ≤ e.eo) (he2 : e.eo ≤ 4 / 5) (hn0 : 0 ≤ c.i.xnodp)
    (hn : c.i.xnodp ≤ 924 / 10 ^ 5) (ha : 4 ≤ c.i.aodp) (om : ℝ) : ampSum (halfWaves c om) ≤ 104 / 10 ^ 11 := by
  obtain ⟨f1, f2, f3, f4, f5, f6, f7, f8, f9, f10⟩ := incl_le h1 h2 h3
  obtain ⟨g1, g2, g3, g4, g5, g6, g7, g8, g9, g10⟩ := ecc_le h4 he1 he2
  have p := powers_le hn0 hn (by norm_num) ha
  simp only [ampSum, halfWaves, List.map_cons, List.map_nil, List.sum_cons, List.sum_nil, hd, halfDay, halfDayOf]
  generalize halfIncl c.i = f at *
  generalize halfEcc e c.i = g at *
  generalize c.i.xnodp = n at *
  generalize c.i.aodp = a at *
  have e2 : 3 * n * n * (1 / a) * (1 / a) = 3 * n * n * (1 / a) ^ 2 := by ring
  have e3 : 3 * n * n * (1 / a) * (1 / a) * (1 / a) = 3 * n * n * (1 / a) ^ 3 := by ring
  have e4 : 3 * n * n * (1 / a) * (1 / a) * (1 / a) * (1 / a) = 3 * n * n * (1 / a) ^ 4 := by ring
  have e5 : 3 * n * n * (1 / a) * (1 / a) * (1 / a) * (1 / a) * (1 / a) = 3 * n * n * (1 / a) ^ 5 := by ring
  rw [e5, e4, e3, e2]
  have k1 := amp_le (r := 17891679 / 10 ^ 13) (p 2).1 (p 2).2 (by norm_num) f1 g1
  have k2 := amp_le (r := 17891679 / 10 ^ 13) (p 2).1 (p 2).2 (by norm_num) f2 g2
  have k3 := amp_le (r := 37393792 / 10 ^ 14) (p 3).1 (p 3).2 (by norm_num) f3 g3
  have k4 := amp_le (r := 37393792 / 10 ^ 14) (p 3).1 (p 3).2 (by norm_num) f4 g4
  have k5 := amp_le (r := 73636953 / 10 ^ 16) (mul_nonneg zero_le_two (p 4).1) (mul_le_mul_of_nonneg_left (p 4).2 zero_le_two) (by norm_num) f5 g5
  have k6 := amp_le (r := 73636953 / 10 ^ 16) (mul_nonneg zero_le_two (p 4).1) (mul_le_mul_of_nonneg_left (p 4).2 zero_le_two) (by norm_num) f6 g6
  have k7 := amp_le (r := 11428639 / 10 ^ 14) (p 5).1 (p 5).2 (by norm_num) f7 g7
  have k8 := amp_le (r := 11428639 / 10 ^ 14) (p 5).1 (p 5).2 (by norm_num) f8 g9
  have k9 := amp_le (r := 21765803 / 10 ^ 16) (mul_nonneg zero_le_two (p 5).1) (mul_le_mul_of_nonneg_left (p 5).2 zero_le_two) (by norm_num) f9 g8
  have k10 := amp_le (r := 21765803 / 10 ^ 16) (mul_nonneg zero_le_two (p 5).1) (mul_le_mul_of_nonneg_left (p 5).2 zero_le_two) (by norm_num) f10 g10
  refine (add_le_add k1 (add_le_add k2 (add_le_add k3 (add_le_add k4 (add_le_add k7 (add_le_add k8 (add_le_add k5 (add_le_add k6 (add_le_add k9
    (add_le_add k10 le_rfl)))))))))).trans ?_
  norm_num

/-! ### The bounds for synchronous orbits -/

theorem full_phases (c : Deep) : ∀ w ∈ fullWaves c, w.cosPhase ^ 2 + w.sinPhase ^ 2 ≤ 101 / 100 := by
  intro w hw
  simp only [fullWaves, List.mem_cons, List.not_mem_nil, or_false] at hw
  rcases hw with rfl | rfl | rfl <;> dsimp only <;> norm_num [c_fasx2, s_fasx2, c_2fasx4, s_2fasx4, c_3fasx6, s_3fasx6]

theorem full_orders (c : Deep) : ∀ w ∈ fullWaves c, w.n ≤ 3 := by
  intro w hw
  simp only [fullWaves, List.mem_cons, List.not_mem_nil, or_false] at hw
  rcases hw with rfl | rfl | rfl <;> norm_num

/-- The amplitudes for synchronous orbits. -/
theorem full_amp {c : Deep} (hd : (c.del1, c.del2, c.del3) = fullDay c.i) {x : ℝ} (h1 : c.i.cosio = cos x) (h3 : c.i.sinio = sin x)
    (h4 : 0 ≤ c.i.eosq) (h5 : c.i.eosq ≤ 1) (hn0 : 0 ≤ c.i.xnodp) (hn : c.i.xnodp ≤ 53 / 10 ^ 4) (ha : 5 ≤ c.i.aodp) :
    ampSum (fullWaves c) ≤ 12 / 10 ^ 11 := by
  have p := powers_le hn0 hn (by norm_num) ha
  obtain ⟨d1, d2⟩ := Prod.ext_iff.1 hd
  obtain ⟨d2, d3⟩ := Prod.ext_iff.1 d2
  dsimp only at d1 d2 d3
  have hc1 := abs_le.1 (abs_cos_le_one x)
  have hs := sin_sq_add_cos_sq x
  simp only [ampSum, fullWaves, List.map_cons, List.map_nil, List.sum_cons, List.sum_nil, d1, d2, d3, fullDay, fullDayOf, fullIncl, fullEcc, h1, h3]
  generalize sin x = s at *
  generalize cos x = k at *
  generalize c.i.xnodp = n at *
  generalize c.i.aodp = a at *
  generalize c.i.eosq = q at *
  obtain ⟨ka, kb⟩ := hc1
  have f1 : |9375 / 10 ^ 4 * s * s * (1 + 3 * k) - 3 / 4 * (1 + k)| ≤ 6 := by
    rw [show 9375 / 10 ^ 4 * s * s * (1 + 3 * k) - 3 / 4 * (1 + k) = 15 / 16 * ((1 - k ^ 2) * (1 + 3 * k)) - 3 / 4 * (1 + k) by
      linear_combination 15 / 16 * (1 + 3 * k) * hs, abs_le]
    have hk : 0 ≤ 1 - k ^ 2 := by nlinarith
    constructor <;> nlinarith
  have f2 : |3 / 4 * (1 + k) * (1 + k)| ≤ 3 := by rw [abs_le]; constructor <;> nlinarith
  have f3 : |5 / 2 * (3 / 4 * (1 + k) * (1 + k)) * (1 + k)| ≤ 15 := by
    have : 0 ≤ 1 + k := by linarith
    have h2 : (1 + k) ^ 2 ≤ 4 := by nlinarith
    rw [abs_le]; constructor <;> nlinarith [mul_nonneg this (sq_nonneg (1 + k))]
  have g1 : |1 + 2 * q| ≤ 3 := by rw [abs_le]; constructor <;> linarith
  have g2 : |1 + q * (-(5 / 2) + 8125 / 10 ^ 4 * q)| ≤ 2 := by rw [abs_le]; constructor <;> nlinarith
  have g3 : |1 + q * (-6 + 660937 / 10 ^ 5 * q)| ≤ 2 := by rw [abs_le]; constructor <;> nlinarith [sq_nonneg (q - 1 / 2)]
  have k1 := amp_le (r := 21460748 / 10 ^ 13) (p 3).1 (p 3).2 (by norm_num) f1 g1
  have k2 := amp_le (r := 17891679 / 10 ^ 13) (mul_nonneg zero_le_two (p 2).1) (mul_le_mul_of_nonneg_left (p 2).2 zero_le_two) (by norm_num) f2 g2
  have k3 := amp_le (r := 22123015 / 10 ^ 14) (mul_nonneg zero_le_three (p 3).1) (mul_le_mul_of_nonneg_left (p 3).2 zero_le_three) (by norm_num) f3 g3
  refine le_trans (le_of_eq ?_) ((add_le_add k1 (add_le_add k2 (add_le_add k3 (le_refl (0 : ℝ))))).trans ?_)
  · congr 1
    · congr 1; ring
    · congr 1
      · congr 1; ring
      · congr 2; ring
  · norm_num

/-! ### C143 -/

/-! ### The drift of the resonant longitude -/

/-- Sines and cosines that belong together, up to rounding. -/
structure Oriented (o : Orient) : Prop where
  g : o.cosg ^ 2 + o.sing ^ 2 ≤ 10001 / 10000
  i : o.cosi ^ 2 + o.sini ^ 2 ≤ 10001 / 10000
  h : o.cosh ^ 2 + o.sinh ^ 2 ≤ 1

theorem solar_oriented (node : ℝ) : Oriented (solarOrient node) where
  g := by norm_num [solarOrient]
  i := by norm_num [solarOrient, zcosi0, zsini0]
  h := (cos_sq_add_sin_sq node).le

theorem lunar_oriented (days node : ℝ) : Oriented (lunarOrient days node) := by
  have hc := abs_le.1 (abs_cos_le_one (lunarNode days))
  have hs := sin_sq_add_cos_sq (lunarNode days)
  have hi : 0 ≤ 1 - zcosil days * zcosil days := by
    unfold zcosil
    generalize cos (lunarNode days) = C at *
    nlinarith
  have hi2 : 9 / 100 ≤ 1 - zcosil days * zcosil days := by
    unfold zcosil
    generalize cos (lunarNode days) = C at *
    nlinarith
  have e1 : zsinil days ^ 2 = 1 - zcosil days * zcosil days := sq_sqrt hi
  have hsi : 3 / 10 ≤ zsinil days := by
    have : (0 : ℝ) ≤ zsinil days := sqrt_nonneg _
    nlinarith
  have hh : |zsinhl days| ≤ 1 := by
    unfold zsinhl
    rw [abs_div, abs_of_pos (by linarith : 0 < zsinil days), div_le_one (by linarith), abs_mul]
    have := abs_sin_le_one (lunarNode days)
    rw [abs_of_pos (by norm_num)]
    nlinarith
  have e2 : zcoshl days ^ 2 = 1 - zsinhl days * zsinhl days := sq_sqrt (by nlinarith [abs_le.1 hh])
  refine ⟨?_, ?_, ?_⟩
  · show cos (lunarPerigee days) ^ 2 + sin (lunarPerigee days) ^ 2 ≤ _
    rw [cos_sq_add_sin_sq]; norm_num
  · show zcosil days ^ 2 + zsinil days ^ 2 ≤ _
    rw [e1]; nlinarith
  · have := sin_sq_add_cos_sq node
    show (zcoshl days * cos node + zsinhl days * sin node) ^ 2 + (sin node * zcoshl days - cos node * zsinhl days) ^ 2 ≤ 1
    nlinarith

theorem sq_axis {cg sg ci si ch sh : ℝ} (hg : cg ^ 2 + sg ^ 2 ≤ 10001 / 10000) (hi : ci ^ 2 + si ^ 2 ≤ 10001 / 10000) (hh : ch ^ 2 + sh ^ 2 ≤ 1) :
    (cg * ch + sg * ci * sh) ^ 2 + (-cg * sh + sg * ci * ch) ^ 2 + (sg * si) ^ 2 ≤ 1001 / 1000 := by
  rw [show (cg * ch + sg * ci * sh) ^ 2 + (-cg * sh + sg * ci * ch) ^ 2 + (sg * si) ^ 2 =
    (cg ^ 2 + sg ^ 2 * ci ^ 2) * (ch ^ 2 + sh ^ 2) + sg ^ 2 * si ^ 2 by ring]
  have h1 : (cg ^ 2 + sg ^ 2 * ci ^ 2) * (ch ^ 2 + sh ^ 2) ≤ (cg ^ 2 + sg ^ 2 * ci ^ 2) * 1 := mul_le_mul_of_nonneg_left hh (by positivity)
  have h2 : sg ^ 2 * (ci ^ 2 + si ^ 2) ≤ sg ^ 2 * (10001 / 10000) := mul_le_mul_of_nonneg_left hi (by positivity)
  nlinarith [sq_nonneg cg]

theorem mul_range {q Z lo hi : ℝ} (h0 : 0 ≤ q) (h1 : q ≤ 1) (hl : lo ≤ Z) (hh : Z ≤ hi) (l0 : lo ≤ 0) (u0 : 0 ≤ hi) : lo ≤ q * Z ∧ q * Z ≤ hi := by
  constructor <;> nlinarith

/-- Bounds of the secular rates that Sun and Moon cause. -/
theorem body_le {o : Orient} (ho : Oriented o) {cc zn ze : ℝ} (hcc : 0 ≤ cc) (hzn : 0 ≤ zn) {e : Elem} {i : Init} {x : ℝ} (h1 : i.cosio = cos x)
    (h2 : i.sinio = sin x) (hq0 : 0 ≤ i.eosq) (hq1 : i.eosq ≤ 1) (hb0 : 0 ≤ i.betao2) (hb1 : i.betao2 ≤ 1) (hb : 0 < i.betao) (hb' : i.betao ≤ 1)
    (hn : 0 < i.xnodp) :
    |(bodyTerms o cc zn ze e i).sl| ≤ zn * (cc / i.xnodp) * 120 ∧ |(bodyTerms o cc zn ze e i).sgh| ≤ zn * (cc / i.xnodp) * 32 ∧
    |(bodyTerms o cc zn ze e i).sh| ≤ zn * (cc / i.xnodp) / i.betao * 38 := by
  have hP := sq_axis ho.g ho.i ho.h
  have hQ := sq_axis (cg := -o.sing) (sg := o.cosg) (by rw [neg_sq, add_comm]; exact ho.g) ho.i ho.h
  rw [neg_neg] at hQ
  unfold bodyTerms
  dsimp only
  rw [h1, h2]
  generalize o.cosg * o.cosh + o.sing * o.cosi * o.sinh = a1 at *
  generalize -o.sing * o.cosh + o.cosg * o.cosi * o.sinh = a3 at *
  generalize -o.cosg * o.sinh + o.sing * o.cosi * o.cosh = a7 at *
  generalize o.sing * o.sini = a8 at *
  generalize o.sing * o.sinh + o.cosg * o.cosi * o.cosh = a9 at *
  generalize o.cosg * o.sini = a10 at *
  have r1 : (cos x * a7 + sin x * a8) ^ 2 + (-sin x * a7 + cos x * a8) ^ 2 = a7 ^ 2 + a8 ^ 2 := by
    linear_combination (a7 ^ 2 + a8 ^ 2) * sin_sq_add_cos_sq x
  have r2 : (cos x * a9 + sin x * a10) ^ 2 + (-sin x * a9 + cos x * a10) ^ 2 = a9 ^ 2 + a10 ^ 2 := by
    linear_combination (a9 ^ 2 + a10 ^ 2) * sin_sq_add_cos_sq x
  generalize cos x * a7 + sin x * a8 = a2 at *
  generalize -sin x * a7 + cos x * a8 = a5 at *
  generalize cos x * a9 + sin x * a10 = a4 at *
  generalize -sin x * a9 + cos x * a10 = a6 at *
  have hg := sin_sq_add_cos_sq e.omegao
  generalize sin e.omegao = sg at *
  generalize cos e.omegao = cg at *
  have r3 : (a1 * cg + a2 * sg) ^ 2 + (-a1 * sg + a2 * cg) ^ 2 = a1 ^ 2 + a2 ^ 2 := by linear_combination (a1 ^ 2 + a2 ^ 2) * hg
  have r4 : (a3 * cg + a4 * sg) ^ 2 + (-a3 * sg + a4 * cg) ^ 2 = a3 ^ 2 + a4 ^ 2 := by linear_combination (a3 ^ 2 + a4 ^ 2) * hg
  have r5 : (a5 * sg) ^ 2 + (a5 * cg) ^ 2 = a5 ^ 2 := by linear_combination a5 ^ 2 * hg
  have r6 : (a6 * sg) ^ 2 + (a6 * cg) ^ 2 = a6 ^ 2 := by linear_combination a6 ^ 2 * hg
  generalize a1 * cg + a2 * sg = x1 at *
  generalize a3 * cg + a4 * sg = x2 at *
  generalize -a1 * sg + a2 * cg = x3 at *
  generalize -a3 * sg + a4 * cg = x4 at *
  generalize a5 * sg = x5 at *
  generalize a6 * sg = x6 at *
  generalize a5 * cg = x7 at *
  generalize a6 * cg = x8 at *
  set s3 := cc / i.xnodp with hs3
  have hs30 : 0 ≤ s3 := by positivity
  generalize i.eosq = q at *
  generalize i.betao2 = b2 at *
  have sums : a1 ^ 2 + a2 ^ 2 + a5 ^ 2 ≤ 1001 / 1000 ∧ a3 ^ 2 + a4 ^ 2 + a6 ^ 2 ≤ 1001 / 1000 := ⟨by linarith, by linarith⟩
  have hZ : -7 ≤ 12 * x1 * x1 - 3 * x3 * x3 + (12 * x2 * x2 - 3 * x4 * x4) ∧ 12 * x1 * x1 - 3 * x3 * x3 + (12 * x2 * x2 - 3 * x4 * x4) ≤ 25 := by
    constructor <;> linarith [sq_nonneg x1, sq_nonneg x2, sq_nonneg x3, sq_nonneg x4, sq_nonneg a5, sq_nonneg a6, sums.1, sums.2]
  refine ⟨?_, ?_, ?_⟩
  · rw [abs_mul, abs_mul, abs_neg, abs_of_nonneg hzn, abs_of_nonneg hs30]
    refine mul_le_mul_of_nonneg_left ?_ (by positivity)
    generalize hz31 : 12 * x1 * x1 - 3 * x3 * x3 = z31 at *
    generalize hz33 : 12 * x2 * x2 - 3 * x4 * x4 = z33 at *
    have hA : 3 * (a1 * a1 + a2 * a2) + 3 * (a3 * a3 + a4 * a4) ≤ 7 := by linarith [sq_nonneg a5, sq_nonneg a6, sums.1, sums.2]
    have hA0 : 0 ≤ 3 * (a1 * a1 + a2 * a2) + 3 * (a3 * a3 + a4 * a4) := by
      linarith [mul_self_nonneg a1, mul_self_nonneg a2, mul_self_nonneg a3, mul_self_nonneg a4]
    obtain ⟨u1, u2⟩ := mul_range hq0 hq1 hZ.1 hZ.2 (by norm_num) (by norm_num)
    obtain ⟨u3, u4⟩ := mul_range hb0 hb1 hZ.1 hZ.2 (by norm_num) (by norm_num)
    rw [abs_le]
    constructor <;> linarith
  · rw [abs_mul, abs_mul, abs_mul, abs_of_nonneg hzn, abs_of_nonneg hs30, abs_of_pos hb]
    have h3 : |12 * x1 * x1 - 3 * x3 * x3 + (12 * x2 * x2 - 3 * x4 * x4) - 6| ≤ 32 := by rw [abs_le]; constructor <;> linarith [hZ.1, hZ.2]
    have h4 : s3 * i.betao * zn ≤ zn * s3 := by nlinarith [mul_nonneg hs30 hzn]
    exact mul_le_mul h4 h3 (abs_nonneg _) (by positivity)
  · split_ifs
    · rw [abs_zero]; positivity
    · rw [show -zn * (-(1 / 2) * s3 / i.betao) * (6 * a2 * a5 + q * (24 * x1 * x5 - 6 * x3 * x7) + (6 * a4 * a6 + q * (24 * x2 * x6 - 6 * x4 * x8))) =
        zn * s3 / i.betao * (1 / 2 * (6 * a2 * a5 + q * (24 * x1 * x5 - 6 * x3 * x7) + (6 * a4 * a6 + q * (24 * x2 * x6 - 6 * x4 * x8)))) by ring,
        abs_mul, abs_of_nonneg (by positivity)]
      refine mul_le_mul_of_nonneg_left ?_ (by positivity)
      have k1 : |24 * x1 * x5 - 6 * x3 * x7 + (24 * x2 * x6 - 6 * x4 * x8)| ≤ 63 := by
        rw [abs_le]
        constructor <;> linarith [sums.1, sums.2, sq_nonneg (x1 - x5), sq_nonneg (x1 + x5), sq_nonneg (x3 - x7), sq_nonneg (x3 + x7), sq_nonneg (x2 - x6),
          sq_nonneg (x2 + x6), sq_nonneg (x4 - x8), sq_nonneg (x4 + x8), sq_nonneg a1, sq_nonneg a2, sq_nonneg a3, sq_nonneg a4, sq_nonneg a5, sq_nonneg a6]
      have k2 : |6 * a2 * a5 + 6 * a4 * a6| ≤ 7 := by
        rw [abs_le]
        constructor <;> linarith [sums.1, sums.2, sq_nonneg (a2 - a5), sq_nonneg (a2 + a5), sq_nonneg (a4 - a6), sq_nonneg (a4 + a6), sq_nonneg a1, sq_nonneg a3]
      obtain ⟨k3, k4⟩ := abs_le.1 k1
      obtain ⟨k5, k6⟩ := abs_le.1 k2
      obtain ⟨u1, u2⟩ := mul_range hq0 hq1 k3 k4 (by norm_num) (by norm_num)
      rw [abs_le]
      constructor <;> linarith

theorem prod_le {T Z τ z : ℝ} (h0 : 0 ≤ T) (h1 : T ≤ τ) (hZ : |Z| ≤ z) : |T * Z| ≤ τ * z := by
  rw [abs_mul, abs_of_nonneg h0]
  exact mul_le_mul h1 hZ (abs_nonneg _) (h0.trans h1)

/-- The rates due to the flattening are a few per cent of the mean motion at most. -/
theorem rates_le {r : Recov} (ha : 4 ≤ r.aodp) (hb : 36 / 100 ≤ r.betao2) (hb0 : 0 ≤ r.betao) (hb1 : r.betao ≤ 1) (hc0 : 0 ≤ r.cosio2) (hc1 : r.cosio2 ≤ 1)
    (hc : |r.cosio| ≤ 1) (hn : 0 < r.xnodp) :
    |xmdotOf ck2 r - r.xnodp| ≤ r.xnodp / 100 ∧ |omgdotOf ck2 ck4 r| ≤ r.xnodp / 100 ∧ |xnodotOf ck2 ck4 r| ≤ r.xnodp / 100 := by
  unfold xmdotOf omgdotOf xnodotOf xhdot1Of
  dsimp only
  have hp : 0 < 1 / (r.aodp * r.betao2) := by positivity
  have hp1 : 1 / (r.aodp * r.betao2) ≤ 7 / 10 := by
    rw [div_le_iff₀ (by positivity)]
    nlinarith
  generalize 1 / (r.aodp * r.betao2) = p at *
  generalize r.xnodp = n at *
  generalize r.betao = b at *
  generalize r.cosio2 = y at *
  generalize r.cosio = k at *
  have hw0 : 0 ≤ p * p := by positivity
  have hw1 : p * p ≤ 1 / 2 := by nlinarith
  generalize p * p = w at *
  have t1 : 0 ≤ 3 * ck2 * w * n ∧ 3 * ck2 * w * n ≤ n / 1000 := by
    have : 0 ≤ ck2 ∧ ck2 ≤ 55 / 10 ^ 5 := by unfold ck2 xj2; norm_num
    have h1 : ck2 * w ≤ 55 / 10 ^ 5 * (1 / 2) := mul_le_mul this.2 hw1 hw0 (by norm_num)
    have h0 : 0 ≤ ck2 * w := mul_nonneg this.1 hw0
    constructor <;> nlinarith
  have t2 : 0 ≤ 3 * ck2 * w * n * ck2 * w ∧ 3 * ck2 * w * n * ck2 * w ≤ n / 10 ^ 6 := by
    have : 0 ≤ ck2 ∧ ck2 ≤ 55 / 10 ^ 5 := by unfold ck2 xj2; norm_num
    have h1 : ck2 * w ≤ 55 / 10 ^ 5 * (1 / 2) := mul_le_mul this.2 hw1 hw0 (by norm_num)
    have h0 : 0 ≤ ck2 * w := mul_nonneg this.1 hw0
    rw [mul_assoc _ ck2 w]
    constructor
    · exact mul_nonneg t1.1 h0
    · have := mul_le_mul t1.2 h1 h0 (by positivity)
      linarith
  have t3 : 0 ≤ 5 / 4 * ck4 * w * w * n ∧ 5 / 4 * ck4 * w * w * n ≤ n / 10 ^ 6 := by
    have : 0 ≤ ck4 ∧ ck4 ≤ 7 / 10 ^ 7 := by unfold ck4 xj4; norm_num
    have h1 : ck4 * (w * w) ≤ 7 / 10 ^ 7 * (1 / 4) := mul_le_mul this.2 (by nlinarith) (by positivity) (by norm_num)
    have h0 : 0 ≤ ck4 * (w * w) := mul_nonneg this.1 (by positivity)
    constructor <;> nlinarith
  generalize 3 * ck2 * w * n * ck2 * w = T2 at *
  generalize 3 * ck2 * w * n = T1 at *
  generalize 5 / 4 * ck4 * w * w * n = T3 at *
  have hyy : y * y ≤ 1 := by nlinarith
  have hyy0 : 0 ≤ y * y := by positivity
  refine ⟨?_, ?_, ?_⟩
  · have e1 := prod_le (Z := b * ((3 * y - 1) / 2)) t1.1 t1.2 (z := 1) (by
      have := mul_range hb0 hb1 (Z := (3 * y - 1) / 2) (lo := -1) (hi := 1) (by linarith) (by linarith) (by norm_num) (by norm_num)
      exact abs_le.2 this)
    have e2 := prod_le (Z := b * ((13 - 78 * y + 137 * (y * y)) / 16)) t2.1 t2.2 (z := 10) (by
      have := mul_range hb0 hb1 (Z := (13 - 78 * y + 137 * (y * y)) / 16) (lo := -10) (hi := 10) (by linarith) (by linarith) (by norm_num) (by norm_num)
      exact abs_le.2 this)
    rw [show n + T1 * b * (3 * y - 1) / 2 + T2 * b * (13 - 78 * y + 137 * (y * y)) / 16 - n =
      T1 * (b * ((3 * y - 1) / 2)) + T2 * (b * ((13 - 78 * y + 137 * (y * y)) / 16)) by ring]
    refine (abs_add_le _ _).trans ?_
    linarith
  · have e1 := prod_le (Z := -((1 - 5 * y) / 2)) t1.1 t1.2 (z := 2) (by rw [abs_le]; constructor <;> linarith)
    have e2 := prod_le (Z := (7 - 114 * y + 395 * (y * y)) / 16) t2.1 t2.2 (z := 30) (by rw [abs_le]; constructor <;> linarith)
    have e3 := prod_le (Z := 3 - 36 * y + 49 * (y * y)) t3.1 t3.2 (z := 60) (by rw [abs_le]; constructor <;> linarith)
    rw [show -T1 * (1 - 5 * y) / 2 + T2 * (7 - 114 * y + 395 * (y * y)) / 16 + T3 * (3 - 36 * y + 49 * (y * y)) =
      T1 * (-((1 - 5 * y) / 2)) + T2 * ((7 - 114 * y + 395 * (y * y)) / 16) + T3 * (3 - 36 * y + 49 * (y * y)) by ring]
    refine (abs_add_le _ _).trans ?_
    have := abs_add_le (T1 * (-((1 - 5 * y) / 2))) (T2 * ((7 - 114 * y + 395 * (y * y)) / 16))
    linarith
  · have hk : ∀ {z Z : ℝ}, |Z| ≤ z → |Z * k| ≤ z := by
      intro z Z hz
      rw [abs_mul]
      nlinarith [abs_nonneg Z, abs_nonneg k]
    have e1 := prod_le (Z := -k) t1.1 t1.2 (z := 1) (by rwa [abs_neg])
    have e2 := prod_le (Z := (4 - 19 * y) / 2 * k) t2.1 t2.2 (z := 20) (hk (by rw [abs_le]; constructor <;> linarith))
    have e3 := prod_le (Z := 2 * (3 - 7 * y) * k) t3.1 t3.2 (z := 20) (hk (by rw [abs_le]; constructor <;> linarith))
    rw [show -T1 * k + (T2 * (4 - 19 * y) / 2 + 2 * T3 * (3 - 7 * y)) * k = T1 * -k + T2 * ((4 - 19 * y) / 2 * k) + T3 * (2 * (3 - 7 * y) * k) by ring]
    refine (abs_add_le _ _).trans ?_
    have := abs_add_le (T1 * -k) (T2 * ((4 - 19 * y) / 2 * k))
    linarith

theorem sin_low {x : ℝ} (h1 : π / 60 ≤ x) (h2 : x ≤ π - π / 60) : 1 / 20 ≤ sin x := by
  have hp := pi_gt_d2
  have hq := pi_lt_d2
  have h0 : 1 / 20 ≤ sin (π / 60) := by
    have := sin_gt_sub_cube (x := π / 60) (by positivity)
    nlinarith [mul_nonneg (by linarith : (0 : ℝ) ≤ π / 60) (by linarith : (0 : ℝ) ≤ π / 60), pow_le_pow_left₀ (by linarith) (by linarith : π / 60 ≤ 53 / 1000) 3]
  rcases le_or_gt x (π / 2) with h | h
  · exact h0.trans (sin_le_sin_of_le_of_le_pi_div_two (by linarith) h h1)
  · rw [← sin_pi_sub x]
    exact h0.trans (sin_le_sin_of_le_of_le_pi_div_two (by linarith) (by linarith) (by linarith))

/-- `sh` is left out below three degrees, and above them the division by the sine of the inclination is by no less than a twentieth. -/
theorem over_sin {o : Orient} {cc zn ze B : ℝ} {e : Elem} {i : Init} (h2 : i.sinio = sin e.xincl) (hx : e.xincl ≤ π - π / 60) (hB : 0 ≤ B)
    (h : |(bodyTerms o cc zn ze e i).sh| ≤ B) : |if i.sinio ≠ 0 then (bodyTerms o cc zn ze e i).sh / i.sinio else 0| ≤ 20 * B := by
  by_cases h0 : i.sinio ≠ 0
  · rw [if_pos h0]
    by_cases h3 : e.xincl < π / 60
    · have : (bodyTerms o cc zn ze e i).sh = 0 := by
        unfold bodyTerms
        dsimp only
        rw [if_pos h3]
      rw [this, zero_div, abs_zero]
      positivity
    · have := sin_low (not_lt.1 h3) hx
      rw [h2, abs_div, abs_of_pos (by linarith : 0 < sin e.xincl), div_le_iff₀ (by linarith)]
      nlinarith
  · rw [if_neg h0, abs_zero]
    positivity

/-- What the drift needs of the elements. -/
structure Moderate (e : Elem) : Prop where
  ecc0 : 0 ≤ e.eo
  ecc : e.eo ≤ 4 / 5
  axis : 4 ≤ (SDP4_init e).i.aodp
  motion : 34 / 10 ^ 4 ≤ (SDP4_init e).i.xnodp
  incl : e.xincl ≤ π - π / 60

theorem Moderate.rates {e : Elem} (h : Moderate e) :
    |(SDP4_init e).i.xmdot - (SDP4_init e).i.xnodp| ≤ (SDP4_init e).i.xnodp / 100 ∧ |(SDP4_init e).i.omgdot| ≤ (SDP4_init e).i.xnodp / 100 ∧
    |(SDP4_init e).i.xnodot| ≤ (SDP4_init e).i.xnodp / 100 := by
  obtain ⟨e0, e1, ha, hn, -⟩ := h
  have hc := abs_cos_le_one e.xincl
  have hb : 36 / 100 ≤ 1 - e.eo * e.eo := by nlinarith
  exact rates_le (r := sxpall_common_init e) ha hb (sqrt_nonneg _) (sqrt_le_one.2 (by nlinarith)) (mul_self_nonneg _)
    (show cos e.xincl * cos e.xincl ≤ 1 by nlinarith [abs_le.1 hc]) hc (lt_of_lt_of_le (by norm_num) hn)

theorem Moderate.bodies {e : Elem} (h : Moderate e) :
    |(SDP4_init e).ssl| ≤ 1 / 10 ^ 5 ∧ |(SDP4_init e).ssh| ≤ 5 / 10 ^ 5 ∧ |(SDP4_init e).ssg| ≤ 6 / 10 ^ 5 := by
  obtain ⟨e0, e1, ha, hn, hx⟩ := h
  have hn0 : 0 < (SDP4_init e).i.xnodp := lt_of_lt_of_le (by norm_num) hn
  have hb : 36 / 100 ≤ 1 - e.eo * e.eo := by nlinarith
  have hbo : 6 / 10 ≤ √(1 - e.eo * e.eo) := le_sqrt_of_sq_le (by linarith)
  have hbo1 : √(1 - e.eo * e.eo) ≤ 1 := sqrt_le_one.2 (by nlinarith)
  obtain ⟨s1, s2, s3⟩ := body_le (solar_oriented e.xnodeo) (cc := 29864797 / 10 ^ 13) (zn := znsMin) (ze := zes) (by norm_num) (by norm_num [znsMin]) (e := e)
    (i := (SDP4_init e).i) (x := e.xincl) rfl rfl (mul_self_nonneg e.eo) (show e.eo * e.eo ≤ 1 by nlinarith) (show 0 ≤ 1 - e.eo * e.eo by linarith)
    (show 1 - e.eo * e.eo ≤ 1 by nlinarith) (show 0 < √(1 - e.eo * e.eo) by linarith) hbo1 hn0
  obtain ⟨m1, m2, m3⟩ := body_le (lunar_oriented (e.epoch - 2415020) e.xnodeo) (cc := 47968065 / 10 ^ 14) (zn := znlMin) (ze := zel) (by norm_num)
    (by norm_num [znlMin]) (e := e)
    (i := (SDP4_init e).i) (x := e.xincl) rfl rfl (mul_self_nonneg e.eo) (show e.eo * e.eo ≤ 1 by nlinarith) (show 0 ≤ 1 - e.eo * e.eo by linarith)
    (show 1 - e.eo * e.eo ≤ 1 by nlinarith) (show 0 < √(1 - e.eo * e.eo) by linarith) hbo1 hn0
  have q1 : znsMin * (29864797 / 10 ^ 13 / (SDP4_init e).i.xnodp) ≤ 106 / 10 ^ 10 := by
    rw [← mul_div_assoc, div_le_iff₀ hn0]
    unfold znsMin
    linarith
  have q2 : znlMin * (47968065 / 10 ^ 14 / (SDP4_init e).i.xnodp) ≤ 224 / 10 ^ 10 := by
    rw [← mul_div_assoc, div_le_iff₀ hn0]
    unfold znlMin
    linarith
  have hβ : (SDP4_init e).i.betao = √(1 - e.eo * e.eo) := rfl
  have q3 : znsMin * (29864797 / 10 ^ 13 / (SDP4_init e).i.xnodp) / (SDP4_init e).i.betao ≤ 177 / 10 ^ 10 := by
    rw [hβ, div_le_iff₀ (by linarith)]
    nlinarith
  have q4 : znlMin * (47968065 / 10 ^ 14 / (SDP4_init e).i.xnodp) / (SDP4_init e).i.betao ≤ 374 / 10 ^ 10 := by
    rw [hβ, div_le_iff₀ (by linarith)]
    nlinarith
  have eS : (SDP4_init e).sun = bodyTerms (solarOrient e.xnodeo) (29864797 / 10 ^ 13) znsMin zes e (SDP4_init e).i := rfl
  have eM : (SDP4_init e).moon = bodyTerms (lunarOrient (e.epoch - 2415020) e.xnodeo) (47968065 / 10 ^ 14) znlMin zel e (SDP4_init e).i := rfl
  rw [← eS] at s1 s2 s3
  rw [← eM] at m1 m2 m3
  have hsh : |if (SDP4_init e).i.sinio ≠ 0 then (SDP4_init e).sun.sh / (SDP4_init e).i.sinio else 0| ≤ 14 / 10 ^ 6 :=
    (over_sin rfl hx (by norm_num) (s3.trans (by linarith : _ ≤ (177 / 10 ^ 10 * 38 : ℝ)))).trans (by norm_num)
  have hmh : |if (SDP4_init e).i.sinio ≠ 0 then (SDP4_init e).moon.sh / (SDP4_init e).i.sinio else 0| ≤ 29 / 10 ^ 6 :=
    (over_sin rfl hx (by norm_num) (m3.trans (by linarith : _ ≤ (374 / 10 ^ 10 * 38 : ℝ)))).trans (by norm_num)
  have el : (SDP4_init e).ssl = (SDP4_init e).sun.sl + (SDP4_init e).moon.sl := rfl
  have eh : (SDP4_init e).ssh = (if (SDP4_init e).i.sinio ≠ 0 then (SDP4_init e).sun.sh / (SDP4_init e).i.sinio else 0) +
      (if (SDP4_init e).i.sinio ≠ 0 then (SDP4_init e).moon.sh / (SDP4_init e).i.sinio else 0) := by
    show (if (SDP4_init e).i.sinio ≠ 0 then (if (SDP4_init e).i.sinio ≠ 0 then (SDP4_init e).sun.sh / (SDP4_init e).i.sinio else 0) +
      (SDP4_init e).moon.sh / (SDP4_init e).i.sinio else (if (SDP4_init e).i.sinio ≠ 0 then (SDP4_init e).sun.sh / (SDP4_init e).i.sinio else 0)) = _
    by_cases h0 : (SDP4_init e).i.sinio ≠ 0
    · rw [if_pos h0, if_pos h0, if_pos h0]
    · rw [if_neg h0, if_neg h0, if_neg h0, add_zero]
  have eg : (SDP4_init e).ssg = (SDP4_init e).sun.sgh + (SDP4_init e).moon.sgh - cos e.xincl * (SDP4_init e).ssh := by
    rw [eh]
    show (if (SDP4_init e).i.sinio ≠ 0 then ((SDP4_init e).sun.sgh - cos e.xincl * (if (SDP4_init e).i.sinio ≠ 0 then
      (SDP4_init e).sun.sh / (SDP4_init e).i.sinio else 0)) + (SDP4_init e).moon.sgh - (SDP4_init e).moon.sh * cos e.xincl / (SDP4_init e).i.sinio
      else ((SDP4_init e).sun.sgh - cos e.xincl * (if (SDP4_init e).i.sinio ≠ 0 then
      (SDP4_init e).sun.sh / (SDP4_init e).i.sinio else 0)) + (SDP4_init e).moon.sgh) = _
    by_cases h0 : (SDP4_init e).i.sinio ≠ 0
    · rw [if_pos h0, if_pos h0, if_pos h0]
      ring
    · rw [if_neg h0, if_neg h0, if_neg h0]
      ring
  have hh : |(SDP4_init e).ssh| ≤ 5 / 10 ^ 5 := by
    rw [eh]
    refine (abs_add_le _ _).trans ?_
    linarith
  refine ⟨?_, hh, ?_⟩
  · rw [el]
    refine (abs_add_le _ _).trans ?_
    linarith
  · rw [eg]
    have h1 : |cos e.xincl * (SDP4_init e).ssh| ≤ 5 / 10 ^ 5 := by
      rw [abs_mul]
      have := abs_cos_le_one e.xincl
      nlinarith [abs_nonneg (SDP4_init e).ssh, abs_nonneg (cos e.xincl)]
    have h2 := abs_sub ((SDP4_init e).sun.sgh + (SDP4_init e).moon.sgh) (cos e.xincl * (SDP4_init e).ssh)
    have h3 := abs_add_le (SDP4_init e).sun.sgh (SDP4_init e).moon.sgh
    linarith

theorem half_drift {e : Elem} (h : Moderate e) (hr : (SDP4_init e).res = .half) (h1 : 826 / 10 ^ 5 ≤ (SDP4_init e).i.xnodp)
    (h2 : (SDP4_init e).i.xnodp ≤ 924 / 10 ^ 5) : |(SDP4_init e).xnq + (SDP4_init e).xfact| ≤ 1 / 600 := by
  obtain ⟨r1, -, r3⟩ := h.rates
  obtain ⟨b1, b2, -⟩ := h.bodies
  have hres : resonanceOf e (sxpx_common_init e) = .half := hr
  have e1 : (SDP4_init e).xnq + (SDP4_init e).xfact = (SDP4_init e).i.xmdot + (SDP4_init e).i.xnodot + (SDP4_init e).i.xnodot - thdt - thdt +
      ((SDP4_init e).ssl + (SDP4_init e).ssh + (SDP4_init e).ssh) := by
    show (SDP4_init e).i.xnodp + ((match resonanceOf e (sxpx_common_init e) with
      | .half => _
      | _ => _) - (SDP4_init e).i.xnodp) = _
    rw [hres]
    show (SDP4_init e).i.xnodp + ((SDP4_init e).i.xmdot + (SDP4_init e).i.xnodot + (SDP4_init e).i.xnodot - thdt - thdt +
      ((SDP4_init e).ssl + (SDP4_init e).ssh + (SDP4_init e).ssh) - (SDP4_init e).i.xnodp) = _
    ring
  rw [e1, abs_le]
  obtain ⟨r1, r1'⟩ := abs_le.1 r1
  obtain ⟨r3, r3'⟩ := abs_le.1 r3
  obtain ⟨b1, b1'⟩ := abs_le.1 b1
  obtain ⟨b2, b2'⟩ := abs_le.1 b2
  have : (4375 / 10 ^ 6 : ℝ) ≤ thdt ∧ thdt ≤ 4376 / 10 ^ 6 := by unfold thdt; norm_num
  constructor <;> linarith [this.1, this.2]

theorem full_drift {e : Elem} (h : Moderate e) (hr : (SDP4_init e).res = .full) (h2 : (SDP4_init e).i.xnodp ≤ 53 / 10 ^ 4) :
    |(SDP4_init e).xnq + (SDP4_init e).xfact| ≤ 1 / 600 := by
  obtain ⟨r1, r2, r3⟩ := h.rates
  obtain ⟨b1, b2, b3⟩ := h.bodies
  have h1 := h.motion
  have hres : resonanceOf e (sxpx_common_init e) = .full := hr
  have e1 : (SDP4_init e).xnq + (SDP4_init e).xfact = (SDP4_init e).i.xmdot + (SDP4_init e).i.omgdot + (SDP4_init e).i.xnodot - thdt +
      (SDP4_init e).ssl + (SDP4_init e).ssg + (SDP4_init e).ssh := by
    show (SDP4_init e).i.xnodp + ((match resonanceOf e (sxpx_common_init e) with
      | .half => _
      | _ => _) - (SDP4_init e).i.xnodp) = _
    rw [hres]
    show (SDP4_init e).i.xnodp + ((SDP4_init e).i.xmdot + (SDP4_init e).i.omgdot + (SDP4_init e).i.xnodot - thdt +
      (SDP4_init e).ssl + (SDP4_init e).ssg + (SDP4_init e).ssh - (SDP4_init e).i.xnodp) = _
    ring
  rw [e1, abs_le]
  obtain ⟨r1, r1'⟩ := abs_le.1 r1
  obtain ⟨r2, r2'⟩ := abs_le.1 r2
  obtain ⟨r3, r3'⟩ := abs_le.1 r3
  obtain ⟨b1, b1'⟩ := abs_le.1 b1
  obtain ⟨b2, b2'⟩ := abs_le.1 b2
  obtain ⟨b3, b3'⟩ := abs_le.1 b3
  have : (4375 / 10 ^ 6 : ℝ) ≤ thdt ∧ thdt ≤ 4376 / 10 ^ 6 := by unfold thdt; norm_num
  constructor <;> linarith [this.1, this.2]

/-! ### The recovered axis -/

theorem tval_le {e : Elem} (h0 : 0 ≤ e.eo) (h1 : e.eo ≤ 4 / 5) : |tval e| ≤ 1 / 130 := by
  have hb : 36 / 100 ≤ 1 - e.eo * e.eo := by nlinarith
  have hs : 6 / 10 ≤ √(1 - e.eo * e.eo) := le_sqrt_of_sq_le (by linarith)
  have hc := abs_le.1 (abs_cos_le_one e.xincl)
  unfold tval
  have hd : 216 / 1000 ≤ √(1 - e.eo * e.eo) * (1 - e.eo * e.eo) := by nlinarith
  rw [abs_div, abs_of_pos (by linarith : 0 < √(1 - e.eo * e.eo) * (1 - e.eo * e.eo)), div_le_iff₀ (by linarith), abs_le]
  have : ck2 = 541308 / 10 ^ 9 := by unfold ck2 xj2; norm_num
  rw [this]
  constructor <;> nlinarith [mul_self_nonneg (cos e.xincl)]

/-- The recovered elements while the correction is small. -/
theorem recovered_le {e : Elem} {D : ℝ} (hD : D ≤ 1 / 100) (hx : 0 < e.xno) (ht : |tval e| ≤ D * (a1 e * a1 e)) :
    e.xno ≤ (sxpall_common_init e).xnodp * (1 + D * (1 + 2 * D)) ∧ a1 e * (1 - D / 2) ≤ (sxpall_common_init e).aodp * (1 + D * (1 + 2 * D)) := by
  have ha : 0 < a1 e := rpow_pos_of_pos (div_pos (by norm_num [xke]) hx) _
  have ha2 := mul_pos ha ha
  have hD0 : 0 ≤ D := by
    by_contra h
    have := abs_nonneg (tval e)
    nlinarith
  have hd1 : |del1 e| ≤ D := by
    unfold del1
    rw [abs_div, abs_of_pos ha2, div_le_iff₀ ha2]
    exact ht
  have ho : a1 e * (1 - D / 2) ≤ ao e := by
    unfold ao
    refine mul_le_mul_of_nonneg_left ?_ ha.le
    obtain ⟨l, u⟩ := abs_le.1 hd1
    generalize del1 e = d at *
    have h1 : |d * (1 / 3 + d * (1 + 134 / 81 * d))| ≤ D * (1 / 2) := by
      rw [abs_mul]
      refine mul_le_mul hd1 ?_ (abs_nonneg _) hD0
      rw [abs_le]
      constructor <;> nlinarith [sq_nonneg d]
    linarith [(abs_le.1 h1).2]
  have ho0 : 0 < a1 e * (1 - D / 2) := mul_pos ha (by linarith)
  have hdo : |delo e| ≤ D * (1 + 2 * D) := by
    unfold delo
    have h2 : a1 e * (1 - D / 2) * (a1 e * (1 - D / 2)) ≤ ao e * ao e := mul_self_le_mul_self ho0.le ho
    have h3 : 0 < ao e * ao e := lt_of_lt_of_le (mul_pos ho0 ho0) h2
    rw [abs_div, abs_of_pos h3, div_le_iff₀ h3]
    have h4 : D * (a1 e * a1 e) ≤ D * (1 + 2 * D) * (a1 e * (1 - D / 2) * (a1 e * (1 - D / 2))) := by
      have : 1 ≤ (1 + 2 * D) * ((1 - D / 2) * (1 - D / 2)) := by nlinarith [sq_nonneg D]
      have h5 : 0 ≤ D * (a1 e * a1 e) := by positivity
      nlinarith
    have h6 : 0 ≤ D * (1 + 2 * D) := by positivity
    nlinarith
  obtain ⟨l, u⟩ := abs_le.1 hdo
  have hs : D * (1 + 2 * D) ≤ 2 / 100 := by nlinarith
  have hp : 0 < 1 + delo e := by linarith
  have hq : 0 < 1 - delo e := by linarith
  constructor
  · show e.xno ≤ e.xno / (1 + delo e) * _
    have : 0 < e.xno / (1 + delo e) := div_pos hx hp
    have h1 : e.xno = e.xno / (1 + delo e) * (1 + delo e) := by field_simp
    calc e.xno = e.xno / (1 + delo e) * (1 + delo e) := h1
      _ ≤ _ := mul_le_mul_of_nonneg_left (by linarith) this.le
  · show _ ≤ ao e / (1 - delo e) * _
    have : 0 < ao e / (1 - delo e) := div_pos (lt_of_lt_of_le ho0 ho) hq
    calc a1 e * (1 - D / 2) ≤ ao e := ho
      _ = ao e / (1 - delo e) * (1 - delo e) := by field_simp
      _ ≤ _ := mul_le_mul_of_nonneg_left (by linarith) this.le

theorem a1_ge {e : Elem} {A N : ℝ} (hx : 0 < e.xno) (hN : e.xno ≤ N) (hA : 0 ≤ A) (h : A ^ 3 * N ^ 2 ≤ xke ^ 2) : A ≤ a1 e := by
  have hk : 0 < xke / e.xno := div_pos (by norm_num [xke]) hx
  have h1 : A ^ 3 ≤ (xke / e.xno) ^ 2 := by
    rw [div_pow, le_div_iff₀ (by positivity)]
    exact (mul_le_mul_of_nonneg_left (pow_le_pow_left₀ hx.le hN 2) (by positivity)).trans h
  have h2 : A ^ 3 ≤ a1 e ^ 3 := by
    unfold a1
    rw [← rpow_natCast ((xke / e.xno) ^ (2 / 3 : ℝ)) 3, ← rpow_mul hk.le]
    norm_num
    exact h1
  exact le_of_pow_le_pow_left₀ (by norm_num) (rpow_nonneg hk.le _) h2

/-- An orbit outside the Earth with a mean motion below one revolution per 680 minutes. -/
theorem half_axis {e : Elem} (h0 : 0 ≤ e.eo) (h1 : e.eo ≤ 4 / 5) (hx : 0 < e.xno) (hk : e.xno ≤ xke) (hn : (sxpall_common_init e).xnodp ≤ 924 / 10 ^ 5) :
    4 ≤ (sxpall_common_init e).aodp := by
  have ht := tval_le h0 h1
  have s1 : 1 ≤ a1 e := a1_ge hx hk (by norm_num) (by norm_num)
  obtain ⟨r1, -⟩ := recovered_le (D := 1 / 130) (by norm_num) hx (by nlinarith)
  have s2 : 39 / 10 ≤ a1 e := a1_ge (N := 932 / 10 ^ 5) hx (by linarith) (by norm_num) (by norm_num [xke])
  obtain ⟨r2, -⟩ := recovered_le (D := 52 / 10 ^ 5) (by norm_num) hx (by nlinarith)
  have s3 : 401 / 100 ≤ a1 e := a1_ge (N := 92452 / 10 ^ 7) hx (by linarith) (by norm_num) (by norm_num [xke])
  obtain ⟨-, r3⟩ := recovered_le (D := 52 / 10 ^ 5) (by norm_num) hx (by nlinarith)
  linarith

theorem full_axis {e : Elem} (h0 : 0 ≤ e.eo) (h1 : e.eo ≤ 4 / 5) (hx : 0 < e.xno) (hk : e.xno ≤ xke) (hn : (sxpall_common_init e).xnodp ≤ 53 / 10 ^ 4) :
    5 ≤ (sxpall_common_init e).aodp := by
  have ht := tval_le h0 h1
  have s1 : 1 ≤ a1 e := a1_ge hx hk (by norm_num) (by norm_num)
  obtain ⟨r1, -⟩ := recovered_le (D := 1 / 130) (by norm_num) hx (by nlinarith)
  have s2 : 56 / 10 ≤ a1 e := a1_ge (N := 54 / 10 ^ 4) hx (by linarith) (by norm_num) (by norm_num [xke])
  obtain ⟨-, r2⟩ := recovered_le (D := 52 / 10 ^ 5) (by norm_num) hx (by nlinarith)
  linarith

/-! ### The two resonances -/

/-- **C143**: for 12-hour orbits of eccentricity up to 0.8 (the perigee is above the ground up to 0.77) near the resonance, with the settings of the
programs, `SDP4` writes a position, whatever times were asked for before, as long as the time moved by less than a year in all. -/
theorem C143_half {fuel : ℕ} {e : Elem} (hr : (SDP4_init e).res = .half) (he : e.eo ≤ 4 / 5) (h0 : 0 < e.xno) (hk : e.xno ≤ xke)
    (hi : e.xincl ≤ π - π / 60) {ts : List ℝ} {t : ℝ} {p : Periodic} {s s' : State} {code : ℤ} {r : Option (V3 × V3)}
    (hc : calls fuel Cfg.initial (SDP4_init e) e ts ((SDP4_init e).start p) = some s) (ht : travelled 0 (ts ++ [t]) ≤ 525960)
    (h : SDP4 fuel Cfg.initial (SDP4_init e) e s t = some (s', code, r)) : r ≠ none := by
  have hres : resonanceOf e (sxpx_common_init e) = .half := hr
  have hb : 826 / 10 ^ 5 ≤ (SDP4_init e).i.xnodp ∧ (SDP4_init e).i.xnodp ≤ 924 / 10 ^ 5 ∧ 1 / 2 ≤ e.eo := by
    unfold resonanceOf at hres
    split_ifs at hres with h1
    exact h1
  have ha : 4 ≤ (SDP4_init e).i.aodp := half_axis (by linarith [hb.2.2]) he h0 hk hb.2.1
  have hx := half_drift ⟨by linarith [hb.2.2], he, ha, by linarith [hb.1], hi⟩ hr hb.1 hb.2.1
  have hamp := half_amp (c := SDP4_init e) (e := e) rfl (x := e.xincl) rfl rfl rfl rfl hb.2.2 he (by linarith [hb.1]) hb.2.1 ha
  have hS : Slow (SDP4_init e) (106 / 10 ^ 11) (212 / 10 ^ 11) (1 / 100) 525960 := by
    refine ⟨fun a l => ?_, fun a l => ?_, by linarith, by norm_num⟩
    · unfold accel
      rw [hr, if_neg (by decide)]
      refine (waves_le (half_phases _ _) l).trans ?_
      linarith [hamp ((SDP4_init e).omegaq + (SDP4_init e).i.omgdot * a)]
    · unfold accel
      rw [hr, if_neg (by decide), (hasDerivAt_waves _ l).deriv]
      refine (waves_le ?_ l).trans ?_
      · intro w hw
        obtain ⟨v, hv, rfl⟩ := List.mem_map.1 hw
        exact half_phases _ _ v hv
      · have h1 := ampSum_deriv (half_orders (SDP4_init e) ((SDP4_init e).omegaq + (SDP4_init e).i.omgdot * a))
        push_cast at h1
        linarith [hamp ((SDP4_init e).omegaq + (SDP4_init e).i.omgdot * a)]
  refine C143_slow (cfg := Cfg.initial) rfl (by norm_num [Cfg.initial]) (by norm_num [Cfg.initial]) rfl hS (by rw [hr]; decide) ?_ hc ht h
  have : (SDP4_init e).xnq = (SDP4_init e).i.xnodp := rfl
  rw [this]
  linarith [hb.1]

/-- **C143**: the same for synchronous orbits of any eccentricity up to 1, for four years. -/
theorem C143_full {fuel : ℕ} {e : Elem} (hr : (SDP4_init e).res = .full) (he0 : 0 ≤ e.eo) (he : e.eo ≤ 4 / 5) (h0 : 0 < e.xno)
    (hk : e.xno ≤ xke) (hi : e.xincl ≤ π - π / 60) {ts : List ℝ} {t : ℝ} {p : Periodic} {s s' : State} {code : ℤ} {r : Option (V3 × V3)}
    (hc : calls fuel Cfg.initial (SDP4_init e) e ts ((SDP4_init e).start p) = some s) (ht : travelled 0 (ts ++ [t]) ≤ 2103840)
    (h : SDP4 fuel Cfg.initial (SDP4_init e) e s t = some (s', code, r)) : r ≠ none := by
  have hres : resonanceOf e (sxpx_common_init e) = .full := hr
  have hb : (SDP4_init e).i.xnodp ≤ 53 / 10 ^ 4 ∧ 34 / 10 ^ 4 ≤ (SDP4_init e).i.xnodp := by
    unfold resonanceOf at hres
    split_ifs at hres with h1 h2
    have := pi_gt_d2
    have := pi_lt_d2
    have h3 : (SDP4_init e).i.xnodp < 12 / 10 * (2 * π) / 1440 := h2.1
    have h4 : 8 / 10 * (2 * π) / 1440 < (SDP4_init e).i.xnodp := h2.2
    constructor <;> linarith
  have ha : 5 ≤ (SDP4_init e).i.aodp := full_axis he0 he h0 hk hb.1
  have hx := full_drift ⟨he0, he, by linarith, hb.2, hi⟩ hr hb.1
  have hamp := full_amp (c := SDP4_init e) rfl (x := e.xincl) rfl rfl (mul_nonneg he0 he0) (show e.eo * e.eo ≤ 1 by nlinarith) (by linarith [hb.2]) hb.1 ha
  have hS : Slow (SDP4_init e) (13 / 10 ^ 11) (37 / 10 ^ 11) (1 / 100) 2103840 := by
    refine ⟨fun a l => ?_, fun a l => ?_, by linarith, by norm_num⟩
    · unfold accel
      rw [if_pos hr]
      refine (waves_le (full_phases _) l).trans ?_
      linarith
    · unfold accel
      rw [if_pos hr, (hasDerivAt_waves _ l).deriv]
      refine (waves_le ?_ l).trans ?_
      · intro w hw
        obtain ⟨v, hv, rfl⟩ := List.mem_map.1 hw
        exact full_phases _ v hv
      · have h1 := ampSum_deriv (full_orders (SDP4_init e))
        push_cast at h1
        linarith
  refine C143_slow (cfg := Cfg.initial) rfl (by norm_num [Cfg.initial]) (by norm_num [Cfg.initial]) rfl hS (by rw [hr]; decide) ?_ hc ht h
  have : (SDP4_init e).xnq = (SDP4_init e).i.xnodp := rfl
  rw [this]
  linarith [hb.2]

/-! ### Examples -/

theorem magic_incl : Real.arccos (1 / √3) ≤ π - π / 60 := by
  have h : Real.arccos (1 / √3) ≤ π / 2 := Real.arccos_le_pi_div_two.2 (by positivity)
  linarith [pi_pos]

/-- A year of a synchronous satellite: day by day, `SDP4` answers and writes a position. -/
example (p : Periodic) {t : ℝ} (ht : |t| ≤ 525960) :
    ∃ s' code v, SDP4 732 Cfg.initial (SDP4_init geo) geo ((SDP4_init geo).start p) t = some (s', code, some v) := by
  have hx : geo.xno = 2 * π / 1440 := rfl
  have hr : (SDP4_init geo).res = .full := by
    show resonanceOf geo (sxpx_common_init geo) = _
    unfold resonanceOf
    rw [if_neg (by rintro ⟨-, -, h⟩; norm_num [geo] at h), if_pos]
    rw [(magic_axis (e := geo) rfl).1, hx]
    have := pi_pos
    constructor <;> linarith
  have h1 : (Deep_dpsec (731 + 1) Cfg.initial (SDP4_init geo) geo ((SDP4_init geo).start p) t (secular (SDP4_init geo) geo t)).isSome :=
    C51_terminates (fuel := 731) (by norm_num [Cfg.initial]) (by norm_num [Cfg.initial]) _ _ _ _
      (by rw [div_le_iff₀ (by norm_num [Cfg.initial])]; norm_num [Cfg.initial]; linarith)
  have h2 : (SDP4 732 Cfg.initial (SDP4_init geo) geo ((SDP4_init geo).start p) t).isSome := by
    unfold SDP4
    rw [Option.isSome_map]
    exact h1
  obtain ⟨⟨s', code, r⟩, h3⟩ := Option.isSome_iff_exists.mp h2
  have := C143_full hr le_rfl (by norm_num [geo]) (by rw [hx]; positivity) (by rw [hx]; unfold xke; linarith [pi_lt_d2]) magic_incl (ts := []) rfl
    (by simp only [List.nil_append, travelled, sub_zero, add_zero]; linarith) h3
  obtain ⟨v, hv⟩ := Option.ne_none_iff_exists'.1 this
  exact ⟨s', code, v, by rw [h3, hv]⟩

/-- A Molniya satellite. -/
noncomputable def molniya : Elem where
  epoch := 2451545
  bstar := 0
  xincl := Real.arccos (1 / √3)
  xnodeo := 0
  eo := 7 / 10
  omegao := 0
  xmo := 0
  xno := 875 / 10 ^ 5
  ephType := 0

/-- The hypotheses of C143_half hold for a Molniya satellite. -/
example : (SDP4_init molniya).res = .half ∧ molniya.eo ≤ 4 / 5 ∧ 0 < molniya.xno ∧ molniya.xno ≤ xke ∧ molniya.xincl ≤ π - π / 60 := by
  refine ⟨?_, by norm_num [molniya], by norm_num [molniya], by norm_num [molniya, xke], magic_incl⟩
  show resonanceOf molniya (sxpx_common_init molniya) = _
  unfold resonanceOf
  rw [if_pos]
  rw [(magic_axis (e := molniya) rfl).1]
  norm_num [molniya]

/-- There and back: half a year ahead in one call, back in the next. -/
example : travelled 0 [262980, 0] = 525960 := by norm_num [travelled]

end SatSky.Props
