import Verif.Lemmas.StepMotion
import Verif.Props.DeepWrites

/-! C176: how far the resonance integration is from the motion that the equations describe. -/

namespace SatSky.Props

open SatSky.Spec SatSky.Sxp SatSky.StepError Real

/-! ### Bounds of the acceleration -/

/-- Terms that differ by their phase only, by at most `d`. -/
def Shifted (d : ℝ) (w w' : Wave) : Prop :=
  w'.amp = w.amp ∧ w'.n = w.n ∧ w'.cosPhase = w.cosPhase ∧ w'.sinPhase = w.sinPhase ∧ |w'.k - w.k| ≤ d

theorem wave_shift {d : ℝ} {w w' : Wave} (h : Shifted d w w') (hw : w.cosPhase ^ 2 + w.sinPhase ^ 2 ≤ 101 / 100) (l : ℝ) :
    |w'.at l - w.at l| ≤ 101 / 100 * |w.amp| * d := by
  obtain ⟨h1, h2, h3, h4, h5⟩ := h
  obtain ⟨a, n, k, c, s⟩ := w
  obtain ⟨a', n', k', c', s'⟩ := w'
  dsimp only at h1 h2 h3 h4 h5 hw
  subst h1 h2 h3 h4
  have := grow (F := fun k' => (⟨a', n', k', c', s'⟩ : Wave).at l - (⟨a', n', k, c', s'⟩ : Wave).at l)
    (F' := fun k' => (⟨a', n', k' + π / 2, c', s'⟩ : Wave).at l) (a := k) (b := k') (K0 := 101 / 100 * |a'|) (K1 := 0) (K2 := 0)
    (fun r _ => by
      have d := (hasDerivAt_id r).const_add ((n' : ℝ) * l)
      refine der_of ((((d.sin.mul_const c').sub (d.cos.mul_const s')).const_mul a').sub_const _) (fun y => rfl) ?_
      simp only [Wave.at, id]
      rw [← add_assoc, sin_add_pi_div_two, cos_add_pi_div_two]
      ring)
    (by simp) (fun r _ => by simpa using wave_le ⟨a', n', r + π / 2, c', s'⟩ hw l)
  simp only [zero_mul, zero_div, add_zero] at this
  refine this.trans (mul_le_mul_of_nonneg_left h5 (by positivity))

theorem waves_shift {d : ℝ} {ws ws' : List Wave} (h : List.Forall₂ (Shifted d) ws ws')
    (hw : ∀ w ∈ ws, w.cosPhase ^ 2 + w.sinPhase ^ 2 ≤ 101 / 100) (l : ℝ) : |waves ws' l - waves ws l| ≤ 101 / 100 * ampSum ws * d := by
  induction h with
  | nil => simp [waves, ampSum]
  | @cons w w' ws ws' h _ ih =>
    have h1 := wave_shift h (hw w (by simp)) l
    have h2 := ih fun v hv => hw v (by simp [hv])
    unfold waves ampSum at *
    simp only [List.map_cons, List.sum_cons]
    have := abs_add_le (w'.at l - w.at l) ((ws'.map (·.at l)).sum - (ws.map (·.at l)).sum)
    rw [show w'.at l - w.at l + ((ws'.map (·.at l)).sum - (ws.map (·.at l)).sum) =
      w'.at l + (ws'.map (·.at l)).sum - (w.at l + (ws.map (·.at l)).sum) by ring] at this
    refine this.trans ?_
    linarith

theorem half_shift (c : Deep) (o o' : ℝ) : List.Forall₂ (Shifted (2 * |o' - o|)) (halfWaves c o) (halfWaves c o') := by
  have h0 := abs_nonneg (o' - o)
  have k1 : |o' - o| ≤ 2 * |o' - o| := by linarith
  have k2 : |2 * o' - 2 * o| ≤ 2 * |o' - o| := by rw [← mul_sub, abs_mul, abs_two]
  have k3 : |-o' - -o| ≤ 2 * |o' - o| := by rw [← neg_sub_neg, neg_neg, neg_neg, abs_sub_comm]; exact k1
  have k4 : |(0 : ℝ) - 0| ≤ 2 * |o' - o| := by simpa using h0
  refine .cons ⟨rfl, rfl, rfl, rfl, k2⟩ (.cons ⟨rfl, rfl, rfl, rfl, k4⟩ (.cons ⟨rfl, rfl, rfl, rfl, k1⟩ (.cons ⟨rfl, rfl, rfl, rfl, k3⟩
    (.cons ⟨rfl, rfl, rfl, rfl, k1⟩ (.cons ⟨rfl, rfl, rfl, rfl, k3⟩ (.cons ⟨rfl, rfl, rfl, rfl, k2⟩ (.cons ⟨rfl, rfl, rfl, rfl, k4⟩
    (.cons ⟨rfl, rfl, rfl, rfl, k1⟩ (.cons ⟨rfl, rfl, rfl, rfl, k3⟩ .nil)))))))))

theorem map_phases {ws : List Wave} (h : ∀ w ∈ ws, w.cosPhase ^ 2 + w.sinPhase ^ 2 ≤ 101 / 100) :
    ∀ w ∈ ws.map waveDeriv, w.cosPhase ^ 2 + w.sinPhase ^ 2 ≤ 101 / 100 := by
  intro w hw
  obtain ⟨v, hv, rfl⟩ := List.mem_map.1 hw
  exact h v hv

theorem map_orders {ws : List Wave} {m : ℕ} (h : ∀ w ∈ ws, w.n ≤ m) : ∀ w ∈ ws.map waveDeriv, w.n ≤ m := by
  intro w hw
  obtain ⟨v, hv, rfl⟩ := List.mem_map.1 hw
  exact h v hv

/-- The bounds for a sum of terms up to the order `m` whose amplitudes are at most `S` together. -/
theorem bounded_waves {W : ℝ → List Wave} {m : ℕ} {S D : ℝ} (hp : ∀ t, ∀ w ∈ W t, w.cosPhase ^ 2 + w.sinPhase ^ 2 ≤ 101 / 100)
    (ho : ∀ t, ∀ w ∈ W t, w.n ≤ m) (hS : ∀ t, ampSum (W t) ≤ S) (hD : ∀ s t l, |waves (W s) l - waves (W t) l| ≤ D * |s - t|) :
    Bounded (fun t => waves (W t)) (fun t => deriv (waves (W t))) (101 / 100 * S) (101 / 100 * (m * S)) (101 / 100 * (m * (m * S))) D := by
  have e1 : ∀ t, deriv (waves (W t)) = waves ((W t).map waveDeriv) := fun t => funext fun l => (hasDerivAt_waves _ l).deriv
  have b1 : ∀ t, ampSum ((W t).map waveDeriv) ≤ m * S := fun t =>
    (ampSum_deriv (ho t)).trans (mul_le_mul_of_nonneg_left (hS t) (Nat.cast_nonneg _))
  have b2 : ∀ t, ampSum (((W t).map waveDeriv).map waveDeriv) ≤ m * (m * S) := fun t =>
    (ampSum_deriv (map_orders (ho t))).trans (mul_le_mul_of_nonneg_left (b1 t) (Nat.cast_nonneg _))
  refine ⟨fun t x => ?_, fun t x => ?_, fun t x => ?_, fun t x y => ?_, hD⟩
  · exact (waves_le (hp t) x).trans (by linarith [hS t])
  · exact (hasDerivAt_waves _ x).differentiableAt.hasDerivAt
  · rw [e1]
    exact (waves_le (map_phases (hp t)) x).trans (by linarith [b1 t])
  · rw [e1]
    have := grow (F := fun y => waves ((W t).map waveDeriv) y - waves ((W t).map waveDeriv) x)
      (F' := waves (((W t).map waveDeriv).map waveDeriv)) (a := x) (b := y) (K0 := 101 / 100 * (m * (m * S))) (K1 := 0) (K2 := 0)
      (fun r _ => (hasDerivAt_waves _ r).sub_const _) (by simp)
      (fun r _ => by
        have := (waves_le (map_phases (map_phases (hp t))) r).trans
          (mul_le_mul_of_nonneg_left (b2 t) (by norm_num : (0 : ℝ) ≤ 101 / 100))
        simpa using this)
    simpa using this

theorem bounded_full {c : Deep} (hr : c.res = .full) {S : ℝ} (hS : ampSum (fullWaves c) ≤ S) :
    Bounded (accel c) (fun t => deriv (accel c t)) (101 / 100 * S) (101 / 100 * (3 * S)) (101 / 100 * (3 * (3 * S))) 0 := by
  have e : accel c = fun _ => waves (fullWaves c) := by
    funext t; unfold accel; rw [if_pos hr]
  have := bounded_waves (W := fun _ => fullWaves c) (m := 3) (S := S) (D := 0) (fun _ => full_phases c) (fun _ => full_orders c) (fun _ => hS)
    (fun _ _ _ => by simp)
  rw [e]
  exact_mod_cast this

theorem bounded_half {c : Deep} (hr : c.res = .half) {S o : ℝ} (hS : ∀ om, ampSum (halfWaves c om) ≤ S) (ho : |c.i.omgdot| ≤ o) :
    Bounded (accel c) (fun t => deriv (accel c t)) (101 / 100 * S) (101 / 100 * (2 * S)) (101 / 100 * (2 * (2 * S))) (101 / 100 * S * (2 * o)) := by
  have e : accel c = fun t => waves (halfWaves c (c.omegaq + c.i.omgdot * t)) := by
    funext t; unfold accel; rw [if_neg (by rw [hr]; decide)]
  have hS0 : 0 ≤ S := le_trans (List.sum_nonneg (by simp only [List.mem_map]; rintro x ⟨w, -, rfl⟩; exact abs_nonneg _)) (hS 0)
  have := bounded_waves (W := fun t => halfWaves c (c.omegaq + c.i.omgdot * t)) (m := 2) (S := S) (D := 101 / 100 * S * (2 * o))
    (fun _ => half_phases c _) (fun _ => half_orders c _) (fun _ => hS _)
    (fun s t l => by
      have h1 := waves_shift (half_shift c (c.omegaq + c.i.omgdot * t) (c.omegaq + c.i.omgdot * s)) (half_phases c _) l
      rw [show c.omegaq + c.i.omgdot * s - (c.omegaq + c.i.omgdot * t) = c.i.omgdot * (s - t) by ring, abs_mul] at h1
      refine h1.trans ?_
      have h2 : 101 / 100 * ampSum (halfWaves c (c.omegaq + c.i.omgdot * t)) ≤ 101 / 100 * S := by linarith [hS (c.omegaq + c.i.omgdot * t)]
      have h3 : |c.i.omgdot| * |s - t| ≤ o * |s - t| := mul_le_mul_of_nonneg_right ho (abs_nonneg _)
      calc _ ≤ 101 / 100 * S * (2 * (|c.i.omgdot| * |s - t|)) := mul_le_mul_of_nonneg_right h2 (by positivity)
        _ ≤ 101 / 100 * S * (2 * (o * |s - t|)) := mul_le_mul_of_nonneg_left (by linarith) (by positivity)
        _ = _ := by ring)
  rw [e]
  exact_mod_cast this

/-! ### The program's integration -/

theorem motion_of {c : Deep} {R : ℝ} {l n : ℝ → ℝ} (h : ResonantPath (accel c) c.xfact R l n) : Motion (accel c) R l (fun t => n t + c.xfact) :=
  ⟨h.dl, fun t ht => (h.dn t ht).add_const _⟩

/-- What is needed for the bound: bounds of the acceleration, of the speed, and the rates made of them. -/
structure Path (cfg : Cfg) (c : Deep) (A0 A1 A2 D V w k τ R : ℝ) (l n : ℝ → ℝ) : Prop where
  bounds : Bounded (accel c) (fun t => deriv (accel c t)) A0 A1 A2 D
  path : ResonantPath (accel c) c.xfact R l n
  rates : Rates A0 A1 A2 D V cfg.step w k τ
  speed : |c.xnq + c.xfact| + A0 * R ≤ V
  start : l 0 = c.xlamo ∧ n 0 = c.xnq
  order : cfg.order = 2
  step : 0 < cfg.step
  add : 0 ≤ τ

/-- The distance of a state from the motion. -/
noncomputable def off (w : ℝ) (l n : ℝ → ℝ) (t xli xni : ℝ) : ℝ := w * |xli - l t| + |xni - n t|

variable {cfg : Cfg} {c : Deep} {A0 A1 A2 D V w k τ R : ℝ} {l n : ℝ → ℝ}

theorem step_off (hp : Path cfg c A0 A1 A2 D V w k τ R l n) {a b xli xni xli' xni' P : ℝ} (ha : |a| ≤ R) (hb : |b| ≤ R) (hH : |b - a| ≤ cfg.step)
    (hs : dpsecStep cfg c a xli xni (b - a) = some (xli', xni')) (h : off w l n a xli xni ≤ allowed k τ P) :
    off w l n b xli' xni' ≤ allowed k τ (P + |b - a|) := by
  obtain ⟨h1, h2⟩ := C99_step (N := 1) (by rw [hp.order]; norm_num) hs
  rw [Finset.sum_range_succ, Finset.sum_range_one, iteratedDeriv_one, iteratedDeriv_zero] at h1
  rw [Finset.sum_range_one, iteratedDeriv_zero] at h2
  have hV : ∀ t, |t| ≤ R → |n t + c.xfact| ≤ V := fun t ht => by
    have := StepError.speed hp.bounds (motion_of hp.path) ht
    rw [hp.start.2] at this
    exact this.trans hp.speed
  have key := step_error hp.bounds hp.rates (motion_of hp.path) hV (y := xli) (u := xni + c.xfact) ha hb hH
  have e1 : xli + (b - a) * (xni + c.xfact) + (b - a) ^ 2 / 2 * accel c a xli = xli' := by
    rw [h2]; norm_num [Nat.factorial]
  have e2 : xni + c.xfact + (b - a) * accel c a xli + (b - a) ^ 2 / 2 * (deriv (accel c a) xli * (xni + c.xfact)) - (n b + c.xfact) = xni' - n b := by
    rw [h1]; norm_num [Nat.factorial]; ring
  rw [e1, e2, show xni + c.xfact - (n a + c.xfact) = xni - n a by ring] at key
  exact key.trans (allowed_step hp.rates.k0 hp.add (abs_nonneg _) h)

theorem loop_off (hp : Path cfg c A0 A1 A2 D V w k τ R l n) {t : ℝ} (ht : |t| ≤ R) :
    ∀ (fuel : ℕ) (a xli xni P xli' xni' : ℝ) (st : ℝ × ℝ × ℝ), |a| ≤ R → off w l n a xli xni ≤ allowed k τ P →
      dpsecLoop cfg c t fuel a xli xni = some ((xli', xni'), st) → off w l n t xli' xni' ≤ allowed k τ (P + |t - a|)
  | 0, _, _, _, _, _, _, _, _, _, h => by unfold dpsecLoop at h; cases h
  | fuel + 1, a, xli, xni, P, xli', xni', st, ha, hE, h => by
    have h0 := hp.step
    obtain ⟨a1, a2⟩ := abs_le.1 ha
    obtain ⟨t1, t2⟩ := abs_le.1 ht
    unfold dpsecLoop at h
    dsimp only at h
    by_cases c1 : t - a > cfg.step
    · rw [if_pos c1] at h
      obtain ⟨⟨l', n'⟩, hs, h⟩ := Option.bind_eq_some_iff.mp h
      have e1 : |t - (a + cfg.step)| = |t - a| - cfg.step := by rw [abs_of_nonneg (by linarith), abs_of_nonneg (by linarith)]; ring
      have hb : |a + cfg.step| ≤ R := abs_le.2 ⟨by linarith, by linarith⟩
      have eb : a + cfg.step - a = cfg.step := by ring
      have h1 := step_off hp (b := a + cfg.step) ha hb (by rw [eb, abs_of_pos h0]) (by rw [eb]; exact hs) hE
      rw [eb, abs_of_pos h0] at h1
      have := loop_off hp ht fuel _ _ _ _ _ _ st hb h1 h
      rw [e1] at this
      convert this using 2
      ring
    · rw [if_neg c1] at h
      by_cases c2 : t - a < -cfg.step
      · rw [if_pos c2] at h
        obtain ⟨⟨l', n'⟩, hs, h⟩ := Option.bind_eq_some_iff.mp h
        have e1 : |t - (a + -cfg.step)| = |t - a| - cfg.step := by rw [abs_of_nonpos (by linarith), abs_of_nonpos (by linarith)]; ring
        have hb : |a + -cfg.step| ≤ R := abs_le.2 ⟨by linarith, by linarith⟩
        have eb : a + -cfg.step - a = -cfg.step := by ring
        have h1 := step_off hp (b := a + -cfg.step) ha hb (by rw [eb, abs_neg, abs_of_pos h0]) (by rw [eb]; exact hs) hE
        rw [eb, abs_neg, abs_of_pos h0] at h1
        have := loop_off hp ht fuel _ _ _ _ _ _ st hb h1 h
        rw [e1] at this
        convert this using 2
        ring
      · rw [if_neg c2] at h
        obtain ⟨⟨l', n'⟩, hs, h⟩ := Option.map_eq_some_iff.mp h
        rw [Prod.mk.injEq, Prod.mk.injEq] at h
        rw [← h.1.1, ← h.1.2]
        exact step_off hp ha ht (abs_le.2 ⟨by linarith, by linarith⟩) hs hE

theorem off_start (hp : Path cfg c A0 A1 A2 D V w k τ R l n) : off w l n 0 c.xlamo c.xnq = 0 := by
  unfold off
  rw [hp.start.1, hp.start.2]
  simp

theorem dpsec_off (hp : Path cfg c A0 A1 A2 D V w k τ R l n) (hd : cfg.dundee = false) (hr : c.res ≠ .none) {fuel : ℕ} {e : Elem} {s s1 : State}
    {t P : ℝ} {wk wk' : Work} (ha : |s.atime| ≤ R) (ht : |t| ≤ R) (hP : 0 ≤ P) (hs : off w l n s.atime s.xli s.xni ≤ allowed k τ P)
    (h : Deep_dpsec fuel cfg c e s t wk = some (s1, wk')) :
    off w l n t s1.xli wk'.xn ≤ allowed k τ (P + |t - s.atime|) ∧ s1.atime = t ∧ s1.xni = wk'.xn ∧
      wk'.xll = s1.xli + (-(wk.xnode + c.ssh * t) + c.thgr + t * thdt) +
        (if c.res = .full then -(wk.omgadf + c.ssg * t) else -(wk.xnode + c.ssh * t) + c.thgr + t * thdt) := by
  obtain ⟨l', n', hl, hw⟩ := dpsec_steps hr h
  have hst := loop_atime hd c t _ _ _ _ _ _ hl
  unfold State.integ at hst
  rw [Prod.mk.injEq, Prod.mk.injEq] at hst
  have hn : wk'.xn = n' := by rw [hw]
  have hx : wk'.xll = l' + (-(wk.xnode + c.ssh * t) + c.thgr + t * thdt) +
        (if c.res = .full then -(wk.omgadf + c.ssg * t) else -(wk.xnode + c.ssh * t) + c.thgr + t * thdt) := by rw [hw]
  rw [hn, hx, hst.2.1]
  refine ⟨?_, hst.1, hst.2.2, rfl⟩
  unfold restart at hl
  by_cases hc : |t| < |t - s.atime| ∨ (cfg.dundee = true ∧ |t| < |s.atime|)
  · rw [if_pos hc] at hl
    have hlt : |t| < |t - s.atime| := hc.resolve_right (by rw [hd]; simp)
    have := loop_off hp ht fuel 0 c.xlamo c.xnq 0 l' n' _ (by rw [abs_zero]; exact (abs_nonneg _).trans ht)
      (by rw [off_start hp, allowed_zero]) hl
    refine this.trans (allowed_mono hp.rates.k0 hp.add ?_)
    rw [sub_zero]
    linarith
  · rw [if_neg hc] at hl
    exact loop_off hp ht fuel _ _ _ P l' n' _ ha hs hl

theorem calls_off (hp : Path cfg c A0 A1 A2 D V w k τ R l n) (hd : cfg.dundee = false) (hr : c.res ≠ .none) {fuel : ℕ} {e : Elem} :
    ∀ (ts : List ℝ) (s s' : State) (t P : ℝ), |s.atime| ≤ R → (∀ r ∈ ts, |r| ≤ R) → |t| ≤ R → 0 ≤ P →
      off w l n s.atime s.xli s.xni ≤ allowed k τ P → calls fuel cfg c e ts s = some s' →
      ∀ s1 wk, Deep_dpsec fuel cfg c e s' t (secular c e t) = some (s1, wk) →
      off w l n t s1.xli wk.xn ≤ allowed k τ (P + travelled s.atime (ts ++ [t])) ∧
      wk.xll = s1.xli + (-((secular c e t).xnode + c.ssh * t) + c.thgr + t * thdt) +
        (if c.res = .full then -((secular c e t).omgadf + c.ssg * t) else -((secular c e t).xnode + c.ssh * t) + c.thgr + t * thdt)
  | [], s, s', t, P, ha, _, ht, hP, hs, hc, s1, wk, h => by
    unfold calls at hc
    obtain rfl := Option.some.inj hc
    simp only [List.nil_append, travelled, add_zero]
    obtain ⟨k1, -, -, k4⟩ := dpsec_off hp hd hr ha ht hP hs h
    exact ⟨k1, k4⟩
  | t' :: ts, s, s', t, P, ha, hts, ht, hP, hs, hc, s1, wk, h => by
    unfold calls at hc
    obtain ⟨⟨s2, r2⟩, h2, hc⟩ := Option.bind_eq_some_iff.mp hc
    obtain ⟨s3, w3, hd3, e3⟩ := SDP4_state h2
    unfold State.integ at e3
    rw [Prod.mk.injEq, Prod.mk.injEq] at e3
    simp only [List.cons_append, travelled]
    have ht' : |t'| ≤ R := hts t' (by simp)
    obtain ⟨k1, k2, k3, -⟩ := dpsec_off hp hd hr ha ht' hP hs hd3
    have := calls_off hp hd hr ts s2 s' t (P + |t' - s.atime|) (by rw [e3.1, k2]; exact ht') (fun r hr => hts r (by simp [hr])) ht (by positivity)
      (by rw [e3.1, e3.2.1, e3.2.2, k2, k3]; exact k1) hc s1 wk h
    rw [e3.1, k2] at this
    rwa [← add_assoc]

theorem travelled_mem : ∀ (ts : List ℝ) (a : ℝ), ∀ r ∈ ts, |r - a| ≤ travelled a ts
  | [], _, _, h => by simp at h
  | t :: ts, a, r, h => by
    rcases List.mem_cons.1 h with rfl | h
    · exact le_add_of_nonneg_right (travelled_nonneg ts r)
    · have h1 := travelled_mem ts t r h
      have h2 := abs_add_le (r - t) (t - a)
      rw [sub_add_sub_cancel] at h2
      unfold travelled
      linarith

/-- **C176**: bounds of the acceleration and of the drift give a bound of the distance between the integration and the motion that solves the
equations of resonance: that motion exists, and after any sequence of requests during which the time has moved by at most `L` the longitude and the
mean motion are within `allowed k τ L / w` and `allowed k τ L` of it. -/
theorem C176_near {L : ℝ} (hB : Bounded (accel c) (fun t => deriv (accel c t)) A0 A1 A2 D) (hR : Rates A0 A1 A2 D V cfg.step w k τ) (hL : 0 ≤ L)
    (hV : |c.xnq + c.xfact| + A0 * L ≤ V) (ho : cfg.order = 2) (hs : 0 < cfg.step) (hd : cfg.dundee = false) (hr : c.res ≠ .none) :
    (∃ l n, ResonantPath (accel c) c.xfact L l n ∧ l 0 = c.xlamo ∧ n 0 = c.xnq) ∧
    ∀ l n, ResonantPath (accel c) c.xfact L l n → l 0 = c.xlamo → n 0 = c.xnq →
      ∀ (fuel : ℕ) (e : Elem) (ts : List ℝ) (t : ℝ) (p : Periodic) (s s1 : State) (wk : Work), calls fuel cfg c e ts (c.start p) = some s →
      Deep_dpsec fuel cfg c e s t (secular c e t) = some (s1, wk) → travelled 0 (ts ++ [t]) ≤ L →
      |s1.xli - l t| ≤ allowed k τ L / w ∧ |wk.xn - n t| ≤ allowed k τ L ∧
      wk.xll = s1.xli + (-((secular c e t).xnode + c.ssh * t) + c.thgr + t * thdt) +
        (if c.res = .full then -((secular c e t).omgadf + c.ssg * t) else -((secular c e t).xnode + c.ssh * t) + c.thgr + t * thdt) := by
  obtain ⟨n0, n1, n2, nD⟩ := hB.nonneg
  have nV : 0 ≤ V := le_trans (add_nonneg (abs_nonneg _) (mul_nonneg n0 hL)) hV
  have hw := hR.w0
  have hτ : 0 ≤ τ := le_trans (by have := hR.H0; positivity) hR.add
  refine ⟨?_, fun l n hp h1 h2 fuel e ts t p s s1 wk hc h ht => ?_⟩
  · obtain ⟨x, v, hm, m1, m2⟩ := hB.motion hL c.xlamo (c.xnq + c.xfact)
    refine ⟨x, fun t => v t - c.xfact, ⟨fun t ht => ?_, fun t ht => (hm.dv t ht).sub_const _⟩, m1, ?_⟩
    · rw [sub_add_cancel]; exact hm.dx t ht
    · dsimp only
      rw [m2]; ring
  · have hP : Path cfg c A0 A1 A2 D V w k τ L l n := ⟨hB, hp, hR, hV, ⟨h1, h2⟩, ho, hs, hτ⟩
    have hin : ∀ r ∈ ts ++ [t], |r| ≤ L := fun r hr => by
      have := travelled_mem _ 0 r hr
      rw [sub_zero] at this
      exact this.trans ht
    obtain ⟨k1, k2⟩ := calls_off hP hd hr ts (c.start p) s t 0 (by simpa [Deep.start] using hL) (fun r hr => hin r (by simp [hr])) (hin t (by simp)) le_rfl
      (by show off w l n 0 c.xlamo c.xnq ≤ _; rw [off_start hP, allowed_zero]) hc s1 wk h
    have k3 : off w l n t s1.xli wk.xn ≤ allowed k τ L := by
      refine k1.trans (allowed_mono hR.k0 hτ ?_)
      rw [zero_add]
      exact ht
    unfold off at k3
    refine ⟨?_, ?_, k2⟩
    · rw [le_div_iff₀ hw]
      linarith [abs_nonneg (wk.xn - n t), mul_comm w |s1.xli - l t|]
    · linarith [mul_nonneg hw.le (abs_nonneg (s1.xli - l t))]

/-! ### Numbers -/

theorem exp_le {x : ℝ} (hx : x < 32) : exp x ≤ 1 / (1 - x / 32) ^ 32 := by
  have h1 : 0 < 1 - x / 32 := by linarith
  have h2 : 1 - x / 32 ≤ exp (-(x / 32)) := by linarith [add_one_le_exp (-(x / 32))]
  have h3 : (1 - x / 32) ^ 32 ≤ exp (-(x / 32)) ^ 32 := by gcongr
  rw [← exp_nat_mul, show ((32 : ℕ) : ℝ) * -(x / 32) = -x by push_cast; ring, exp_neg] at h3
  rw [le_div_iff₀ (by positivity)]
  have := exp_pos x
  calc exp x * (1 - x / 32) ^ 32 ≤ exp x * (exp x)⁻¹ := mul_le_mul_of_nonneg_left h3 this.le
    _ = 1 := mul_inv_cancel₀ this.ne'

theorem allowed_le {k τ L B : ℝ} (hk : 0 < k) (hτ : 0 ≤ τ) (hx : k * L < 32) (h : τ / k * (1 / (1 - k * L / 32) ^ 32 - 1) ≤ B) : allowed k τ L ≤ B := by
  unfold allowed
  have := exp_le hx
  exact le_trans (mul_le_mul_of_nonneg_left (by linarith) (by positivity)) h

/-- The amplitudes for nearly circular orbits near the synchronous one. -/
theorem geo_amp {c : Deep} (hd : (c.del1, c.del2, c.del3) = fullDay c.i) {x : ℝ} (h1 : c.i.cosio = cos x) (h3 : c.i.sinio = sin x)
    (h4 : 0 ≤ c.i.eosq) (h5 : c.i.eosq ≤ 1 / 100) (hn0 : 0 ≤ c.i.xnodp) (hn : c.i.xnodp ≤ 45 / 10 ^ 4) (ha : 13 / 2 ≤ c.i.aodp) :
    ampSum (fullWaves c) ≤ 206 / 10 ^ 13 := by
  have p := powers_le hn0 hn (by norm_num) ha
  obtain ⟨d1, d2⟩ := Prod.ext_iff.1 hd
  obtain ⟨d2, d3⟩ := Prod.ext_iff.1 d2
  dsimp only at d1 d2 d3
  have hc1 := abs_le.1 (abs_cos_le_one x)
  have hs := sin_sq_add_cos_sq x
  simp only [ampSum, fullWaves, List.map_cons, List.map_nil, List.sum_cons, List.sum_nil, d1, d2, d3, fullDay, fullDayOf, fullIncl, fullEcc, h1, h3]
  generalize sin x = s at *
  generalize cos x = k at *
  generalize c.i.xnodp = n at *
  generalize c.i.aodp = a at *
  generalize c.i.eosq = q at *
  obtain ⟨ka, kb⟩ := hc1
  have f1 : |9375 / 10 ^ 4 * s * s * (1 + 3 * k) - 3 / 4 * (1 + k)| ≤ 6 := by
    rw [show 9375 / 10 ^ 4 * s * s * (1 + 3 * k) - 3 / 4 * (1 + k) = 15 / 16 * ((1 - k ^ 2) * (1 + 3 * k)) - 3 / 4 * (1 + k) by
      linear_combination 15 / 16 * (1 + 3 * k) * hs, abs_le]
    have hk : 0 ≤ 1 - k ^ 2 := by nlinarith
    constructor <;> nlinarith
  have f2 : |3 / 4 * (1 + k) * (1 + k)| ≤ 3 := by rw [abs_le]; constructor <;> nlinarith
  have f3 : |5 / 2 * (3 / 4 * (1 + k) * (1 + k)) * (1 + k)| ≤ 15 := by
    have : 0 ≤ 1 + k := by linarith
    have h2 : (1 + k) ^ 2 ≤ 4 := by nlinarith
    rw [abs_le]; constructor <;> nlinarith [mul_nonneg this (sq_nonneg (1 + k))]
  have g1 : |1 + 2 * q| ≤ 51 / 50 := by rw [abs_le]; constructor <;> linarith
  have g2 : |1 + q * (-(5 / 2) + 8125 / 10 ^ 4 * q)| ≤ 1 := by rw [abs_le]; constructor <;> nlinarith
  have g3 : |1 + q * (-6 + 660937 / 10 ^ 5 * q)| ≤ 1 := by rw [abs_le]; constructor <;> nlinarith
  have k1 := amp_le (r := 21460748 / 10 ^ 13) (p 3).1 (p 3).2 (by norm_num) f1 g1
  have k2 := amp_le (r := 17891679 / 10 ^ 13) (mul_nonneg zero_le_two (p 2).1) (mul_le_mul_of_nonneg_left (p 2).2 zero_le_two) (by norm_num) f2 g2
  have k3 := amp_le (r := 22123015 / 10 ^ 14) (mul_nonneg zero_le_three (p 3).1) (mul_le_mul_of_nonneg_left (p 3).2 zero_le_three) (by norm_num) f3 g3
  refine le_trans (le_of_eq ?_) ((add_le_add k1 (add_le_add k2 (add_le_add k3 (le_refl (0 : ℝ))))).trans ?_)
  · congr 1
    · congr 1; ring
    · congr 1
      · congr 1; ring
      · congr 2; ring
  · norm_num

/-- Nearly circular orbits near the synchronous one, with a drift of at most 0.8 degrees per day at the epoch. -/
structure Stationary (e : Elem) : Prop where
  res : (SDP4_init e).res = .full
  ecc0 : 0 ≤ e.eo
  ecc : e.eo ≤ 1 / 10
  motion0 : 0 ≤ (SDP4_init e).i.xnodp
  motion : (SDP4_init e).i.xnodp ≤ 45 / 10 ^ 4
  axis : 13 / 2 ≤ (SDP4_init e).i.aodp
  drift : |(SDP4_init e).xnq + (SDP4_init e).xfact| ≤ 1 / 10 ^ 5

theorem Stationary.bounded {e : Elem} (h : Stationary e) :
    Bounded (accel (SDP4_init e)) (fun t => deriv (accel (SDP4_init e) t)) (101 / 100 * (206 / 10 ^ 13)) (101 / 100 * (3 * (206 / 10 ^ 13)))
      (101 / 100 * (3 * (3 * (206 / 10 ^ 13)))) 0 := by
  refine bounded_full h.res (geo_amp rfl (x := e.xincl) rfl rfl (mul_nonneg h.ecc0 h.ecc0) ?_ h.motion0 h.motion h.axis)
  show e.eo * e.eo ≤ _
  have := h.ecc0
  have := h.ecc
  nlinarith

/-- What the integration gives for `t` after the requests `ts` is within `εl` of the longitude and `εn` of the mean motion of the motion that
solves the equations of resonance from the epoch on, as long as the time moves by at most `L` in all; and that motion exists. -/
def Tracks (c : Deep) (L εl εn : ℝ) : Prop :=
  (∃ l n, ResonantPath (accel c) c.xfact L l n ∧ l 0 = c.xlamo ∧ n 0 = c.xnq) ∧
  ∀ l n, ResonantPath (accel c) c.xfact L l n → l 0 = c.xlamo → n 0 = c.xnq →
    ∀ (fuel : ℕ) (e : Elem) (ts : List ℝ) (t : ℝ) (p : Periodic) (s s1 : State) (wk : Work), calls fuel Cfg.initial c e ts (c.start p) = some s →
    Deep_dpsec fuel Cfg.initial c e s t (secular c e t) = some (s1, wk) → travelled 0 (ts ++ [t]) ≤ L →
    |s1.xli - l t| ≤ εl ∧ |wk.xn - n t| ≤ εn ∧
    wk.xll = s1.xli + (-((secular c e t).xnode + c.ssh * t) + c.thgr + t * thdt) +
      (if c.res = .full then -((secular c e t).omgadf + c.ssg * t) else -((secular c e t).xnode + c.ssh * t) + c.thgr + t * thdt)

theorem tracks_of {L εl εn : ℝ} (hB : Bounded (accel c) (fun t => deriv (accel c t)) A0 A1 A2 D) (hR : Rates A0 A1 A2 D V 720 w k τ) (hL : 0 ≤ L)
    (hV : |c.xnq + c.xfact| + A0 * L ≤ V) (hr : c.res ≠ .none) (hn : allowed k τ L ≤ εn) (hl : εn / w ≤ εl) : Tracks c L εl εn := by
  obtain ⟨h1, h2⟩ := C176_near (cfg := Cfg.initial) hB hR hL hV rfl (by norm_num [Cfg.initial]) rfl hr
  refine ⟨h1, fun l n hp a b fuel e ts t p s s1 wk hc h ht => ?_⟩
  obtain ⟨k1, k2, k3⟩ := h2 l n hp a b fuel e ts t p s s1 wk hc h ht
  exact ⟨k1.trans (le_trans (div_le_div_of_nonneg_right hn hR.w0.le) hl), k2.trans hn, k3⟩

/-- **C176**: for 30 days the longitude of such a synchronous satellite is right to 1.8·10⁻⁵ (0.8 km), its mean motion to 1.4·10⁻¹⁰ per minute. -/
theorem C176_month {e : Elem} (h : Stationary e) : Tracks (SDP4_init e) 43200 (18 / 10 ^ 6) (14 / 10 ^ 11) := by
  have hR : Rates (101 / 100 * (206 / 10 ^ 13)) (101 / 100 * (3 * (206 / 10 ^ 13))) (101 / 100 * (3 * (3 * (206 / 10 ^ 13)))) 0 (11 / 10 ^ 6) 720
      (791 / 10 ^ 8) (803 / 10 ^ 8) (254 / 10 ^ 17) := by constructor <;> norm_num
  refine tracks_of h.bounded hR (by norm_num) (by linarith [h.drift]) (by rw [h.res]; decide) ?_ (by norm_num)
  exact allowed_le (by norm_num) (by norm_num) (by norm_num) (by norm_num)

/-- **C176**: for half a year to 6·10⁻⁴ (two minutes of arc) and 4.7·10⁻⁹. -/
theorem C176_halfyear {e : Elem} (h : Stationary e) : Tracks (SDP4_init e) 262800 (6 / 10 ^ 4) (47 / 10 ^ 10) := by
  have hR : Rates (101 / 100 * (206 / 10 ^ 13)) (101 / 100 * (3 * (206 / 10 ^ 13))) (101 / 100 * (3 * (3 * (206 / 10 ^ 13)))) 0 (155 / 10 ^ 7) 720
      (791 / 10 ^ 8) (807 / 10 ^ 8) (467 / 10 ^ 17) := by constructor <;> norm_num
  refine tracks_of h.bounded hR (by norm_num) (by linarith [h.drift]) (by rw [h.res]; decide) ?_ (by norm_num)
  exact allowed_le (by norm_num) (by norm_num) (by norm_num) (by norm_num)

/-- **C176**: 12-hour orbits near the critical inclination (the perigee moves by at most 10⁻⁶ per minute) with a drift of at most 2·10⁻⁵ per minute at
the epoch: for ten days to 8.1·10⁻⁴ and 3.7·10⁻⁸. -/
theorem C176_halfday {e : Elem} (hr : (SDP4_init e).res = .half) (he : e.eo ≤ 4 / 5) (h0 : 0 < e.xno) (hk : e.xno ≤ xke)
    (ho : |(SDP4_init e).i.omgdot| ≤ 1 / 10 ^ 6) (hd : |(SDP4_init e).xnq + (SDP4_init e).xfact| ≤ 2 / 10 ^ 5) :
    Tracks (SDP4_init e) 14400 (81 / 10 ^ 5) (37 / 10 ^ 9) := by
  have hres : resonanceOf e (sxpx_common_init e) = .half := hr
  have hb : 826 / 10 ^ 5 ≤ (SDP4_init e).i.xnodp ∧ (SDP4_init e).i.xnodp ≤ 924 / 10 ^ 5 ∧ 1 / 2 ≤ e.eo := by
    unfold resonanceOf at hres
    split_ifs at hres with h1
    exact h1
  have ha : 4 ≤ (SDP4_init e).i.aodp := half_axis (by linarith [hb.2.2]) he h0 hk hb.2.1
  have hamp := half_amp (c := SDP4_init e) (e := e) rfl (x := e.xincl) rfl rfl rfl rfl hb.2.2 he (by linarith [hb.1]) hb.2.1 ha
  have hB := bounded_half hr hamp ho
  have hR : Rates (101 / 100 * (104 / 10 ^ 11)) (101 / 100 * (2 * (104 / 10 ^ 11))) (101 / 100 * (2 * (2 * (104 / 10 ^ 11))))
      (101 / 100 * (104 / 10 ^ 11) * (2 * (1 / 10 ^ 6))) (36 / 10 ^ 6) 720 (46 / 10 ^ 6) (48 / 10 ^ 6) (173 / 10 ^ 14) := by constructor <;> norm_num
  refine tracks_of hB hR (by norm_num) (by linarith) (by rw [hr]; decide) ?_ (by norm_num)
  exact allowed_le (by norm_num) (by norm_num) (by norm_num) (by norm_num)

/-- **C176**: so what was asked for before matters at most that much: after two different sequences of requests the mean anomaly and the mean motion
for the same time differ by at most twice the bounds. -/
theorem C176_history {c : Deep} {L εl εn : ℝ} (hF : Tracks c L εl εn) {f f' : ℕ} {e : Elem} {ts ts' : List ℝ} {t : ℝ} {p p' : Periodic}
    {s s' s1 s1' : State} {wk wk' : Work} (h1 : calls f Cfg.initial c e ts (c.start p) = some s)
    (h2 : Deep_dpsec f Cfg.initial c e s t (secular c e t) = some (s1, wk)) (h3 : travelled 0 (ts ++ [t]) ≤ L)
    (h1' : calls f' Cfg.initial c e ts' (c.start p') = some s') (h2' : Deep_dpsec f' Cfg.initial c e s' t (secular c e t) = some (s1', wk'))
    (h3' : travelled 0 (ts' ++ [t]) ≤ L) : |wk.xll - wk'.xll| ≤ 2 * εl ∧ |wk.xn - wk'.xn| ≤ 2 * εn := by
  obtain ⟨⟨l, n, hp, a, b⟩, hall⟩ := hF
  obtain ⟨k1, k2, k3⟩ := hall l n hp a b f e ts t p s s1 wk h1 h2 h3
  obtain ⟨m1, m2, m3⟩ := hall l n hp a b f' e ts' t p' s' s1' wk' h1' h2' h3'
  rw [k3, m3, abs_le] at *
  rw [abs_le] at *
  constructor <;> constructor <;> linarith [k1.1, k1.2, k2.1, k2.2, m1.1, m1.2, m2.1, m2.2]

/-! ### Examples -/

/-- The rates due to the flattening where `cos² i = 1/3`. -/
theorem rates_magic {r : Recov} {W : ℝ} (hW : (1 / (r.aodp * r.betao2)) ^ 2 ≤ W) (hW1 : W ≤ 1 / 8) (hb0 : 0 ≤ r.betao) (hb1 : r.betao ≤ 1)
    (hy : r.cosio2 = 1 / 3) (hc : |r.cosio| ≤ 1) (hn : 0 < r.xnodp) :
    |xmdotOf ck2 r - r.xnodp| ≤ r.xnodp * W * (1 / 10 ^ 6) ∧ |omgdotOf ck2 ck4 r| ≤ r.xnodp * W * (6 / 10 ^ 4) ∧
    |xnodotOf ck2 ck4 r| ≤ r.xnodp * W * (17 / 10 ^ 4) := by
  unfold xmdotOf omgdotOf xnodotOf xhdot1Of
  dsimp only
  rw [hy]
  generalize 1 / (r.aodp * r.betao2) = p at *
  generalize r.xnodp = n at *
  generalize r.betao = b at *
  generalize r.cosio = k at *
  rw [pow_two] at hW
  have hw0 : 0 ≤ p * p := mul_self_nonneg p
  generalize p * p = w at *
  have hk : 0 ≤ ck2 ∧ ck2 ≤ 55 / 10 ^ 5 := by unfold ck2 xj2; norm_num
  have h1 : ck2 * w ≤ 55 / 10 ^ 5 * W := mul_le_mul hk.2 hW hw0 (by norm_num)
  have h0 : 0 ≤ ck2 * w := mul_nonneg hk.1 hw0
  have hnW : 0 ≤ n * W := mul_nonneg hn.le (hw0.trans hW)
  have t1 : 0 ≤ 3 * ck2 * w * n ∧ 3 * ck2 * w * n ≤ n * W * (165 / 10 ^ 5) := by
    have := mul_le_mul_of_nonneg_left h1 hn.le
    have := mul_nonneg hn.le h0
    constructor <;> linarith
  have t2 : 0 ≤ 3 * ck2 * w * n * ck2 * w ∧ 3 * ck2 * w * n * ck2 * w ≤ n * W * (12 / 10 ^ 8) := by
    rw [mul_assoc _ ck2 w]
    constructor
    · exact mul_nonneg t1.1 h0
    · have := mul_le_mul t1.2 (h1.trans (by linarith : _ ≤ (7 / 10 ^ 5 : ℝ))) h0 (by positivity)
      linarith
  have t3 : 0 ≤ 5 / 4 * ck4 * w * w * n ∧ 5 / 4 * ck4 * w * w * n ≤ n * W * (12 / 10 ^ 8) := by
    have : 0 ≤ ck4 ∧ ck4 ≤ 7 / 10 ^ 7 := by unfold ck4 xj4; norm_num
    have h1 : ck4 * w ≤ 7 / 10 ^ 7 * (1 / 8) := mul_le_mul this.2 (hW.trans hW1) hw0 (by norm_num)
    have h0 : 0 ≤ ck4 * w := mul_nonneg this.1 hw0
    have h2 : 0 ≤ n * w := mul_nonneg hn.le hw0
    have h3 : n * w ≤ n * W := mul_le_mul_of_nonneg_left hW hn.le
    have h4 := mul_le_mul h1 h3 h2 (by norm_num)
    have h5 := mul_nonneg h0 h2
    rw [show 5 / 4 * ck4 * w * w * n = 5 / 4 * (ck4 * w * (n * w)) by ring]
    constructor <;> linarith
  generalize 3 * ck2 * w * n * ck2 * w = T2 at *
  generalize 3 * ck2 * w * n = T1 at *
  generalize 5 / 4 * ck4 * w * w * n = T3 at *
  generalize n * W = N at *
  refine ⟨?_, ?_, ?_⟩
  · have e2 := prod_le (Z := b * ((13 - 78 * (1 / 3) + 137 * (1 / 3 * (1 / 3))) / 16)) t2.1 t2.2 (z := 1) (by
      rw [abs_le]; constructor <;> linarith)
    rw [show n + T1 * b * (3 * (1 / 3) - 1) / 2 + T2 * b * (13 - 78 * (1 / 3) + 137 * (1 / 3 * (1 / 3))) / 16 - n =
      T2 * (b * ((13 - 78 * (1 / 3) + 137 * (1 / 3 * (1 / 3))) / 16)) by ring]
    linarith
  · rw [abs_le]
    constructor <;> linarith [t1.1, t1.2, t2.1, t2.2, t3.1, t3.2]
  · have hk : ∀ {z Z : ℝ}, |Z| ≤ z → |Z * k| ≤ z := by
      intro z Z hz
      rw [abs_mul]
      nlinarith [abs_nonneg Z, abs_nonneg k]
    have e1 := prod_le (Z := -k) t1.1 t1.2 (z := 1) (by rwa [abs_neg])
    have e2 := prod_le (Z := (4 - 19 * (1 / 3)) / 2 * k) t2.1 t2.2 (z := 2) (hk (by rw [abs_le]; constructor <;> norm_num))
    have e3 := prod_le (Z := 2 * (3 - 7 * (1 / 3)) * k) t3.1 t3.2 (z := 2) (hk (by rw [abs_le]; constructor <;> norm_num))
    rw [show -T1 * k + (T2 * (4 - 19 * (1 / 3)) / 2 + 2 * T3 * (3 - 7 * (1 / 3))) * k =
      T1 * -k + T2 * ((4 - 19 * (1 / 3)) / 2 * k) + T3 * (2 * (3 - 7 * (1 / 3)) * k) by ring]
    refine (abs_add_le _ _).trans ?_
    have := abs_add_le (T1 * -k) (T2 * ((4 - 19 * (1 / 3)) / 2 * k))
    linarith

/-- The rates due to Sun and Moon for inclined orbits with a mean motion of at least `N`, where `q N = 1.2·10⁻¹⁰`. -/
theorem bodies_magic {e : Elem} {N q : ℝ} (he : e.eo * e.eo ≤ 36 / 100) (hN : 0 < N) (hn : N ≤ (SDP4_init e).i.xnodp) (hq : 12 / 10 ^ 11 ≤ q * N)
    (hs : 4 / 5 ≤ sin e.xincl) :
    |(SDP4_init e).ssl| ≤ 120 * q ∧ |(SDP4_init e).ssh| ≤ 60 * q ∧ |(SDP4_init e).ssg| ≤ 92 * q := by
  have hn0 : 0 < (SDP4_init e).i.xnodp := hN.trans_le hn
  have hq0 : 0 ≤ q := by
    by_contra h
    nlinarith [not_le.1 h]
  have hq' : 12 / 10 ^ 11 ≤ q * (SDP4_init e).i.xnodp := hq.trans (mul_le_mul_of_nonneg_left hn hq0)
  have hs0 : 0 ≤ e.eo * e.eo := mul_self_nonneg _
  have hbo : 8 / 10 ≤ √(1 - e.eo * e.eo) := le_sqrt_of_sq_le (by linarith)
  have hbo1 : √(1 - e.eo * e.eo) ≤ 1 := sqrt_le_one.2 (by linarith)
  obtain ⟨s1, s2, s3⟩ := body_le (solar_oriented e.xnodeo) (cc := 29864797 / 10 ^ 13) (zn := znsMin) (ze := zes) (by norm_num) (by norm_num [znsMin]) (e := e)
    (i := (SDP4_init e).i) (x := e.xincl) rfl rfl (mul_self_nonneg e.eo) (show e.eo * e.eo ≤ 1 by linarith) (show 0 ≤ 1 - e.eo * e.eo by linarith)
    (show 1 - e.eo * e.eo ≤ 1 by linarith) (show 0 < √(1 - e.eo * e.eo) by linarith) hbo1 hn0
  obtain ⟨m1, m2, m3⟩ := body_le (lunar_oriented (e.epoch - 2415020) e.xnodeo) (cc := 47968065 / 10 ^ 14) (zn := znlMin) (ze := zel) (by norm_num)
    (by norm_num [znlMin]) (e := e)
    (i := (SDP4_init e).i) (x := e.xincl) rfl rfl (mul_self_nonneg e.eo) (show e.eo * e.eo ≤ 1 by linarith) (show 0 ≤ 1 - e.eo * e.eo by linarith)
    (show 1 - e.eo * e.eo ≤ 1 by linarith) (show 0 < √(1 - e.eo * e.eo) by linarith) hbo1 hn0
  have hβ : (SDP4_init e).i.betao = √(1 - e.eo * e.eo) := rfl
  rw [hβ] at s3 m3
  have eS : (SDP4_init e).sun = bodyTerms (solarOrient e.xnodeo) (29864797 / 10 ^ 13) znsMin zes e (SDP4_init e).i := rfl
  have eM : (SDP4_init e).moon = bodyTerms (lunarOrient (e.epoch - 2415020) e.xnodeo) (47968065 / 10 ^ 14) znlMin zel e (SDP4_init e).i := rfl
  rw [← eS] at s1 s2 s3
  rw [← eM] at m1 m2 m3
  have hsum : znsMin * (29864797 / 10 ^ 13 / (SDP4_init e).i.xnodp) + znlMin * (47968065 / 10 ^ 14 / (SDP4_init e).i.xnodp) ≤ q := by
    rw [show znsMin * (29864797 / 10 ^ 13 / (SDP4_init e).i.xnodp) + znlMin * (47968065 / 10 ^ 14 / (SDP4_init e).i.xnodp) =
      (znsMin * (29864797 / 10 ^ 13) + znlMin * (47968065 / 10 ^ 14)) / (SDP4_init e).i.xnodp by ring, div_le_iff₀ hn0]
    refine le_trans ?_ hq'
    unfold znsMin znlMin
    norm_num
  generalize znsMin * (29864797 / 10 ^ 13 / (SDP4_init e).i.xnodp) = q1 at *
  generalize znlMin * (47968065 / 10 ^ 14 / (SDP4_init e).i.xnodp) = q2 at *
  have hsi : (SDP4_init e).i.sinio = sin e.xincl := rfl
  have hne : (SDP4_init e).i.sinio ≠ 0 := by
    rw [hsi]
    linarith
  have el : (SDP4_init e).ssl = (SDP4_init e).sun.sl + (SDP4_init e).moon.sl := rfl
  have eh : (SDP4_init e).ssh = ((SDP4_init e).sun.sh + (SDP4_init e).moon.sh) / (SDP4_init e).i.sinio := by
    show (if (SDP4_init e).i.sinio ≠ 0 then (if (SDP4_init e).i.sinio ≠ 0 then (SDP4_init e).sun.sh / (SDP4_init e).i.sinio else 0) +
      (SDP4_init e).moon.sh / (SDP4_init e).i.sinio else (if (SDP4_init e).i.sinio ≠ 0 then (SDP4_init e).sun.sh / (SDP4_init e).i.sinio else 0)) = _
    rw [if_pos hne, if_pos hne]
    ring
  have eg : (SDP4_init e).ssg = (SDP4_init e).sun.sgh + (SDP4_init e).moon.sgh - cos e.xincl * (SDP4_init e).ssh := by
    rw [eh]
    show (if (SDP4_init e).i.sinio ≠ 0 then ((SDP4_init e).sun.sgh - cos e.xincl * (if (SDP4_init e).i.sinio ≠ 0 then
      (SDP4_init e).sun.sh / (SDP4_init e).i.sinio else 0)) + (SDP4_init e).moon.sgh - (SDP4_init e).moon.sh * cos e.xincl / (SDP4_init e).i.sinio
      else ((SDP4_init e).sun.sgh - cos e.xincl * (if (SDP4_init e).i.sinio ≠ 0 then
      (SDP4_init e).sun.sh / (SDP4_init e).i.sinio else 0)) + (SDP4_init e).moon.sgh) = _
    rw [if_pos hne, if_pos hne]
    ring
  have hh : |(SDP4_init e).ssh| ≤ 60 * q := by
    rw [eh, hsi, abs_div, abs_of_pos (by linarith : 0 < sin e.xincl), div_le_iff₀ (by linarith)]
    have h1 := abs_add_le (SDP4_init e).sun.sh (SDP4_init e).moon.sh
    have h2 : q1 / √(1 - e.eo * e.eo) * 38 + q2 / √(1 - e.eo * e.eo) * 38 ≤ q * 48 := by
      rw [← add_mul, ← add_div, div_mul_eq_mul_div, div_le_iff₀ (by linarith)]
      nlinarith
    nlinarith
  refine ⟨?_, hh, ?_⟩
  · rw [el]
    refine (abs_add_le _ _).trans ?_
    linarith
  · rw [eg]
    have h1 : |cos e.xincl * (SDP4_init e).ssh| ≤ 60 * q := by
      rw [abs_mul]
      have := abs_cos_le_one e.xincl
      nlinarith [abs_nonneg (SDP4_init e).ssh, abs_nonneg (cos e.xincl)]
    have h2 := abs_sub ((SDP4_init e).sun.sgh + (SDP4_init e).moon.sgh) (cos e.xincl * (SDP4_init e).ssh)
    have h3 := abs_add_le (SDP4_init e).sun.sgh (SDP4_init e).moon.sgh
    linarith

theorem magic_sin {e : Elem} (h : e.xincl = arccos (1 / √3)) : 4 / 5 ≤ sin e.xincl ∧ cos e.xincl * cos e.xincl = 1 / 3 := by
  have h3 : (0 : ℝ) < √3 := sqrt_pos.mpr (by norm_num)
  have h1 : (1 : ℝ) ≤ √3 := one_le_sqrt.mpr (by norm_num)
  constructor
  · rw [h, sin_arccos]
    refine le_sqrt_of_sq_le ?_
    rw [div_pow 1, sq_sqrt (by norm_num)]
    norm_num
  · rw [h, cos_arccos (by have : 0 < 1 / √3 := by positivity
                          linarith) ((div_le_one h3).mpr h1), div_mul_div_comm, mul_self_sqrt (by norm_num)]
    norm_num

theorem axis_above {x q a : ℝ} (ha : 0 ≤ a) (hq : 0 ≤ q) (h : a ≤ q * q) (hx : a * q ≤ x) : a ≤ x ^ (2 / 3 : ℝ) := by
  have h0 : a = (a ^ (3 / 2 : ℝ)) ^ (2 / 3 : ℝ) := by
    rw [← rpow_mul ha]
    norm_num
  have h3 : a ^ (3 / 2 : ℝ) = a * √a := by
    rw [sqrt_eq_rpow, ← rpow_one_add' ha (by norm_num)]
    norm_num
  have h4 : √a ≤ q := sqrt_le_iff.2 ⟨hq, by rwa [pow_two]⟩
  rw [h0]
  refine rpow_le_rpow (by positivity) ?_ (by norm_num)
  rw [h3]
  nlinarith

/-- A satellite on an inclined circular orbit that turns with the Earth. -/
noncomputable def sidereal : Elem := { geo with xno := thdt }

/-- The hypotheses of C176_month and C176_halfyear hold for it. -/
theorem stationary_sidereal : Stationary sidereal := by
  obtain ⟨h1, h2⟩ := magic_axis (e := sidereal) rfl
  obtain ⟨hs, hy⟩ := magic_sin (e := sidereal) rfl
  have hn : (SDP4_init sidereal).i.xnodp = thdt := h1
  have hN : 437 / 10 ^ 5 ≤ thdt ∧ thdt ≤ 438 / 10 ^ 5 := by unfold thdt; norm_num
  have ha : 13 / 2 ≤ (SDP4_init sidereal).i.aodp := by
    show _ ≤ (sxpx_common_init sidereal).aodp
    rw [h2]
    refine axis_above (q := 255 / 100) (by norm_num) (by norm_num) (by norm_num) ?_
    show _ ≤ xke / thdt
    rw [le_div_iff₀ (by linarith)]
    unfold xke thdt
    norm_num
  have hr : (SDP4_init sidereal).res = .full := by
    show resonanceOf sidereal (sxpx_common_init sidereal) = _
    unfold resonanceOf
    rw [if_neg (by rintro ⟨-, -, h⟩; norm_num [sidereal, geo] at h), if_pos]
    rw [h1]
    show thdt < _ ∧ thdt > _
    have hp := pi_gt_d2
    have hq := pi_lt_d2
    constructor <;> linarith [hN.1, hN.2]
  obtain ⟨b1, b2, b3⟩ := bodies_magic (e := sidereal) (N := 437 / 10 ^ 5) (q := 275 / 10 ^ 10) (by norm_num [sidereal, geo]) (by norm_num)
    (by rw [hn]; exact hN.1) (by norm_num) hs
  obtain ⟨r1, r2, r3⟩ := rates_magic (r := sxpall_common_init sidereal) (W := 24 / 1000) (by
      show (1 / ((SDP4_init sidereal).i.aodp * (1 - (0 : ℝ) * 0))) ^ 2 ≤ _
      rw [mul_zero, sub_zero, mul_one, div_pow, one_pow, div_le_iff₀ (by positivity)]
      nlinarith) (by norm_num) (sqrt_nonneg _) (show √(1 - (0 : ℝ) * 0) ≤ 1 by norm_num) hy (abs_cos_le_one _) (by
      show 0 < (SDP4_init sidereal).i.xnodp
      rw [hn]
      linarith)
  change |(SDP4_init sidereal).i.xmdot - (SDP4_init sidereal).i.xnodp| ≤ (SDP4_init sidereal).i.xnodp * _ * _ at r1
  change |(SDP4_init sidereal).i.omgdot| ≤ (SDP4_init sidereal).i.xnodp * _ * _ at r2
  change |(SDP4_init sidereal).i.xnodot| ≤ (SDP4_init sidereal).i.xnodp * _ * _ at r3
  refine ⟨hr, le_refl _, by norm_num [sidereal, geo], by rw [hn]; linarith, by rw [hn]; linarith, ha, ?_⟩
  have hres : resonanceOf sidereal (sxpx_common_init sidereal) = .full := hr
  have e1 : (SDP4_init sidereal).xnq + (SDP4_init sidereal).xfact = (SDP4_init sidereal).i.xmdot + (SDP4_init sidereal).i.omgdot +
      (SDP4_init sidereal).i.xnodot - thdt + (SDP4_init sidereal).ssl + (SDP4_init sidereal).ssg + (SDP4_init sidereal).ssh := by
    show (SDP4_init sidereal).i.xnodp + ((match resonanceOf sidereal (sxpx_common_init sidereal) with
      | .half => _
      | _ => _) - (SDP4_init sidereal).i.xnodp) = _
    rw [hres]
    show (SDP4_init sidereal).i.xnodp + ((SDP4_init sidereal).i.xmdot + (SDP4_init sidereal).i.omgdot + (SDP4_init sidereal).i.xnodot - thdt +
      (SDP4_init sidereal).ssl + (SDP4_init sidereal).ssg + (SDP4_init sidereal).ssh - (SDP4_init sidereal).i.xnodp) = _
    ring
  rw [hn, abs_le] at r1 r2 r3
  rw [abs_le] at b1 b2 b3
  rw [e1, abs_le]
  constructor <;> linarith [r1.1, r1.2, r2.1, r2.2, r3.1, r3.2, b1.1, b1.2, b2.1, b2.2, b3.1, b3.2, hN.1, hN.2]

example : Tracks (SDP4_init sidereal) 43200 (18 / 10 ^ 6) (14 / 10 ^ 11) := C176_month stationary_sidereal

/-- A satellite on an inclined orbit with an eccentricity of a half that makes two revolutions while the Earth turns once. -/
noncomputable def twice : Elem := { geo with eo := 1 / 2, xno := 2 * thdt }

/-- The hypotheses of C176_halfday hold for it. -/
example : Tracks (SDP4_init twice) 14400 (81 / 10 ^ 5) (37 / 10 ^ 9) := by
  obtain ⟨h1, h2⟩ := magic_axis (e := twice) rfl
  obtain ⟨hs, hy⟩ := magic_sin (e := twice) rfl
  have hn : (SDP4_init twice).i.xnodp = 2 * thdt := h1
  have hN : 437 / 10 ^ 5 ≤ thdt ∧ thdt ≤ 438 / 10 ^ 5 := by unfold thdt; norm_num
  have ha : 41 / 10 ≤ (SDP4_init twice).i.aodp := by
    show _ ≤ (sxpx_common_init twice).aodp
    rw [h2]
    refine axis_above (q := 203 / 100) (by norm_num) (by norm_num) (by norm_num) ?_
    show _ ≤ xke / (2 * thdt)
    rw [le_div_iff₀ (by linarith)]
    unfold xke thdt
    norm_num
  have hr : (SDP4_init twice).res = .half := by
    show resonanceOf twice (sxpx_common_init twice) = _
    unfold resonanceOf
    rw [if_pos]
    rw [h1]
    show _ ≤ 2 * thdt ∧ 2 * thdt ≤ _ ∧ _ ≤ (1 / 2 : ℝ)
    unfold thdt
    norm_num
  obtain ⟨b1, b2, b3⟩ := bodies_magic (e := twice) (N := 874 / 10 ^ 5) (q := 138 / 10 ^ 10) (by norm_num [twice]) (by norm_num)
    (by rw [hn]; linarith) (by norm_num) hs
  obtain ⟨r1, r2, r3⟩ := rates_magic (r := sxpall_common_init twice) (W := 107 / 1000) (by
      show (1 / ((SDP4_init twice).i.aodp * (1 - (1 / 2 : ℝ) * (1 / 2)))) ^ 2 ≤ _
      rw [div_pow, one_pow, div_le_iff₀ (by positivity)]
      nlinarith) (by norm_num) (sqrt_nonneg _) (sqrt_le_one.2 (show 1 - (1 / 2 : ℝ) * (1 / 2) ≤ 1 by norm_num)) hy (abs_cos_le_one _) (by
      show 0 < (SDP4_init twice).i.xnodp
      rw [hn]
      linarith)
  change |(SDP4_init twice).i.xmdot - (SDP4_init twice).i.xnodp| ≤ (SDP4_init twice).i.xnodp * _ * _ at r1
  change |(SDP4_init twice).i.omgdot| ≤ (SDP4_init twice).i.xnodp * _ * _ at r2
  change |(SDP4_init twice).i.xnodot| ≤ (SDP4_init twice).i.xnodp * _ * _ at r3
  have hres : resonanceOf twice (sxpx_common_init twice) = .half := hr
  have e1 : (SDP4_init twice).xnq + (SDP4_init twice).xfact = (SDP4_init twice).i.xmdot + (SDP4_init twice).i.xnodot +
      (SDP4_init twice).i.xnodot - thdt - thdt + ((SDP4_init twice).ssl + (SDP4_init twice).ssh + (SDP4_init twice).ssh) := by
    show (SDP4_init twice).i.xnodp + ((match resonanceOf twice (sxpx_common_init twice) with
      | .half => _
      | _ => _) - (SDP4_init twice).i.xnodp) = _
    rw [hres]
    show (SDP4_init twice).i.xnodp + ((SDP4_init twice).i.xmdot + (SDP4_init twice).i.xnodot + (SDP4_init twice).i.xnodot - thdt - thdt +
      ((SDP4_init twice).ssl + (SDP4_init twice).ssh + (SDP4_init twice).ssh) - (SDP4_init twice).i.xnodp) = _
    ring
  rw [hn] at r1 r2 r3
  refine C176_halfday hr (show (1 / 2 : ℝ) ≤ 4 / 5 by norm_num) (show 0 < 2 * thdt by linarith) (show 2 * thdt ≤ xke by unfold xke; linarith)
    (r2.trans (by linarith)) ?_
  rw [abs_le] at r1 r3 b1 b2
  rw [e1, abs_le]
  constructor <;> linarith [r1.1, r1.2, r3.1, r3.2, b1.1, b1.2, b2.1, b2.2, hN.1, hN.2]

end SatSky.Props
