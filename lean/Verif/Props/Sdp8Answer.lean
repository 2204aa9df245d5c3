import Verif.Props.Sdp8

/-! C159: what SDP8 answers. -/

namespace SatSky.Props

open Real SatSky.Sxp SatSky.Sgp8 SatSky.Sdp8 SatSky.Spec SatSky.Kep

/-- For an orbit without resonance: the elements before the periodic terms. -/
theorem elements8_free {fuel : ℕ} {cfg : Cfg} {e : Elem} (hr : (SDP8_init e).deep.res = .none) (s : State) (t : ℝ) :
    ∃ s' w, elements8 fuel cfg (SDP8_init e) e s t = some (s', w) ∧ w.xn = (SDP8_init e).deep.i.xnodp + (SDP8_init e).xndt * t ∧
      w.em = e.eo + (SDP8_init e).deep.sse * t + (SDP8_init e).edot * t + s'.per.pe ∧
      (s'.per = s.per ∨ s'.per = periodic (SDP8_init e).deep t) := by
  have hp : ∀ w : Work, (Deep_dpper cfg (SDP8_init e).deep e s t w).2.xn = w.xn ∧
      (Deep_dpper cfg (SDP8_init e).deep e s t w).2.em = w.em + (Deep_dpper cfg (SDP8_init e).deep e s t w).1.per.pe := by
    intro w
    unfold Deep_dpper applyPeriodic applyDirect applyLyddane
    dsimp only
    split_ifs <;> exact ⟨rfl, rfl⟩
  have hel : ∃ w0 : Work, elements8 fuel cfg (SDP8_init e) e s t = some (Deep_dpper cfg (SDP8_init e).deep e s t w0) ∧
      w0.xn = (SDP8_init e).deep.i.xnodp + (SDP8_init e).xndt * t ∧ w0.em = e.eo + (SDP8_init e).deep.sse * t + (SDP8_init e).edot * t := by
    unfold elements8 Deep_dpsec
    dsimp only
    rw [if_pos hr, Option.map_some]
    exact ⟨_, rfl, rfl, rfl⟩
  obtain ⟨w0, h1, h2, h3⟩ := hel
  refine ⟨_, _, h1, (hp w0).1.trans h2, (hp w0).2.trans (by rw [h3]; rfl), ?_⟩
  · unfold refresh
    split_ifs
    · exact .inr rfl
    · exact .inl rfl

/-- When drag has used up the mean motion, there is no position, and the code is 0. -/
theorem C159_motion (fuel : ℕ) (cfg : Cfg) {e : Elem} (hr : (SDP8_init e).deep.res = .none) (s : State) {t : ℝ}
    (ht : (SDP8_init e).deep.i.xnodp + (SDP8_init e).xndt * t ≤ 0) : ∃ s', SDP8 fuel cfg (SDP8_init e) e s t = some (s', 0, none) := by
  obtain ⟨s', w, h1, h2, -, -⟩ := elements8_free (fuel := fuel) (cfg := cfg) hr s t
  refine ⟨s', ?_⟩
  unfold SDP8
  rw [h1, Option.map_some]
  dsimp only
  unfold vectors8
  dsimp only
  rw [if_pos (.inl (by rw [h2]; exact ht))]

/-- The periodic terms of the eccentricity have a bound for all times. -/
theorem pe_bounded (c : Deep) (t : ℝ) : |(periodic c t).pe| ≤ |c.sun.e2| + |c.sun.e3| + (|c.moon.e2| + |c.moon.e3|) := by
  have h : ∀ zm ze, |(anomalies zm ze).1| ≤ 1 ∧ |(anomalies zm ze).2.1| ≤ 1 := by
    intro zm ze
    have := sin_sq_add_cos_sq (zm + 2 * ze * sin zm)
    unfold anomalies
    dsimp only
    generalize sin (zm + 2 * ze * sin zm) = S at *
    generalize cos (zm + 2 * ze * sin zm) = C at *
    refine ⟨abs_le.2 ⟨?_, ?_⟩, abs_le.2 ⟨?_, ?_⟩⟩ <;> nlinarith [sq_nonneg (S + C), sq_nonneg (S - C), sq_nonneg S, sq_nonneg C]
  have hm : ∀ a b : ℝ, |b| ≤ 1 → |a * b| ≤ |a| := fun a b hb => by rw [abs_mul]; nlinarith [abs_nonneg a]
  obtain ⟨a1, a2⟩ := h (c.zmos + znsMin * t) zes
  obtain ⟨a3, a4⟩ := h (c.zmol + znlMin * t) zel
  show |c.sun.e2 * _ + c.sun.e3 * _ + (c.moon.e2 * _ + c.moon.e3 * _)| ≤ _
  refine (abs_add_le _ _).trans (add_le_add ((abs_add_le _ _).trans (add_le_add (hm _ _ a1) (hm _ _ a2))) ((abs_add_le _ _).trans (add_le_add (hm _ _ a3) (hm _ _ a4))))

/-- If the eccentricity has a rate at all, SDP8 has no position from some time on, and returns 0 all the same. -/
theorem C159_far {e : Elem} (hr : (SDP8_init e).deep.res = .none) (hd : (SDP8_init e).deep.sse + (SDP8_init e).edot ≠ 0) (s : State) :
    ∃ T, ∀ t, T ≤ |t| → ∀ fuel cfg, ∃ s', SDP8 fuel cfg (SDP8_init e) e s t = some (s', 0, none) := by
  set c := (SDP8_init e).deep
  set r := c.sse + (SDP8_init e).edot with hrr
  set B := |c.sun.e2| + |c.sun.e3| + (|c.moon.e2| + |c.moon.e3|) + |s.per.pe| + |e.eo| + 1 with hB
  refine ⟨B / |r|, fun t ht fuel cfg => ?_⟩
  obtain ⟨s', w, h1, -, h3, h4⟩ := elements8_free (fuel := fuel) (cfg := cfg) hr s t
  have hpe : |s'.per.pe| ≤ |c.sun.e2| + |c.sun.e3| + (|c.moon.e2| + |c.moon.e3|) + |s.per.pe| := by
    rcases h4 with h | h
    · rw [h]; linarith [abs_nonneg c.sun.e2, abs_nonneg c.sun.e3, abs_nonneg c.moon.e2, abs_nonneg c.moon.e3]
    · rw [h]; linarith [pe_bounded c t, abs_nonneg s.per.pe]
  have hem : 1 ≤ |w.em| := by
    have h5 : w.em = r * t - (-(e.eo + s'.per.pe)) := by rw [h3, hrr]; ring
    rw [div_le_iff₀ (abs_pos.2 hd), mul_comm, ← abs_mul] at ht
    have h6 := abs_sub_abs_le_abs_sub (r * t) (-(e.eo + s'.per.pe))
    rw [abs_neg] at h6
    have h7 := abs_add_le e.eo s'.per.pe
    rw [h5]
    linarith
  refine ⟨s', ?_⟩
  unfold SDP8
  rw [h1, Option.map_some]
  dsimp only
  unfold vectors8
  dsimp only
  have h8 : w.em * w.em ≥ 1 := by
    rw [← abs_mul_abs_self]
    nlinarith
  rw [if_pos (.inr (.inl h8))]

/-- A circular orbit at four radii of the Earth, inclined so that the flattening does not enter the mean motion. -/
noncomputable def highCircle : Elem := ⟨0, 1 / 10 ^ 4, arccos (√(1 / 3)), 0, 0, 0, 0, xke / 8, 0⟩

theorem highCircle_orb : orbOf highCircle = ⟨4, xke / 8, 0, 0⟩ := by
  have hcos : cos highCircle.xincl * cos highCircle.xincl = 1 / 3 := lowCircle_cos 0
  have ht : tval highCircle = 0 := by
    unfold tval; rw [hcos]; norm_num
  have ha : a1 highCircle = 4 := by
    unfold a1
    have : xke / highCircle.xno = (2 : ℝ) ^ 3 := by
      show xke / (xke / 8) = _
      have := xke_pos'.ne'
      field_simp
      norm_num
    rw [this, ← rpow_natCast, ← rpow_mul (by norm_num)]
    norm_num
  unfold orbOf sxpall_common_init
  simp only [ao, delo, del1, ht, ha]
  norm_num [highCircle]

theorem highCircle_xndtn : 0 < xndtn (fixedOf highCircle) (orbOf highCircle) := by
  have hcos : cos highCircle.xincl * cos highCircle.xincl = 1 / 3 := lowCircle_cos 0
  have hb1 : b1 (fixedOf highCircle) = 0 := by
    have : (fixedOf highCircle).tthmun = cos highCircle.xincl * cos highCircle.xincl * 3 - 1 := rfl
    unfold b1; rw [this, hcos]; norm_num
  have hk := xke_pos'
  have hbs : (fixedOf highCircle).bstar = 1 / 10 ^ 4 := rfl
  have hs : 0 < (4 : ℝ) - sConst := by unfold sConst earthRadius; norm_num
  have hq : 0 < qoms2t := by unfold qoms2t; norm_num
  unfold xndtn xndt Sgp8.c1 Sgp8.c4 Sgp8.c5 c0 d3 d4
  rw [hb1, highCircle_orb]
  simp only [eta2, eta, eosq, eeta, alpha2, psim2, po, betao2, tsi, bOf, rho, hbs]
  norm_num
  positivity

theorem highCircle_free : (SDP8_init highCircle).deep.res = .none := by
  have h : (SDP8_init highCircle).deep.res = resonanceOf highCircle (init8 highCircle) := rfl
  have hn : (init8 highCircle).xnodp = xke / 8 := congrArg Orb.n highCircle_orb
  have hp := pi_lt_d2
  rw [h]
  unfold resonanceOf
  rw [if_neg (by rintro ⟨-, -, h3⟩; norm_num [highCircle] at h3), if_neg (by
    rintro ⟨h3, -⟩
    rw [hn] at h3
    unfold xke at h3
    norm_num at h3 hp
    linarith)]

/-- A circular orbit with drag: from some time on there is no position, and the code is 0. -/
theorem C159_code_violated (per : Periodic) :
    ∃ T, ∀ t, T ≤ t → ∀ fuel cfg, ∃ s', SDP8 fuel cfg (SDP8_init highCircle) highCircle ((SDP8_init highCircle).deep.start per) t = some (s', 0, none) := by
  have hse : (SDP8_init highCircle).deep.sse = 0 := by
    show (bodyTerms _ _ _ _ highCircle _).se + (bodyTerms _ _ _ _ highCircle _).se = 0
    have : highCircle.eo = 0 := rfl
    unfold bodyTerms
    simp only [this]
    ring
  have hed : (SDP8_init highCircle).edot = -(2 / 3) * xndtn (fixedOf highCircle) (orbOf highCircle) := by
    show _ * (1 - highCircle.eo) = _
    have : highCircle.eo = 0 := rfl
    rw [this]; ring
  obtain ⟨T, hT⟩ := C159_far highCircle_free (by rw [hse, hed]; have := highCircle_xndtn; linarith) ((SDP8_init highCircle).deep.start per)
  exact ⟨T, fun t ht => hT t (ht.trans (le_abs_self t))⟩

/-- The components fit into the unit disc, with the perturbed inclination in the large term and the inclination at the epoch in the small ones. -/
theorem disc_fits_perturbed {S' C' C D di s c : ℝ} (hsc : s ^ 2 + c ^ 2 = 1) (hSC : S' ^ 2 + C' ^ 2 = 1) (hC' : 1 / 18 ≤ C') (hC : |C| ≤ 1)
    (hD : |D| ≤ 31 / 1000) (hdi : |di| ≤ 1 / 500) :
    (S' * s + c * D + s * (1 / 2) * C * di) ^ 2 + (S' * c - s * D + c * (1 / 2) * C * di) ^ 2 ≤ 1 := by
  have e1 : (S' * s + c * D + s * (1 / 2) * C * di) ^ 2 + (S' * c - s * D + c * (1 / 2) * C * di) ^ 2 = (S' + 1 / 2 * (C * di)) ^ 2 + D ^ 2 := by
    linear_combination ((S' + 1 / 2 * (C * di)) ^ 2 + D ^ 2) * hsc
  rw [e1]
  have hD2 : D ^ 2 ≤ (31 / 1000) ^ 2 := by rw [← sq_abs]; gcongr
  have hx : |C * di| ≤ 1 * (1 / 500) := by rw [abs_mul]; gcongr
  have hS : |S'| ≤ 1 := by rw [abs_le]; constructor <;> nlinarith
  have hy : |S' * (C * di)| ≤ 1 * (1 * (1 / 500)) := by rw [abs_mul]; gcongr
  have hz : (C * di) ^ 2 ≤ (1 * (1 / 500)) ^ 2 := by rw [← sq_abs]; gcongr
  have := (abs_le.1 hy).2
  nlinarith

/-- For inclinations up to 172 degrees, before and after the perturbations, an orbit outside the Earth and an eccentricity up to 9/10 at the time asked
for, the answer is a position. -/
theorem C159_position_partial {fuel : ℕ} {cfg : Cfg} {e : Elem} {s s' : State} {t : ℝ} {w : Work} (hw : elements8 fuel cfg (SDP8_init e) e s t = some (s', w))
    (hn : 0 < w.xn) (he : 0 ≤ w.em) (he1 : w.em ≤ 9 / 10) (hq : 1 ≤ (xke / w.xn) ^ (2 / 3 : ℝ) * (1 - w.em)) (h0 : 0 ≤ e.xincl)
    (h1 : e.xincl ≤ 24 / 25 * π) (hx : |w.xinc| ≤ 24 / 25 * π) :
    ∃ r : Short8, SDP8 fuel cfg (SDP8_init e) e s t = some (s', 0, some (posVel8 r)) ∧ r.y4 ^ 2 + r.y5 ^ 2 ≤ 1 := by
  have hpi := pi_pos
  have hcos : ∀ i, |i| ≤ 24 / 25 * π → 1 / 18 ≤ cos (i / 2) := by
    intro i hi
    have hp1 := pi_gt_d2
    have hp2 := pi_lt_d2
    have h2 : cos (12 / 25 * π) ≤ cos (|i| / 2) := cos_le_cos_of_nonneg_of_le_pi (by positivity) (by linarith) (by linarith)
    have h6 : cos (|i| / 2) = cos (i / 2) := by rw [← cos_abs (i / 2), abs_div, abs_two]
    have h3 : sin (π / 50) = cos (12 / 25 * π) := by rw [← cos_pi_div_two_sub]; congr 1; ring
    have h4 := sin_gt_sub_cube (x := π / 50) (by positivity)
    have h5 : (π / 50) ^ 3 ≤ (3.15 / 50) ^ 3 := by gcongr
    norm_num at h5 hp1
    linarith
  have hC := hcos e.xincl (by rw [abs_of_nonneg h0]; exact h1)
  have hC' := hcos w.xinc hx
  have hS : 0 ≤ sin (e.xincl / 2) := sin_nonneg_of_nonneg_of_le_pi (by linarith) (by linarith)
  set M := Geo.FMod2p w.xll with hMd
  have hM : 0 ≤ M ∧ M < 2 * π := ⟨(C40_FMod2p _).1, (C40_FMod2p _).2.1⟩
  have hhalf := C150_same_half he he1 hM.1 hM.2
  set E := anomaly8 w.em M with hE
  obtain ⟨f1, f2, f3, f4⟩ := fm8_polar he (by linarith) E
  have hfM : |fm8 w.em E - M| ≤ π := by
    rw [abs_le]
    rcases le_or_gt M π with h | h
    · have := hhalf.1 h; constructor <;> linarith [this.1, this.2, hM.1]
    · have := hhalf.2 h; constructor <;> linarith [this.1, this.2, hM.2]
  have hci : 0 < cos e.xincl + 1 := by
    have : cos e.xincl = 2 * cos (e.xincl / 2) ^ 2 - 1 := by rw [← cos_two_mul]; congr 1; ring
    nlinarith
  have key : (shortD ck2 a3ovk2 (SDP8_init e) w M E).y4 ^ 2 + (shortD ck2 a3ovk2 (SDP8_init e) w M E).y5 ^ 2 ≤ 1 := by
    have hden : 0 < 1 - w.em * cos E := by nlinarith [neg_one_le_cos E, cos_le_one E]
    have hsn : √(1 - w.em * w.em) * sin E * (1 / (1 - w.em * cos E)) = sin (fm8 w.em E) := by rw [f2]; field_simp
    have hcs : (cos E - w.em) * (1 / (1 - w.em * cos E)) = cos (fm8 w.em E) := by rw [f1]; field_simp
    have k1 : (SDP8_init e).c.sini2 = sin (e.xincl / 2) := by show sin (e.xincl * (1 / 2)) = _; congr 1; ring
    have k2 : (SDP8_init e).c.cosi2 = cos (e.xincl / 2) := by show cos (e.xincl * (1 / 2)) = _; congr 1; ring
    have k3 : (SDP8_init e).c.unm5th = 1 - cos e.xincl * cos e.xincl * 5 := rfl
    have k4 : (SDP8_init e).deep.i.sinio = sin e.xincl := rfl
    have k5 : (SDP8_init e).deep.i.cosio = cos e.xincl := rfl
    have k6 : (SDP8_init e).deep.i.cosio2 = cos e.xincl * cos e.xincl := rfl
    unfold shortD
    dsimp only
    rw [hsn, hcs, k1, k2, k3, k4, k5, k6, show w.xinc * (1 / 2) = w.xinc / 2 by ring]
    have hs' : sin (fm8 w.em E) * cos w.omgadf + cos (fm8 w.em E) * sin w.omgadf = sin (fm8 w.em E + w.omgadf) := (sin_add _ _).symm
    have hc' : cos (fm8 w.em E) * cos w.omgadf - sin (fm8 w.em E) * sin w.omgadf = cos (fm8 w.em E + w.omgadf) := (cos_add _ _).symm
    rw [hs', hc']
    have hpm : 1 ≤ (xke / w.xn) ^ (2 / 3 : ℝ) * (1 - w.em * w.em) := outside_latus hq he
    have hg1 : 1 / ((xke / w.xn) ^ (2 / 3 : ℝ) * (1 - w.em * w.em)) ≤ 1 := by rw [div_le_one (by linarith)]; exact hpm
    have hg0 : 0 < 1 / ((xke / w.xn) ^ (2 / 3 : ℝ) * (1 - w.em * w.em)) := by positivity
    generalize 1 / ((xke / w.xn) ^ (2 / 3 : ℝ) * (1 - w.em * w.em)) = g1 at *
    obtain ⟨hg3, hg5⟩ := coefficients_small hg0 hg1
    generalize ck2 * (1 / 2) * g1 * g1 = g3 at *
    generalize a3ovk2 * (1 / 4) * g1 = g5 at *
    have hu := sin_sq_add_cos_sq (fm8 w.em E + w.omgadf)
    have hi2 := sin_sq_add_cos_sq (e.xincl / 2)
    have hi3 := sin_sq_add_cos_sq (w.xinc / 2)
    have hes : |w.em * sin (fm8 w.em E)| ≤ 9 / 10 := half_mul he he1 (abs_sin_le_one (fm8 w.em E))
    have hec : |w.em * cos (fm8 w.em E)| ≤ 9 / 10 := half_mul he he1 (abs_cos_le_one (fm8 w.em E))
    have hax : |w.em * cos w.omgadf| ≤ 9 / 10 := half_mul he he1 (abs_cos_le_one w.omgadf)
    have hay : |w.em * sin w.omgadf| ≤ 9 / 10 := half_mul he he1 (abs_sin_le_one w.omgadf)
    have hg10 : |fm8 w.em E - M + w.em * sin (fm8 w.em E)| ≤ 81 / 20 := by
      refine (abs_add_le _ _).trans ?_
      have := pi_lt_d2
      norm_num at this
      linarith
    have hC2 : cos e.xincl * cos e.xincl ≤ 1 := by rw [← sq]; exact cos_sq_le_one _
    have hC20 : 0 ≤ cos e.xincl * cos e.xincl := mul_self_nonneg _
    have hsl := abs_sin_le_one e.xincl
    have hcl := abs_cos_le_one e.xincl
    generalize fm8 w.em E - M + w.em * sin (fm8 w.em E) = g10 at *
    generalize w.em * cos (fm8 w.em E) = ecosf at *
    generalize w.em * cos w.omgadf = axn at *
    generalize w.em * sin w.omgadf = ayn at *
    generalize cos e.xincl * cos e.xincl = C2 at *
    have hc1 := abs_cos_le_one (fm8 w.em E + w.omgadf)
    have hCa := abs_cos_le_one (e.xincl / 2)
    generalize sin (fm8 w.em E + w.omgadf) = sn at *
    generalize cos (fm8 w.em E + w.omgadf) = cs at *
    generalize sin (e.xincl / 2) = S at *
    generalize cos (e.xincl / 2) = C at *
    obtain ⟨b1, b2⟩ := disc_small hu hi2 hS (by linarith) hg3 hg5 hC20 hC2 hg10 hec hax hay hsl hcl hc1
    exact disc_fits_perturbed hu hi3 hC' hCa b1 b2
  refine ⟨shortD ck2 a3ovk2 (SDP8_init e) w M E, ?_, key⟩
  unfold SDP8
  rw [hw, Option.map_some]
  dsimp only
  unfold vectors8
  dsimp only
  rw [← hMd, ← hE, if_neg]
  rintro (h | h | h | h | h)
  · linarith
  · nlinarith
  · have : (SDP8_init e).c.cosi2 = cos (e.xincl / 2) := by show cos (e.xincl * (1 / 2)) = _; congr 1; ring
    rw [this] at h
    linarith
  · have : (SDP8_init e).deep.i.cosio = cos e.xincl := rfl
    rw [this] at h
    linarith
  · nlinarith

/-- The circular orbit at the epoch, when the periodic terms kept from an earlier call are zero. -/
example : ∃ s r, SDP8 1 .initial (SDP8_init highCircle) highCircle ⟨0, 0, 0, 0, ⟨0, 0, 0, 0, 0⟩⟩ 0 = some (s, 0, some (posVel8 r)) := by
  obtain ⟨s', w, h1, h2, h3, h4⟩ := elements8_free (fuel := 1) (cfg := .initial) highCircle_free ⟨0, 0, 0, 0, ⟨0, 0, 0, 0, 0⟩⟩ 0
  have hs : s' = ⟨0, 0, 0, 0, ⟨0, 0, 0, 0, 0⟩⟩ ∧ w.xinc = highCircle.xincl := by
    unfold elements8 Deep_dpsec at h1
    dsimp only at h1
    rw [if_pos highCircle_free, Option.map_some] at h1
    unfold Deep_dpper refresh applyPeriodic applyDirect applyLyddane drag8 at h1
    simp only [Cfg.initial, sub_zero, abs_zero, ge_iff_le, Bool.false_eq_true, or_false, Option.some.injEq, Prod.mk.injEq] at h1
    rw [if_neg (by norm_num)] at h1
    refine ⟨h1.1.symm, ?_⟩
    have := congrArg Work.xinc h1.2
    split_ifs at this <;> simpa using this.symm
  have hk := xke_pos'
  have hn : (SDP8_init highCircle).deep.i.xnodp = xke / 8 := congrArg Orb.n highCircle_orb
  have hxn : w.xn = xke / 8 := by rw [h2, hn]; ring
  have hem : w.em = 0 := by rw [h3, hs.1]; show (0 : ℝ) + _ * 0 + _ * 0 + 0 = 0; ring
  have h5 : 0 ≤ highCircle.xincl := arccos_nonneg _
  have h6 : highCircle.xincl ≤ π / 2 := arccos_le_pi_div_two.2 (sqrt_nonneg _)
  have hpi := pi_pos
  obtain ⟨r, hr, -⟩ := C159_position_partial h1 (by rw [hxn]; positivity) hem.ge (by rw [hem]; norm_num) (by
    rw [hxn, hem, show xke / (xke / 8) = 8 by field_simp, sub_zero, mul_one]
    exact one_le_rpow (by norm_num) (by norm_num)) h5 (by linarith) (by rw [hs.2, abs_of_nonneg h5]; linarith)
  exact ⟨s', r, hr⟩

end SatSky.Props
