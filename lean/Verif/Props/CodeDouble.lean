import Verif.Model.CodeDouble
import Verif.Props.StepDouble
import Verif.Props.Kepler

/-! C208: `sxpx_posn_vel` in `double` arithmetic beside the same function in exact arithmetic. -/

namespace SatSky.Props

open SatSky.Spec SatSky.Geo SatSky.Relative SatSky.Sxp SatSky.Kep

theorem elliptic_low (F : Fl64) {x y : ℚ} (h : (x : ℝ) ^ 2 + (y : ℝ) ^ 2 ≤ (39 / 100) ^ 2) : ellipticD F x y = true := by
  have hq : x * x + y * y ≤ 16 / 100 := by
    have : ((x * x + y * y : ℚ) : ℝ) ≤ ((16 / 100 : ℚ) : ℝ) := by push_cast; nlinarith
    exact_mod_cast this
  have px : 0 ≤ x * x := mul_self_nonneg x
  have py : 0 ≤ y * y := mul_self_nonneg y
  have a1 : |F.rnd (x * x) - x * x| ≤ 1 / 10 ^ 10 := rnd_rat F (e := 0) (A := 1) (by simp) (by rw [abs_of_nonneg px]; linarith) (by norm_num)
  have a2 : |F.rnd (y * y) - y * y| ≤ 1 / 10 ^ 10 := rnd_rat F (e := 0) (A := 1) (by simp) (by rw [abs_of_nonneg py]; linarith) (by norm_num)
  have a3 : |F.rnd (F.rnd (x * x) + F.rnd (y * y)) - (x * x + y * y)| ≤ 3 / 10 ^ 10 :=
    rnd_rat F (e := 2 / 10 ^ 10) (A := 1) (by rw [abs_le] at *; constructor <;> linarith [a1.1, a1.2, a2.1, a2.2])
      (by rw [abs_of_nonneg (by linarith)]; linarith) (by norm_num)
  have c1 : |F.rnd (1 / 10 ^ 6) - 1 / 10 ^ 6| ≤ 1 / 10 ^ 10 := rnd_rat F (e := 0) (A := 1) (by simp) (by norm_num [abs_of_pos]) (by norm_num)
  have c2 : |F.rnd (1 - F.rnd (1 / 10 ^ 6)) - (1 - 1 / 10 ^ 6)| ≤ 2 / 10 ^ 10 :=
    rnd_rat F (e := 1 / 10 ^ 10) (A := 1) (by rw [abs_le] at *; constructor <;> linarith [c1.1, c1.2]) (by norm_num [abs_of_pos]) (by norm_num)
  unfold ellipticD
  rw [decide_eq_true_iff]
  linarith [(abs_le.1 a3).2, (abs_le.1 c2).1]

theorem long_near7 (F : Fl64) (M : Libm) {xnode a ecc cosio sinio omega xl : ℚ} (he : |(ecc : ℝ)| ≤ 4 / 10) (ha : (9 / 10 : ℝ) ≤ a) (ha1 : (a : ℝ) ≤ 100)
    (hc : |(cosio : ℝ)| ≤ 1) (hc1 : (-9 / 10 : ℝ) ≤ cosio) (hs : |(sinio : ℝ)| ≤ 1) (hl : |(xl : ℝ)| ≤ 7000) (hn : |(xnode : ℝ)| ≤ 100) :
    |(longD F M xnode a ecc cosio sinio omega xl : ℝ) -
      (xl + 1 / (a * (1 - ecc * ecc)) * (1 / 8 * a3ovk2 * sinio * (3 + 5 * cosio) / (1 + cosio)) * (ecc * Real.cos omega) - xnode)| ≤ 157 / 10 ^ 14 ∧
    |xl + 1 / (a * (1 - ecc * ecc)) * (1 / 8 * a3ovk2 * sinio * (3 + 5 * cosio) / (1 + cosio)) * (ecc * Real.cos omega) - xnode| ≤ 7101 := by
  obtain ⟨x, xb, _, _⟩ := axn_near F M (omega := omega) he
  obtain ⟨t, tb⟩ := ltemp_near F he ha ha1
  obtain ⟨k, kb⟩ := xlcof_near F hc hc1 hs
  obtain ⟨g1, g1b⟩ := mulr F t k tb kb (E := 1 / 10 ^ 15) (by norm_num)
  obtain ⟨g2, g2b⟩ := mulr F g1 x g1b xb (E := 1 / 10 ^ 15) (by norm_num)
  unfold longD
  generalize 1 / (a * (1 - ecc * ecc)) * (1 / 8 * a3ovk2 * sinio * (3 + 5 * cosio) / (1 + cosio)) * (ecc * Real.cos omega) = G at *
  have b1 : |xl + G| ≤ 7001 := (abs_add_le _ _).trans (by linarith)
  have b2 : |xl + G - xnode| ≤ 7101 := (abs_sub _ _).trans (by linarith)
  have s1 := addr F (self0 xl) g2 b1 (E := 780 / 10 ^ 15) (by norm_num)
  exact ⟨subr F s1 (self0 xnode) b2 (by norm_num), b2⟩

theorem capu_near7 (F : Fl64) {w : ℚ} {W : ℝ} (hw : |(w : ℝ) - W| ≤ 157 / 10 ^ 14) (hW : |W| ≤ 7101) :
    ∃ k : ℤ, |(centralizeD F w : ℝ) - (centralize_angle W + 2 * Real.pi * k)| ≤ 21 / 10 ^ 13 := by
  obtain ⟨hb, k, hk⟩ := C203_centralize F w
  obtain ⟨_, _, j, hj⟩ := C40_centralize W
  have hb' : |(centralizeD F w : ℝ)| ≤ 32 / 10 := by
    have := abs_real (x := centralizeD F w) (E := 32 / 10) (hb.trans (by unfold piD; norm_num))
    simpa using this
  have hp3 := Real.pi_gt_three
  have hkb : |(k : ℝ)| ≤ 1200 := by
    have h1 : 2 * 3 * |(k : ℝ)| ≤ |2 * Real.pi * k| := by
      rw [abs_mul, abs_of_pos (by linarith : 0 < 2 * Real.pi)]
      exact mul_le_mul_of_nonneg_right (by linarith) (abs_nonneg _)
    have k0 := abs_nonneg (k : ℝ)
    generalize |(k : ℝ)| = K at *
    have h2 : |2 * Real.pi * k| ≤ 4 / 10 ^ 16 * K + 7106 := by
      rw [abs_le] at *
      constructor <;> linarith [hk.1, hk.2, hb'.1, hb'.2, hw.1, hw.2, hW.1, hW.2]
    linarith
  refine ⟨k - j, ?_⟩
  have e : (centralizeD F w : ℝ) - (centralize_angle W + 2 * Real.pi * ((k - j : ℤ) : ℝ)) = (centralizeD F w - (w + 2 * Real.pi * k)) + (w - W) := by
    rw [hj]; push_cast; ring
  rw [e]
  refine (abs_add_le _ _).trans ?_
  linarith

/-- The position of `double` beside the position for an eccentric longitude that exact arithmetic accepts. -/
theorem sxpxPos_near (F : Fl64) (M : GeoLib) {xnode a ecc cosio sinio xincl omega xl : ℚ} (m : Mean)
    (hm : m = ⟨xnode, a, ecc, cosio, sinio, xincl, omega, xl⟩) (h : m.axn ^ 2 + m.ayn ^ 2 ≤ (38 / 100) ^ 2)
    (he : |(ecc : ℝ)| ≤ 4 / 10) (ha : (9 / 10 : ℝ) ≤ a) (ha1 : (a : ℝ) ≤ 100) (hn : |(xnode : ℝ)| ≤ 100) (hi : |(xincl : ℝ)| ≤ 100)
    (hc : |(cosio : ℝ)| ≤ 1) (hc1 : (-9 / 10 : ℝ) ≤ cosio) (hs : |(sinio : ℝ)| ≤ 1) (hl : |(xl : ℝ)| ≤ 7000)
    {R : ℝ} (hR : |keplerRes m.axn m.ayn m.capu R| < 1 / 10 ^ 12) :
    ellipticD F (axnD F M.toLibm ecc omega) (aynD F M.toLibm a ecc sinio omega) = true ∧
    ∃ p : ℚ × ℚ × ℚ, sxpxPosD F M xnode a ecc cosio sinio xincl omega xl = some p ∧
      |(p.1 : ℝ) - (posVel m R).1.x| ≤ 23 / 10 ^ 7 * a ∧ |(p.2.1 : ℝ) - (posVel m R).1.y| ≤ 23 / 10 ^ 7 * a ∧
      |(p.2.2 : ℝ) - (posVel m R).1.z| ≤ 23 / 10 ^ 7 * a := by
  have ex : |(axnD F M.toLibm ecc omega : ℝ) - m.axn| ≤ 3 / 10 ^ 16 := by rw [hm]; exact (axn_near F M.toLibm he).1
  have ey : |(aynD F M.toLibm a ecc sinio omega : ℝ) - m.ayn| ≤ 4 / 10 ^ 16 := by rw [hm]; exact ayn_near F M.toLibm he ha ha1 hs
  obtain ⟨k, hk⟩ : ∃ k : ℤ, |(centralizeD F (longD F M.toLibm xnode a ecc cosio sinio omega xl) : ℝ) - (m.capu + 2 * Real.pi * k)| ≤ 21 / 10 ^ 13 := by
    obtain ⟨l1, l2⟩ := long_near7 F M.toLibm (omega := omega) he ha ha1 hc hc1 hs hl hn
    rw [hm]
    exact capu_near7 F l1 l2
  unfold sxpxPosD posnD posVel
  generalize axnD F M.toLibm ecc omega = x at *
  generalize aynD F M.toLibm a ecc sinio omega = y at *
  generalize longD F M.toLibm xnode a ecc cosio sinio omega xl = w at *
  have hm' : m.a = a ∧ m.xnode = xnode ∧ m.xincl = xincl ∧ m.cosio = cosio ∧ m.sinio = sinio := by rw [hm]; exact ⟨rfl, rfl, rfl, rfl, rfl⟩
  have hpv := posVelOf_turn m.axn m.ayn m
  generalize m.capu = L at *
  generalize m.axn = X at *
  generalize m.ayn = Y at *
  have h39 : X ^ 2 + Y ^ 2 ≤ (39 / 100) ^ 2 := h.trans (by norm_num)
  obtain ⟨bx, by'⟩ := comp_39 h39
  have hxy : (x : ℝ) ^ 2 + (y : ℝ) ^ 2 ≤ (39 / 100) ^ 2 := by
    have q1 := mul_real ex ex bx bx
    have q2 := mul_real ey ey by' by'
    have := (abs_le.1 q1).2
    have := (abs_le.1 q2).2
    nlinarith
  refine ⟨elliptic_low F hxy, ?_⟩
  obtain ⟨E, R1, h1, h2, h3⟩ := C204_solved F M.toLibm x y w ecc hxy
  rw [keplerEq_iff] at h2
  have hnear := near (e := 39 / 100) (by norm_num) (by norm_num) hxy (E := R + 2 * Real.pi * k) h2
  have hcos : Real.cos (R + 2 * Real.pi * k) = Real.cos R := by rw [mul_comm (2 * Real.pi)]; exact Real.cos_add_int_mul_two_pi R k
  have hsin : Real.sin (R + 2 * Real.pi * k) = Real.sin R := by rw [mul_comm (2 * Real.pi)]; exact Real.sin_add_int_mul_two_pi R k
  have hres : |keplerRes x y (centralizeD F w) (R + 2 * Real.pi * k)| ≤ 3101 / 10 ^ 15 := by
    have p1 : |((x : ℝ) - X) * Real.sin R| ≤ 3 / 10 ^ 16 := by
      rw [abs_mul]
      exact (mul_le_mul ex (Real.abs_sin_le_one R) (abs_nonneg _) (by norm_num)).trans (by norm_num)
    have p2 : |((y : ℝ) - Y) * Real.cos R| ≤ 4 / 10 ^ 16 := by
      rw [abs_mul]
      exact (mul_le_mul ey (Real.abs_cos_le_one R) (abs_nonneg _) (by norm_num)).trans (by norm_num)
    have hR' := hR.le
    unfold keplerRes at hR' ⊢
    rw [hcos, hsin]
    clear hR
    rw [abs_le] at *
    constructor <;> linarith [p1.1, p1.2, p2.1, p2.2, hk.1, hk.2, hR'.1, hR'.2]
  have hE : |(E : ℝ) - (R + 2 * Real.pi * k)| ≤ 7 / 10 ^ 12 := by
    have e1 : |keplerRes x y (centralizeD F w) (R + 2 * Real.pi * k)| / (1 - 39 / 100) ≤ 51 / 10 ^ 13 := by
      rw [div_le_iff₀ (by norm_num)]; linarith
    clear hR
    rw [abs_le] at *
    constructor <;> linarith [h3.1, h3.2, hnear.1, hnear.2, e1]
  have key := shortPos_near_w F M m hm' h39 (ex.trans (by norm_num)) (ey.trans (by norm_num)) hE ha ha1 hn hi hc hs
  rw [hpv R k] at key
  refine ⟨_, ?_, key⟩
  rw [h1]
  rfl

/-- What the exact function gives for such an orbit. -/
theorem sxpx_low (m : Mean) (h : m.axn ^ 2 + m.ayn ^ 2 ≤ (38 / 100) ^ 2) (ha : 0 ≤ m.a) :
    (sxpx_posn_vel m).1 = (if m.a * (1 - m.ecc) < 1 ∨ m.a * (1 + m.ecc) < 1 then -4 else 0) ∧
    ∃ R, |keplerRes m.axn m.ayn m.capu R| < 1 / 10 ^ 12 ∧ (sxpx_posn_vel m).2.1 = (posVel m R).1 := by
  obtain ⟨R, hR⟩ := (C92_converges m.axn m.ayn m.capu m.ecc (h.trans (by norm_num))).1
  have hel : ¬ (m.axn * m.axn + m.ayn * m.ayn > 1 - 1 / 10 ^ 6) := by
    rw [not_lt]
    have : (1 : ℝ) / 10 ^ 6 ≤ 1 / 2 := by norm_num
    nlinarith
  unfold sxpx_posn_vel
  dsimp only
  rw [if_neg (not_lt.2 ha), if_neg hel, if_neg (by simp), hR]
  refine ⟨?_, R, ?_, rfl⟩
  · dsimp only
    by_cases hq : m.a * (1 - m.ecc) < 1 ∨ m.a * (1 + m.ecc) < 1
    · rw [if_pos hq, if_pos hq]
    · rw [if_neg hq, if_neg hq, if_neg (fun c => hq (Or.inl c.1))]
  · have := C49_residual hR
    unfold keplerRes
    rw [abs_lt] at *
    constructor <;> linarith [this.1, this.2]

/-- **C208**: for an axis of 0.9 to 100 Earth radii, an eccentricity of at most 0.38 with the long-period terms, an inclination of at most 154 degrees and
a mean longitude of at most 7000 radians `sxpx_posn_vel` in `double` gives no error (only the warning -4, when its own perigee or apogee is below 1), and each coordinate of its position differs by at most
`2.3 * 10 ^ -6` km per Earth radius of the axis from that of the same function in exact arithmetic. -/
theorem C208_position (F : Fl64) (M : GeoLib) {xnode a ecc cosio sinio xincl omega xl : ℚ} (m : Mean)
    (hm : m = ⟨xnode, a, ecc, cosio, sinio, xincl, omega, xl⟩) (h : m.axn ^ 2 + m.ayn ^ 2 ≤ (38 / 100) ^ 2)
    (he : |(ecc : ℝ)| ≤ 4 / 10) (ha : (9 / 10 : ℝ) ≤ a) (ha1 : (a : ℝ) ≤ 100) (hn : |(xnode : ℝ)| ≤ 100) (hi : |(xincl : ℝ)| ≤ 100)
    (hc : |(cosio : ℝ)| ≤ 1) (hc1 : (-9 / 10 : ℝ) ≤ cosio) (hs : |(sinio : ℝ)| ≤ 1) (hl : |(xl : ℝ)| ≤ 7000) :
    let r := sxpxD F M xnode a ecc cosio sinio xincl omega xl
    let s := (sxpx_posn_vel m).2.1
    r.1 = (if F.rnd (a * F.rnd (1 - ecc)) < 1 ∨ F.rnd (a * F.rnd (1 + ecc)) < 1 then -4 else 0) ∧
      |(r.2.1 : ℝ) - s.x| ≤ 23 / 10 ^ 7 * a ∧ |(r.2.2.1 : ℝ) - s.y| ≤ 23 / 10 ^ 7 * a ∧ |(r.2.2.2 : ℝ) - s.z| ≤ 23 / 10 ^ 7 * a := by
  intro r s
  have hma : m.a = a := by rw [hm]
  obtain ⟨_, R, hR, hs'⟩ := sxpx_low m h (by rw [hma]; linarith)
  obtain ⟨hel, p, hp, key⟩ := sxpxPos_near F M m hm h he ha ha1 hn hi hc hc1 hs hl hR
  have ha0 : ¬ a < 0 := by
    have : (0 : ℝ) ≤ a := by linarith
    exact not_lt.2 (by exact_mod_cast this)
  have hr : r = ((if F.rnd (a * F.rnd (1 - ecc)) < 1 ∨ F.rnd (a * F.rnd (1 + ecc)) < 1 then -4 else 0), p) := by
    show sxpxD F M xnode a ecc cosio sinio xincl omega xl = _
    unfold sxpxD
    dsimp only
    rw [if_neg ha0, if_pos hel, if_neg (by simp), hp]
    dsimp only
    by_cases hq : F.rnd (a * F.rnd (1 - ecc)) < 1 ∨ F.rnd (a * F.rnd (1 + ecc)) < 1
    · rw [if_pos hq, if_pos hq]
    · rw [if_neg hq, if_neg hq, if_neg (fun c => hq (Or.inl c.1))]
  rw [hr]
  show _ ∧ |(p.1 : ℝ) - (sxpx_posn_vel m).2.1.x| ≤ _ ∧ |(p.2.1 : ℝ) - (sxpx_posn_vel m).2.1.y| ≤ _ ∧ |(p.2.2 : ℝ) - (sxpx_posn_vel m).2.1.z| ≤ _
  rw [hs']
  exact ⟨rfl, key⟩

/-- Perigee and apogee are compared with the surface as in exact arithmetic, unless they are within `10 ^ -15` Earth radii of it. -/
theorem apsis_test (F : Fl64) {a z w : ℚ} (ha : (9 / 10 : ℝ) ≤ a) (hw : z = F.rnd w) (h0 : (1 / 2 : ℝ) ≤ w)
    (hgap : 1 / 10 ^ 15 ≤ |(a : ℝ) * w - 1|) : F.rnd (a * z) < 1 ↔ (a : ℝ) * w < 1 := by
  have hwp : (0 : ℝ) < w := by linarith
  have r1 : Rel (12 / 10 ^ 17) z (w : ℝ) := by
    rw [hw]
    exact Rel.rnd F (a := 0) (Rel.refl _) (le_trans (by norm_num) h0) (by norm_num)
  have P0 : (45 / 100 : ℝ) ≤ a * w := by
    have := mul_le_mul ha h0 (by norm_num) (by linarith)
    linarith
  have r2 : Rel (3 / 10 ^ 16) (F.rnd (a * z)) (a * w : ℝ) := by
    refine Rel.rnd F (a := 12 / 10 ^ 17) ?_ (le_trans (by norm_num) P0) (by norm_num)
    push_cast
    exact Rel.mul (Rel.refl _) r1 (by linarith) hwp le_rfl (by norm_num)
  unfold Rel at r2
  obtain ⟨u, v⟩ := abs_le.1 r2
  have c : F.rnd (a * z) < 1 ↔ (F.rnd (a * z) : ℝ) < 1 := by
    constructor <;> intro h <;> exact_mod_cast h
  rw [c]
  generalize (F.rnd (a * z) : ℝ) = f at *
  generalize (a * w : ℝ) = V at *
  rcases le_abs.1 hgap with g | g
  · constructor <;> intro h <;> nlinarith
  · constructor <;> intro h <;> nlinarith

/-- **C208**: and the code is that of exact arithmetic, unless the perigee or the apogee is within `10 ^ -15` Earth radii (6 nm) of the surface. -/
theorem C208_code (F : Fl64) (M : GeoLib) {xnode a ecc cosio sinio xincl omega xl : ℚ} (m : Mean)
    (hm : m = ⟨xnode, a, ecc, cosio, sinio, xincl, omega, xl⟩) (h : m.axn ^ 2 + m.ayn ^ 2 ≤ (38 / 100) ^ 2)
    (he : |(ecc : ℝ)| ≤ 4 / 10) (ha : (9 / 10 : ℝ) ≤ a) (ha1 : (a : ℝ) ≤ 100) (hn : |(xnode : ℝ)| ≤ 100) (hi : |(xincl : ℝ)| ≤ 100)
    (hc : |(cosio : ℝ)| ≤ 1) (hc1 : (-9 / 10 : ℝ) ≤ cosio) (hs : |(sinio : ℝ)| ≤ 1) (hl : |(xl : ℝ)| ≤ 7000)
    (gp : 1 / 10 ^ 15 ≤ |(a : ℝ) * (1 - ecc) - 1|) (ga : 1 / 10 ^ 15 ≤ |(a : ℝ) * (1 + ecc) - 1|) :
    (sxpxD F M xnode a ecc cosio sinio xincl omega xl).1 = (sxpx_posn_vel m).1 := by
  have h1 := (C208_position F M m hm h he ha ha1 hn hi hc hc1 hs hl).1
  have hma : m.a = a := by rw [hm]
  have hme : m.ecc = ecc := by rw [hm]
  have h2 := (sxpx_low m h (by rw [hma]; linarith)).1
  obtain ⟨e0, e1⟩ := abs_le.1 he
  have t1 := apsis_test F (w := 1 - ecc) ha rfl (by push_cast; linarith) (by push_cast; exact gp)
  have t2 := apsis_test F (w := 1 + ecc) ha rfl (by push_cast; linarith) (by push_cast; exact ga)
  push_cast at t1 t2
  rw [h2, hma, hme]
  rw [h1]
  exact if_congr (or_congr t1 t2) rfl rfl

/-- An orbit of 430 km height, 1000 radians after the epoch: code 0 in `double`, for every rounding and library. -/
example (F : Fl64) (M : GeoLib) : (sxpxD F M 2 (171 / 160) (1 / 900) (1 / 2) (13 / 15) (22 / 21) 0 1000).1 = 0 := by
  have hb : ((⟨(2 : ℚ), (171 / 160 : ℚ), (1 / 900 : ℚ), (1 / 2 : ℚ), (13 / 15 : ℚ), (22 / 21 : ℚ), (0 : ℚ), (1000 : ℚ)⟩ : Mean).axn) ^ 2 +
      ((⟨(2 : ℚ), (171 / 160 : ℚ), (1 / 900 : ℚ), (1 / 2 : ℚ), (13 / 15 : ℚ), (22 / 21 : ℚ), (0 : ℚ), (1000 : ℚ)⟩ : Mean).ayn) ^ 2 ≤ (38 / 100 : ℝ) ^ 2 := by
    unfold Mean.axn Mean.ayn Mean.temp a3ovk2 ck2 xj2
    push_cast
    rw [Real.cos_zero, Real.sin_zero]
    norm_num
  rw [C208_code F M (xnode := 2) (a := 171 / 160) (ecc := 1 / 900) (cosio := 1 / 2) (sinio := 13 / 15) (xincl := 22 / 21) (omega := 0)
    (xl := 1000) _ rfl hb (by norm_num [abs_of_pos]) (by norm_num) (by norm_num) (by norm_num [abs_of_pos]) (by norm_num [abs_of_pos]) (by norm_num [abs_of_pos])
    (by norm_num) (by norm_num [abs_of_pos]) (by norm_num [abs_of_pos]) (by norm_num [abs_of_pos, abs_of_neg]) (by norm_num [abs_of_pos, abs_of_neg]), (sxpx_low _ hb (by norm_num)).1]
  norm_num

/-- The same axis with an eccentricity of 1/4 has its perigee within the Earth: the warning -4, and a position all the same. -/
example (F : Fl64) (M : GeoLib) : (sxpxD F M 2 (171 / 160) (1 / 4) (1 / 2) (13 / 15) (22 / 21) 0 1000).1 = -4 := by
  have hb : ((⟨(2 : ℚ), (171 / 160 : ℚ), (1 / 4 : ℚ), (1 / 2 : ℚ), (13 / 15 : ℚ), (22 / 21 : ℚ), (0 : ℚ), (1000 : ℚ)⟩ : Mean).axn) ^ 2 +
      ((⟨(2 : ℚ), (171 / 160 : ℚ), (1 / 4 : ℚ), (1 / 2 : ℚ), (13 / 15 : ℚ), (22 / 21 : ℚ), (0 : ℚ), (1000 : ℚ)⟩ : Mean).ayn) ^ 2 ≤ (38 / 100 : ℝ) ^ 2 := by
    unfold Mean.axn Mean.ayn Mean.temp a3ovk2 ck2 xj2
    push_cast
    rw [Real.cos_zero, Real.sin_zero]
    norm_num
  rw [C208_code F M (xnode := 2) (a := 171 / 160) (ecc := 1 / 4) (cosio := 1 / 2) (sinio := 13 / 15) (xincl := 22 / 21) (omega := 0)
    (xl := 1000) _ rfl hb (by norm_num [abs_of_pos]) (by norm_num) (by norm_num) (by norm_num [abs_of_pos]) (by norm_num [abs_of_pos]) (by norm_num [abs_of_pos])
    (by norm_num) (by norm_num [abs_of_pos]) (by norm_num [abs_of_pos]) (by norm_num [abs_of_pos, abs_of_neg]) (by norm_num [abs_of_pos, abs_of_neg]), (sxpx_low _ hb (by norm_num)).1]
  norm_num

end SatSky.Props
