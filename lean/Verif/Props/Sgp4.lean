import Verif.Props.Kepler
import Verif.Props.Ellipse
import Verif.Props.Angles

/-! C94-C97: the vectors, the epoch, the density parameters, whole turns. -/

namespace SatSky.Props

open SatSky.Spec SatSky.Sxp SatSky.Kep

/-- The normal of the plane with the node and inclination given. -/
noncomputable def normalOf (node i : ℝ) : V3 := ⟨Real.sin node * Real.sin i, -Real.cos node * Real.sin i, Real.cos i⟩

theorem orient_frame (u node i : ℝ) :
    (orientU u node i).dot (orientU u node i) = 1 ∧ (orientV u node i).dot (orientV u node i) = 1 ∧
    (orientU u node i).dot (orientV u node i) = 0 ∧ (orientU u node i).dot (normalOf node i) = 0 ∧
    (orientV u node i).dot (normalOf node i) = 0 := by
  have h1 := Real.sin_sq_add_cos_sq u
  have h2 := Real.sin_sq_add_cos_sq node
  have h3 := Real.sin_sq_add_cos_sq i
  unfold orientU orientV normalOf V3.dot
  dsimp only
  generalize Real.sin u = su at *
  generalize Real.cos u = cu at *
  generalize Real.sin node = sn at *
  generalize Real.cos node = cn at *
  generalize Real.sin i = si at *
  generalize Real.cos i = ci at *
  refine ⟨?_, ?_, ?_, ?_, ?_⟩
  · linear_combination h1 + (ci ^ 2 * su ^ 2 + cu ^ 2) * h2 + su ^ 2 * h3
  · linear_combination h1 + (ci ^ 2 * cu ^ 2 + su ^ 2) * h2 + cu ^ 2 * h3
  · linear_combination (ci ^ 2 * su * cu - su * cu) * h2 + su * cu * h3
  · linear_combination (-(ci * su * si)) * h2
  · linear_combination (-(ci * cu * si)) * h2

theorem ck2_pos : 0 < ck2 := by unfold ck2 xj2; norm_num

theorem abs_le_of_mul {k b s B : ℝ} (hk : 0 ≤ k) (hB : 0 ≤ B) (h1 : |b| ≤ B) (h2 : |s| ≤ 1) : |k * b * s| ≤ k * B := by
  rw [abs_mul, abs_mul, abs_of_nonneg hk]
  have := mul_le_mul h1 h2 (abs_nonneg _) hB
  calc k * |b| * |s| = k * (|b| * |s|) := by ring
    _ ≤ k * (B * 1) := by gcongr
    _ = k * B := by ring

/-- A vector in the frame of an orbit. -/
theorem in_frame (u node i v1 v2 : ℝ) :
    ((V3.smul v1 (orientU u node i)).add (V3.smul v2 (orientV u node i))).dot (normalOf node i) = 0 ∧
    (V3.smul v1 (orientU u node i)).dot (normalOf node i) = 0 ∧ (V3.smul v1 (orientU u node i)).len = |v1| := by
  obtain ⟨f1, f2, f3, f4, f5⟩ := orient_frame u node i
  refine ⟨?_, ?_, ?_⟩
  · unfold V3.dot V3.smul V3.add at *
    dsimp only
    linear_combination v1 * f4 + v2 * f5
  · unfold V3.dot V3.smul at *
    dsimp only
    linear_combination v1 * f4
  · unfold V3.len
    have : (V3.smul v1 (orientU u node i)).dot (V3.smul v1 (orientU u node i)) = v1 ^ 2 := by
      unfold V3.dot V3.smul at *
      dsimp only
      linear_combination v1 ^ 2 * f1
    rw [this, Real.sqrt_sq_eq_abs]

/-- Radius, argument of latitude, node and inclination with the short-period terms. -/
noncomputable def su (m : Mean) (E : ℝ) : ℝ := (shortPrelim m.a m.axn m.ayn E).2.2
noncomputable def cu (m : Mean) (E : ℝ) : ℝ := (shortPrelim m.a m.axn m.ayn E).2.1
noncomputable def nodeK (m : Mean) (E : ℝ) : ℝ :=
  m.xnode + 3 / 2 * (ck2 / (m.a * (1 - elsq m)) / (m.a * (1 - elsq m))) * m.cosio * (2 * su m E * cu m E)
noncomputable def incK (m : Mean) (E : ℝ) : ℝ :=
  m.xincl + 3 / 2 * (ck2 / (m.a * (1 - elsq m)) / (m.a * (1 - elsq m))) * m.cosio * m.sinio * (2 * cu m E * cu m E - 1)
noncomputable def uK (m : Mean) (E : ℝ) : ℝ :=
  Geo.atan2 (su m E) (cu m E) - 1 / 4 * (ck2 / (m.a * (1 - elsq m)) / (m.a * (1 - elsq m))) * (7 * (m.cosio * m.cosio) - 1) * (2 * su m E * cu m E)
noncomputable def rK (m : Mean) (E : ℝ) : ℝ :=
  (shortPrelim m.a m.axn m.ayn E).1 * (1 - 3 / 2 * (ck2 / (m.a * (1 - elsq m)) / (m.a * (1 - elsq m))) * Real.sqrt (1 - elsq m)
    * (3 * (m.cosio * m.cosio) - 1)) + 1 / 2 * (ck2 / (m.a * (1 - elsq m))) * (1 - m.cosio * m.cosio) * (2 * cu m E * cu m E - 1)

theorem posVel_pos (m : Mean) (E : ℝ) :
    (posVel m E).1 = V3.smul (rK m E * earthRadius) (orientU (uK m E) (nodeK m E) (incK m E)) := by
  ext <;> simp only [V3.smul] <;> rw [mul_right_comm] <;> rfl

theorem posVel_vel (m : Mean) (E : ℝ) : ∃ v1 v2 : ℝ, (posVel m E).2
    = (V3.smul v1 (orientU (uK m E) (nodeK m E) (incK m E))).add (V3.smul v2 (orientV (uK m E) (nodeK m E) (incK m E))) := by
  refine ⟨((shortRates m.a m.axn m.ayn E).1 - xke / (m.a * Real.sqrt m.a) * (ck2 / (m.a * (1 - elsq m))) * (1 - m.cosio * m.cosio)
      * (2 * su m E * cu m E)) * earthRadius,
    ((shortRates m.a m.axn m.ayn E).2 + xke / (m.a * Real.sqrt m.a) * (ck2 / (m.a * (1 - elsq m))) *
      ((1 - m.cosio * m.cosio) * (2 * cu m E * cu m E - 1) + 3 / 2 * (3 * (m.cosio * m.cosio) - 1))) * earthRadius, ?_⟩
  ext <;> simp only [V3.smul, V3.add] <;> rw [mul_right_comm _ earthRadius, mul_right_comm _ earthRadius, ← add_mul] <;> rfl

theorem double_angle {s c : ℝ} (h : c ^ 2 + s ^ 2 = 1) : |2 * s * c| ≤ 1 ∧ |2 * c * c - 1| ≤ 1 := by
  constructor <;> rw [abs_le] <;> constructor <;> nlinarith [sq_nonneg (s + c), sq_nonneg (s - c), sq_nonneg s, sq_nonneg c]

/-- The change of the distance by the short-period terms. -/
theorem radius_change {r k p b ci c2 : ℝ} (hr : 0 < r) (hk : 0 < k) (hp : 0 < p) (hb0 : 0 ≤ b) (hb1 : b ≤ 1) (hci : ci ^ 2 ≤ 1)
    (hc2 : |c2| ≤ 1) :
    |r * (1 - 3 / 2 * (k / p / p) * b * (3 * (ci * ci) - 1)) + 1 / 2 * (k / p) * (1 - ci * ci) * c2 - r| ≤ k * (3 * r / p ^ 2 + 1 / (2 * p)) := by
  have h3 : |3 * (ci * ci) - 1| ≤ 2 := by
    rw [abs_le]; constructor <;> nlinarith [sq_nonneg ci]
  have h4 : |1 - ci * ci| ≤ 1 := by
    rw [abs_le]; constructor <;> nlinarith [sq_nonneg ci]
  have e1 : r * (1 - 3 / 2 * (k / p / p) * b * (3 * (ci * ci) - 1)) + 1 / 2 * (k / p) * (1 - ci * ci) * c2 - r
      = -(r * (3 / 2 * (k / p / p)) * (b * (3 * (ci * ci) - 1))) + 1 / 2 * (k / p) * (1 - ci * ci) * c2 := by ring
  have t1 : |r * (3 / 2 * (k / p / p)) * (b * (3 * (ci * ci) - 1))| ≤ r * (3 / 2 * (k / p / p)) * 2 := by
    rw [abs_mul, abs_of_nonneg (show 0 ≤ r * (3 / 2 * (k / p / p)) by positivity), abs_mul, abs_of_nonneg hb0]
    gcongr
    calc _ ≤ 1 * 2 := mul_le_mul hb1 h3 (abs_nonneg _) zero_le_one
      _ = 2 := by norm_num
  have t2 := abs_le_of_mul (k := 1 / 2 * (k / p)) (by positivity) zero_le_one h4 hc2
  rw [e1]
  refine le_trans (abs_add_le _ _) ?_
  rw [abs_neg]
  refine le_trans (add_le_add t1 t2) (le_of_eq ?_)
  field_simp

/-- **C94**: position and velocity lie in one plane through the centre of the Earth, whose node and inclination differ from those handed in
by at most 1.5 k₂/p² and 0.75 k₂/p²; the distance from the centre is within `k₂ (3 r/p² + 1/(2p))` Earth radii of the distance `r` on the
unperturbed orbit, `p` being its semilatus rectum. -/
theorem C94_plane (m : Mean) (E : ℝ) (ha : 0 < m.a) (he : elsq m < 1) (hi : m.cosio ^ 2 + m.sinio ^ 2 = 1) :
    let p := m.a * (1 - elsq m)
    let r := m.a * (1 - (m.axn * Real.cos E + m.ayn * Real.sin E))
    ∃ node i rk, |node - m.xnode| ≤ 3 / 2 * ck2 / p ^ 2 ∧ |i - m.xincl| ≤ 3 / 4 * ck2 / p ^ 2 ∧
      (posVel m E).1.dot (normalOf node i) = 0 ∧ (posVel m E).2.dot (normalOf node i) = 0 ∧
      (posVel m E).1.len = |rk| * earthRadius ∧ |rk - r| ≤ ck2 * (3 * r / p ^ 2 + 1 / (2 * p)) := by
  intro p r
  have hp : 0 < p := mul_pos ha (by linarith)
  have hell := C93_ellipse (a := m.a) (x := m.axn) (y := m.ayn) (E := E) ha (by unfold elsq at he; nlinarith)
  have hr0 : 0 < r := hell.1
  have hcs : cu m E ^ 2 + su m E ^ 2 = 1 := hell.2.1
  have hck := ck2_pos
  obtain ⟨hs2, hc2⟩ := double_angle hcs
  have hpp : ck2 / p / p = ck2 / p ^ 2 := by field_simp
  obtain ⟨v1, v2, hv⟩ := posVel_vel m E
  refine ⟨nodeK m E, incK m E, rK m E, ?_, ?_, ?_, ?_, ?_, ?_⟩
  · have hci : |m.cosio| ≤ 1 := by rw [abs_le]; constructor <;> nlinarith [sq_nonneg m.sinio]
    show |m.xnode + 3 / 2 * (ck2 / p / p) * m.cosio * (2 * su m E * cu m E) - m.xnode| ≤ 3 / 2 * ck2 / p ^ 2
    rw [add_sub_cancel_left, hpp]
    have := abs_le_of_mul (k := 3 / 2 * (ck2 / p ^ 2)) (by positivity) zero_le_one hci hs2
    rw [mul_one] at this
    rw [mul_div_assoc]
    exact this
  · have hcis : |m.cosio * m.sinio| ≤ 1 / 2 := by
      rw [abs_le]; constructor <;> nlinarith [sq_nonneg (m.cosio + m.sinio), sq_nonneg (m.cosio - m.sinio)]
    show |m.xincl + 3 / 2 * (ck2 / p / p) * m.cosio * m.sinio * (2 * cu m E * cu m E - 1) - m.xincl| ≤ 3 / 4 * ck2 / p ^ 2
    rw [add_sub_cancel_left, hpp]
    have := abs_le_of_mul (k := 3 / 2 * (ck2 / p ^ 2)) (by positivity) (by norm_num) hcis hc2
    rw [← mul_assoc (3 / 2 * (ck2 / p ^ 2))] at this
    refine le_trans this (le_of_eq ?_)
    ring
  · rw [posVel_pos]; exact (in_frame _ _ _ _ 0).2.1
  · rw [hv]; exact (in_frame _ _ _ _ _).1
  · rw [posVel_pos, (in_frame _ _ _ _ 0).2.2, abs_mul, abs_of_pos (show 0 < earthRadius by unfold earthRadius; norm_num)]
  · apply radius_change hr0 hck hp (Real.sqrt_nonneg _) _ (by nlinarith [sq_nonneg m.sinio]) hc2
    apply Real.sqrt_le_one.mpr
    unfold elsq
    nlinarith [mul_self_nonneg m.axn, mul_self_nonneg m.ayn]

/-- An orbit of two Earth radii. -/
example : 0 < (plainMean 2).a ∧ elsq (plainMean 2) < 1 ∧ (plainMean 2).cosio ^ 2 + (plainMean 2).sinio ^ 2 = 1 := by
  norm_num [plainMean, elsq, Mean.axn, Mean.ayn]

theorem a3ovk2_small : 0 ≤ a3ovk2 ∧ a3ovk2 ≤ 47 / 10000 := by
  unfold a3ovk2 ck2 xj2
  constructor <;> norm_num

/-- The eccentricity with the long-period term. -/
theorem ecc_bound (m : Mean) (ha : 0 < m.a) (he : 0 ≤ m.ecc) (he9 : m.ecc ≤ 9 / 10) (hi : m.cosio ^ 2 + m.sinio ^ 2 = 1) :
    m.a * Real.sqrt (elsq m) ≤ m.a * m.ecc + 62 / 10000 := by
  set e := Real.sqrt (elsq m) with hedef
  have hels : 0 ≤ elsq m := by unfold elsq; nlinarith [mul_self_nonneg m.axn, mul_self_nonneg m.ayn]
  have hsq : e ^ 2 = elsq m := Real.sq_sqrt hels
  have hden : 19 / 100 ≤ 1 - m.ecc * m.ecc := by nlinarith
  set w := m.a * (m.temp * (1 / 4 * a3ovk2 * m.sinio)) with hw
  have hwb : |w| ≤ 62 / 10000 := by
    have e1 : w = 1 / 4 * a3ovk2 * m.sinio / (1 - m.ecc * m.ecc) := by
      rw [hw]; unfold Mean.temp
      have : 1 - m.ecc * m.ecc ≠ 0 := by linarith
      field_simp
    have hsi : |m.sinio| ≤ 1 := by rw [abs_le]; constructor <;> nlinarith [sq_nonneg m.cosio]
    obtain ⟨k0, k1⟩ := a3ovk2_small
    rw [e1, abs_div, abs_of_pos (show 0 < 1 - m.ecc * m.ecc by linarith), div_le_iff₀ (by linarith), abs_mul, abs_mul,
      abs_of_nonneg k0, abs_of_pos (show (0 : ℝ) < 1 / 4 by norm_num)]
    have : a3ovk2 * |m.sinio| ≤ 47 / 10000 * 1 := mul_le_mul k1 hsi (abs_nonneg _) (by norm_num)
    linarith
  have haw : m.a * m.ayn = m.a * (m.ecc * Real.sin m.omega) + w := by unfold Mean.ayn; rw [hw]; ring
  have h1 : (m.a * e) ^ 2 = (m.a * m.axn) ^ 2 + (m.a * m.ayn) ^ 2 := by rw [mul_pow, hsq]; unfold elsq; ring
  have h2 := Real.sin_sq_add_cos_sq m.omega
  have h3 : (m.a * e) ^ 2 = (m.a * m.ecc) ^ 2 + 2 * (m.a * m.ecc) * (Real.sin m.omega * w) + w ^ 2 := by
    rw [h1, haw]; unfold Mean.axn
    linear_combination (m.a * m.ecc) ^ 2 * h2
  have h4 : Real.sin m.omega * w ≤ 62 / 10000 := by
    refine le_trans (le_abs_self _) ?_
    rw [abs_mul]
    have := mul_le_mul (Real.abs_sin_le_one m.omega) hwb (abs_nonneg _) zero_le_one
    linarith
  have h5 : w ^ 2 ≤ (62 / 10000) ^ 2 := by
    rw [← sq_abs]; gcongr
  have h6 : 0 ≤ m.a * m.ecc := mul_nonneg ha.le he
  apply le_of_sq_le_sq _ (by linarith)
  rw [h3]
  nlinarith

theorem rk_bound {r p rk : ℝ} (hr : 9938 / 10000 ≤ r) (hp : 9938 / 10000 ≤ p) (h : |rk - r| ≤ ck2 * (3 * r / p ^ 2 + 1 / (2 * p))) :
    |rk - r| ≤ 17 / 10000 * r + 3 / 10000 := by
  refine le_trans h ?_
  have h1 : 3 * r / p ^ 2 ≤ 304 / 100 * r := by
    rw [div_le_iff₀ (by positivity)]
    have : 987 / 1000 ≤ p ^ 2 := by nlinarith
    nlinarith
  have h2 : 1 / (2 * p) ≤ 504 / 1000 := by
    rw [div_le_iff₀ (by linarith)]; linarith
  have hk : ck2 ≤ 542 / 10 ^ 6 := by unfold ck2 xj2; norm_num
  have h3 : 3 * r / p ^ 2 + 1 / (2 * p) ≤ 304 / 100 * r + 504 / 1000 := add_le_add h1 h2
  have h4 : ck2 * (3 * r / p ^ 2 + 1 / (2 * p)) ≤ ck2 * (304 / 100 * r + 504 / 1000) := mul_le_mul_of_nonneg_left h3 ck2_pos.le
  have h5 : ck2 * (304 / 100 * r + 504 / 1000) ≤ 542 / 10 ^ 6 * (304 / 100 * r + 504 / 1000) := by
    apply mul_le_mul_of_nonneg_right hk; linarith
  refine le_trans h4 (le_trans h5 ?_)
  linarith

/-- **C98**: a position returned without a warning, for an eccentricity between 0 and 0.9, is neither deeper than 64 km below the equatorial
radius of the Earth nor farther away than 1.002 times the apogee of the mean orbit plus 64 km. -/
theorem C98_outside (m : Mean) (h0 : (sxpx_posn_vel m).1 = 0) (he : 0 ≤ m.ecc) (he9 : m.ecc ≤ 9 / 10)
    (hi : m.cosio ^ 2 + m.sinio ^ 2 = 1) :
    99 / 100 * earthRadius ≤ (sxpx_posn_vel m).2.1.len ∧
      (sxpx_posn_vel m).2.1.len ≤ (1002 / 1000 * (m.a * (1 + m.ecc)) + 1 / 100) * earthRadius := by
  obtain ⟨hc0, -, -, -, -, -, -, hex⟩ := C48_codes_partial m
  obtain ⟨ha0, hel, hper, -⟩ := hc0 h0
  obtain ⟨E, -, hpv⟩ := hex (by rw [h0]; simp)
  have ha : 0 < m.a := by
    rcases ha0.lt_or_eq with h | h
    · exact h
    · rw [← h] at hper; norm_num at hper
  have hR : 0 < earthRadius := by unfold earthRadius; norm_num
  obtain ⟨node, i, rk, -, -, -, -, hlen, hrk⟩ := C94_plane m E ha (by linarith) hi
  have hpos : (sxpx_posn_vel m).2.1 = (posVel m E).1 := by rw [hpv]
  rw [hpos, hlen]
  have hae' := ecc_bound m ha he he9 hi
  have hels : 0 ≤ elsq m := by unfold elsq; nlinarith [mul_self_nonneg m.axn, mul_self_nonneg m.ayn]
  have he0 : 0 ≤ Real.sqrt (elsq m) := Real.sqrt_nonneg _
  have hsq : Real.sqrt (elsq m) ^ 2 = elsq m := Real.sq_sqrt hels
  have hec : |m.axn * Real.cos E + m.ayn * Real.sin E| ≤ Real.sqrt (elsq m) :=
    Kep.abs_ec he0 (by rw [hsq]; unfold elsq; nlinarith) E
  obtain ⟨c1, c2⟩ := abs_le.mp hec
  generalize Real.sqrt (elsq m) = e at *
  have hrl : 9938 / 10000 ≤ m.a * (1 - (m.axn * Real.cos E + m.ayn * Real.sin E)) := by
    have := mul_le_mul_of_nonneg_left c2 ha.le
    linarith
  have hru : m.a * (1 - (m.axn * Real.cos E + m.ayn * Real.sin E)) ≤ m.a * (1 + m.ecc) + 62 / 10000 := by
    have := mul_le_mul_of_nonneg_left c1 ha.le
    linarith
  have hpl : 9938 / 10000 ≤ m.a * (1 - elsq m) := by
    have h1 : 9938 / 10000 ≤ m.a * (1 - e) := by linarith
    have h2 : m.a * (1 - elsq m) = m.a * (1 - e) * (1 + e) := by rw [← hsq]; ring
    rw [h2]
    have := mul_le_mul_of_nonneg_left (show 1 ≤ 1 + e by linarith) (show 0 ≤ m.a * (1 - e) by linarith)
    linarith
  obtain ⟨d1, d2⟩ := abs_le.mp (rk_bound hrl hpl hrk)
  have hrkpos : 0 < rk := by linarith
  rw [abs_of_pos hrkpos]
  constructor
  · apply mul_le_mul_of_nonneg_right _ hR.le; linarith
  · apply mul_le_mul_of_nonneg_right _ hR.le; linarith

/-- The orbit of two Earth radii is one of these. -/
example : (sxpx_posn_vel (plainMean 2)).1 = 0 ∧ 0 ≤ (plainMean 2).ecc ∧ (plainMean 2).ecc ≤ 9 / 10 := by
  refine ⟨by rw [plain_code 2 (by norm_num), if_neg (by norm_num)], ?_, ?_⟩ <;> norm_num [plainMean]

/-! ### The epoch -/

/-- **C95**: at the epoch `SGP4` propagates the orbit of the element set itself: the recovered semimajor axis, the eccentricity (at least
10⁻⁶), inclination, node and argument of perigee of the set, and the mean longitude `M + ω + Ω`. -/
theorem C95_epoch (e : Elem) :
    sgp4Mean (SGP4_init e) e 0 =
      { xnode := e.xnodeo, a := (sxpall_common_init e).aodp, ecc := max e.eo (1 / 10 ^ 6), cosio := Real.cos e.xincl,
        sinio := Real.sin e.xincl, xincl := e.xincl, omega := e.omegao, xl := e.xmo + e.omegao + e.xnodeo } := by
  have heta : (SGP4_init e).delmo = (1 + (SGP4_init e).i.aodp * e.eo * (SGP4_init e).i.tsi * Real.cos e.xmo)
      * (1 + (SGP4_init e).i.aodp * e.eo * (SGP4_init e).i.tsi * Real.cos e.xmo)
      * (1 + (SGP4_init e).i.aodp * e.eo * (SGP4_init e).i.tsi * Real.cos e.xmo) := by
    rw [mul_assoc]; rfl
  have hs : (SGP4_init e).sinmo = Real.sin e.xmo := rfl
  have hmax : (if e.eo < 1 / 10 ^ 6 then (1 / 10 ^ 6 : ℝ) else e.eo) = max e.eo (1 / 10 ^ 6) := by
    split_ifs with h
    · exact (max_eq_right h.le).symm
    · exact (max_eq_left (not_lt.mp h)).symm
  have ha : (SGP4_init e).i.aodp = (sxpall_common_init e).aodp := rfl
  have hc : (SGP4_init e).i.cosio = Real.cos e.xincl := rfl
  have hsi : (SGP4_init e).i.sinio = Real.sin e.xincl := rfl
  unfold sgp4Mean
  simp only [mul_zero, add_zero, sub_zero, heta, hs, sub_self, ite_self, hmax, ha, hc, hsi, mul_one]
  norm_num

/-- The part of the density profile between 98 and 156 km is not constant. -/
example : s4Of 120 = 42 / earthRadius + 1 ∧ s4Of 100 = 22 / earthRadius + 1 := by
  constructor <;> norm_num [s4Of]

/-! ### The density parameters -/

/-- **C96**: the parameters `s` and `(q0 - s)⁴` of the density function depend continuously on the height of the perigee: `s` is continuous
where the formulas change, at 98 and 156 km, and the fourth power jumps by less than 10⁻³⁰ at 156 km; both have the values of the
report, `s = 20 km` below 98 km, `h - 78 km` between and 78 km above, `q0 = 120 km`. -/
theorem C96_density (h : ℝ) :
    (s4Of h - 1) * earthRadius = min 78 (max 20 (h - 78)) ∧
    |qoms24Of h - ((120 - min 78 (max 20 (h - 78))) / earthRadius) ^ 4| ≤ 1 / 10 ^ 30 ∧ Continuous s4Of := by
  have hR : (0 : ℝ) < earthRadius := by unfold earthRadius; norm_num
  have hval : ∀ h, (s4Of h - 1) * earthRadius = min 78 (max 20 (h - 78)) := by
    intro h
    unfold s4Of
    split_ifs with h1 h2
    · rw [add_sub_cancel_right, div_mul_cancel₀ _ hR.ne', max_eq_left (by linarith), min_eq_right (by norm_num)]
    · rw [add_sub_cancel_right, div_mul_cancel₀ _ hR.ne', max_eq_right (by linarith), min_eq_right (by linarith)]
    · rw [max_eq_right (by linarith), min_eq_left (by linarith)]
      unfold sConst earthRadius
      norm_num
  refine ⟨hval h, ?_, ?_⟩
  · unfold qoms24Of
    split_ifs with h1 h2
    · rw [max_eq_left (by linarith), min_eq_right (by norm_num)]
      dsimp only
      rw [show ∀ t : ℝ, t * t * (t * t) = t ^ 4 by intro t; ring, sub_self, abs_zero]
      norm_num
    · rw [max_eq_right (by linarith), min_eq_right (by linarith)]
      dsimp only
      rw [show ∀ t : ℝ, t * t * (t * t) = t ^ 4 by intro t; ring, sub_self, abs_zero]
      norm_num
    · rw [max_eq_right (by linarith), min_eq_left (by linarith)]
      unfold qoms2t earthRadius
      norm_num [abs_le]
  · have : s4Of = fun h => min 78 (max 20 (h - 78)) / earthRadius + 1 := by
      funext h
      rw [← hval h]; field_simp; ring
    rw [this]
    fun_prop

/-! ### Whole turns -/

theorem keplerLoop_shift (x y l c : ℝ) (k : ℤ) : ∀ (n : ℕ) (b : Bool) (E : ℝ),
    keplerLoop x y (l + 2 * Real.pi * k) c n b (E + 2 * Real.pi * k) = (keplerLoop x y l c n b E).map (· + 2 * Real.pi * k)
  | 0, _, _ => rfl
  | n + 1, b, E => by
    have hs : Real.sin (E + 2 * Real.pi * k) = Real.sin E := by
      rw [mul_comm (2 * Real.pi)]; exact Real.sin_add_int_mul_two_pi E k
    have hc : Real.cos (E + 2 * Real.pi * k) = Real.cos E := by
      rw [mul_comm (2 * Real.pi)]; exact Real.cos_add_int_mul_two_pi E k
    have hres : keplerRes x y (l + 2 * Real.pi * k) (E + 2 * Real.pi * k) = keplerRes x y l E := by
      unfold keplerRes; rw [hs, hc]; ring
    have hstep : keplerStep x y (l + 2 * Real.pi * k) c b (E + 2 * Real.pi * k) = keplerStep x y l c b E + 2 * Real.pi * k := by
      unfold keplerStep
      dsimp only
      rw [hs, hc, show l + 2 * Real.pi * k - (E + 2 * Real.pi * k) = l - E by ring]
      split_ifs <;> ring
    unfold keplerLoop
    rw [hres, hstep, keplerLoop_shift x y l c k n false]
    split_ifs <;> rfl

theorem sxpx_shift {m m' : Mean} (ha : m'.a = m.a) (he : m'.ecc = m.ecc) (hci : m'.cosio = m.cosio) (hsi : m'.sinio = m.sinio)
    (hxi : m'.xincl = m.xincl) {j k n : ℤ} (ho : m'.omega = m.omega + 2 * Real.pi * j) (hn : m'.xnode = m.xnode + 2 * Real.pi * k)
    (hl : m'.xl = m.xl + 2 * Real.pi * n) : sxpx_posn_vel m' = sxpx_posn_vel m := by
  have hax : m'.axn = m.axn := by
    unfold Mean.axn; rw [he, ho, mul_comm (2 * Real.pi), Real.cos_add_int_mul_two_pi]
  have ht : m'.temp = m.temp := by unfold Mean.temp; rw [ha, he]
  have hay : m'.ayn = m.ayn := by
    unfold Mean.ayn; rw [he, ho, ht, hsi, mul_comm (2 * Real.pi), Real.sin_add_int_mul_two_pi]
  obtain ⟨q, hq⟩ : ∃ q : ℤ, m'.capu = m.capu + 2 * Real.pi * q := by
    obtain ⟨-, -, q1, h1⟩ := C40_centralize
      (m.xl + m.temp * (1 / 8 * a3ovk2 * m.sinio * (3 + 5 * m.cosio) / (1 + m.cosio)) * m.axn - m.xnode)
    obtain ⟨-, -, q2, h2⟩ := C40_centralize
      (m'.xl + m'.temp * (1 / 8 * a3ovk2 * m'.sinio * (3 + 5 * m'.cosio) / (1 + m'.cosio)) * m'.axn - m'.xnode)
    refine ⟨q2 - q1 + n - k, ?_⟩
    unfold Mean.capu
    rw [h1, h2, ht, hsi, hci, hax, hl, hn]
    push_cast
    ring
  have hk : kepler m'.axn m'.ayn m'.capu m'.ecc = (kepler m.axn m.ayn m.capu m.ecc).map (· + 2 * Real.pi * q) := by
    unfold kepler
    rw [hax, hay, he, hq]
    exact keplerLoop_shift _ _ _ _ _ _ _ _
  have hpv : ∀ E, posVel m' (E + 2 * Real.pi * q) = posVel m E := by
    intro E
    have hs : Real.sin (E + 2 * Real.pi * q) = Real.sin E := by
      rw [mul_comm (2 * Real.pi)]; exact Real.sin_add_int_mul_two_pi E q
    have hc : Real.cos (E + 2 * Real.pi * q) = Real.cos E := by
      rw [mul_comm (2 * Real.pi)]; exact Real.cos_add_int_mul_two_pi E q
    have hsp : shortPrelim m.a m.axn m.ayn (E + 2 * Real.pi * q) = shortPrelim m.a m.axn m.ayn E := by
      unfold shortPrelim; rw [hs, hc]
    have hsr : shortRates m.a m.axn m.ayn (E + 2 * Real.pi * q) = shortRates m.a m.axn m.ayn E := by
      unfold shortRates; rw [hs, hc, hsp]
    have hU : ∀ u d i, orientU u (m.xnode + 2 * Real.pi * k + d) i = orientU u (m.xnode + d) i := by
      intro u d i
      unfold orientU
      rw [show m.xnode + 2 * Real.pi * k + d = m.xnode + d + k * (2 * Real.pi) by ring, Real.sin_add_int_mul_two_pi,
        Real.cos_add_int_mul_two_pi]
    have hV : ∀ u d i, orientV u (m.xnode + 2 * Real.pi * k + d) i = orientV u (m.xnode + d) i := by
      intro u d i
      unfold orientV
      rw [show m.xnode + 2 * Real.pi * k + d = m.xnode + d + k * (2 * Real.pi) by ring, Real.sin_add_int_mul_two_pi,
        Real.cos_add_int_mul_two_pi]
    unfold posVel posVelOf
    rw [ha, hax, hay, hci, hsi, hxi, hn, hsp, hsr]
    dsimp only
    rw [hU, hV]
  unfold sxpx_posn_vel
  rw [hk, hax, hay, ha, he]
  cases kepler m.axn m.ayn m.capu m.ecc with
  | none => rfl
  | some E => simp only [Option.map_some, hpv]

/-- **C97**: adding whole turns to the node, the argument of perigee or the mean anomaly of the elements changes neither the code nor the
position nor the velocity, at any time. -/
theorem C97_turns (e : Elem) (t : ℝ) (j k n : ℤ) :
    let e' := { e with omegao := e.omegao + 2 * Real.pi * j, xnodeo := e.xnodeo + 2 * Real.pi * k, xmo := e.xmo + 2 * Real.pi * n }
    SGP4 (SGP4_init e') e' t = SGP4 (SGP4_init e) e t := by
  intro e'
  have hc : Real.cos (2 * (e.omegao + 2 * Real.pi * j)) = Real.cos (2 * e.omegao) := by
    rw [show 2 * (e.omegao + 2 * Real.pi * j) = 2 * e.omegao + ((2 * j : ℤ) : ℝ) * (2 * Real.pi) by push_cast; ring,
      Real.cos_add_int_mul_two_pi]
  have hcm : ∀ d, Real.cos (e.xmo + 2 * Real.pi * n + d) = Real.cos (e.xmo + d) := by
    intro d
    rw [show e.xmo + 2 * Real.pi * n + d = e.xmo + d + n * (2 * Real.pi) by ring, Real.cos_add_int_mul_two_pi]
  have hsm : ∀ d, Real.sin (e.xmo + 2 * Real.pi * n + d) = Real.sin (e.xmo + d) := by
    intro d
    rw [show e.xmo + 2 * Real.pi * n + d = e.xmo + d + n * (2 * Real.pi) by ring, Real.sin_add_int_mul_two_pi]
  have hinit : sxpx_common_init e' = sxpx_common_init e := by
    unfold sxpx_common_init c4Of
    show _ = _
    dsimp only [e']
    rw [hc]
    rfl
  have hco : Real.cos (e.omegao + 2 * Real.pi * j) = Real.cos e.omegao := by
    rw [mul_comm (2 * Real.pi), Real.cos_add_int_mul_two_pi]
  have hcx : Real.cos (e.xmo + 2 * Real.pi * n) = Real.cos e.xmo := by
    rw [mul_comm (2 * Real.pi), Real.cos_add_int_mul_two_pi]
  have hsx : Real.sin (e.xmo + 2 * Real.pi * n) = Real.sin e.xmo := by
    rw [mul_comm (2 * Real.pi), Real.sin_add_int_mul_two_pi]
  have hI : SGP4_init e' = SGP4_init e := by
    unfold SGP4_init
    rw [hinit]
    dsimp only [e']
    rw [hco, hcx, hsx]
  unfold SGP4
  rw [hI]
  generalize SGP4_init e = p
  unfold sgp4Mean
  by_cases hs : p.simple
  · simp only [if_pos hs]
    refine sxpx_shift (j := j) (k := k) (n := n + j + k) rfl rfl rfl rfl rfl ?_ ?_ ?_ <;> dsimp only [e'] <;> push_cast <;> ring
  · simp only [if_neg hs]
    have e1 : ∀ d, e.xmo + 2 * Real.pi * n + p.i.xmdot * t + d = e.xmo + 2 * Real.pi * n + (p.i.xmdot * t + d) := by intro d; ring
    have e2 : ∀ d, e.xmo + p.i.xmdot * t + d = e.xmo + (p.i.xmdot * t + d) := by intro d; ring
    refine sxpx_shift (j := j) (k := k) (n := n + j + k) rfl ?_ rfl rfl rfl ?_ ?_ ?_ <;> dsimp only [e'] <;> (try simp only [hcm, hsm, e1, e2]) <;>
      push_cast <;> ring

end SatSky.Props
