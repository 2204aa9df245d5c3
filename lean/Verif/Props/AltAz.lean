import Verif.Spec.Horizon
import Verif.Lemmas.Angles
import Verif.Lemmas.Sphere
import Mathlib.Analysis.Real.Pi.Bounds
import Mathlib.Tactic.NormNum

/-! Altitude, azimuth (C38) and parallactic angle (C76). -/

namespace SatSky.Props

open SatSky.Spec SatSky.Geo Real

theorem deg_rad (x : ℝ) : x * r2d * (π / 180) = x := by
  unfold r2d
  field_simp

theorem horizontal_unit (lat h d : ℝ) : (horizontal lat h d).dot (horizontal lat h d) = 1 := by
  have a := sin_sq_add_cos_sq lat
  have b := sin_sq_add_cos_sq h
  have c := sin_sq_add_cos_sq d
  simp only [horizontal, V3.dot, equatorial, northAxis, eastAxis, upAxis, cos_zero, sin_zero]
  linear_combination (cos d ^ 2 * cos h ^ 2 + sin d ^ 2) * a + cos d ^ 2 * b + c

/-- North, east and up in the form of the program. -/
theorem horizontal_eq (lat h d : ℝ) :
    horizontal lat h d = ⟨sin d * cos lat - cos d * cos h * sin lat, -1 * cos d * sin h, cos d * cos h * cos lat + sin d * sin lat⟩ := by
  simp only [horizontal, V3.dot, equatorial, northAxis, eastAxis, upAxis, cos_zero, sin_zero]
  ext <;> dsimp only <;> ring

theorem arcsin_up (lat h d : ℝ) :
    cos (arcsin (horizontal lat h d).z) = sqrt ((horizontal lat h d).x * (horizontal lat h d).x + (horizontal lat h d).y * (horizontal lat h d).y)
    ∧ sin (arcsin (horizontal lat h d).z) = (horizontal lat h d).z := by
  have hu := horizontal_unit lat h d
  generalize horizontal lat h d = v at hu
  unfold V3.dot at hu
  have hz : |v.z| ≤ 1 := abs_le_of_sq_le_sq (by nlinarith [mul_self_nonneg v.x, mul_self_nonneg v.y]) one_pos.le
  obtain ⟨h1, h2⟩ := abs_le.mp hz
  rw [cos_arcsin, sin_arcsin h1 h2]
  refine ⟨?_, rfl⟩
  congr 1
  linarith [sq v.z]

/-- The values in the general case. -/
theorem general_case {dec ha latDeg : ℝ} (h0 : ha ≠ 0) (h1 : ¬ cos (latDeg * d2r) < 1 / 10 ^ 6)
    (h2 : ¬ |dec - latDeg * d2r| < 1 / 10 ^ 6) :
    let v := horizontal (latDeg * d2r) (ha * 15 * d2r) dec
    let a := atan2 v.y v.x
    let az := if a * r2d < 0 then a * r2d + 360 else a * r2d
    (dechalat2alt dec ha latDeg).1 = r2d * arcsin v.z ∧ (dechalat2alt dec ha latDeg).2.1 = (if az ≥ 360 then az - 360 else az) := by
  rw [horizontal_eq]
  unfold dechalat2alt
  simp only [if_neg h0, if_neg h1, if_neg h2]
  exact ⟨trivial, trivial⟩

/-- C38 away from the special cases: hour angle not 0, at least `10⁻⁶` (in the cosine of the latitude) from the poles and declination at
least `10⁻⁶` from the latitude.  Missing: the special cases, which are wrong (`C38_*_violated`). -/
theorem C38_partial {dec ha latDeg : ℝ} (h0 : ha ≠ 0) (h1 : 1 / 10 ^ 6 ≤ cos (latDeg * d2r))
    (h2 : 1 / 10 ^ 6 ≤ |dec - latDeg * d2r|) :
    IsAltAz (dechalat2alt dec ha latDeg).1 (dechalat2alt dec ha latDeg).2.1 (latDeg * d2r) (ha * 15 * d2r) dec := by
  obtain ⟨ealt, eaz⟩ := general_case h0 (not_lt.mpr h1) (not_lt.mpr h2)
  rw [ealt, eaz]
  have hup := arcsin_up (latDeg * d2r) (ha * 15 * d2r) dec
  unfold IsAltAz
  generalize horizontal (latDeg * d2r) (ha * 15 * d2r) dec = v at hup ⊢
  have ⟨a1, a2⟩ := atan2_range v.y v.x
  have ⟨p1, p2⟩ := atan2_polar v.y v.x
  have hp := pi_pos
  have hr : 0 < r2d := r2d_pos
  have e180 : π * r2d = 180 := by unfold r2d; field_simp
  generalize atan2 v.y v.x = a at *
  have b1 : -180 < a * r2d := by
    have := mul_lt_mul_of_pos_right a1 hr; linarith
  have b2 : a * r2d ≤ 180 := by
    have := mul_le_mul_of_nonneg_right a2 hr.le; linarith
  have haz : (if (if a * r2d < 0 then a * r2d + 360 else a * r2d) ≥ 360 then
      (if a * r2d < 0 then a * r2d + 360 else a * r2d) - 360 else (if a * r2d < 0 then a * r2d + 360 else a * r2d))
      = if a * r2d < 0 then a * r2d + 360 else a * r2d := by
    apply if_neg
    split_ifs <;> linarith
  rw [haz]
  have hcs : cos ((if a * r2d < 0 then a * r2d + 360 else a * r2d) * (π / 180)) = cos a ∧
      sin ((if a * r2d < 0 then a * r2d + 360 else a * r2d) * (π / 180)) = sin a := by
    split_ifs
    · rw [show (a * r2d + 360) * (π / 180) = a * r2d * (π / 180) + 2 * π by ring, deg_rad, cos_add_two_pi, sin_add_two_pi]
      exact ⟨rfl, rfl⟩
    · rw [deg_rad]
      exact ⟨rfl, rfl⟩
  have s1 := neg_pi_div_two_le_arcsin v.z
  have s2 := arcsin_le_pi_div_two v.z
  refine ⟨⟨?_, ?_⟩, ?_, ?_⟩
  · have := mul_le_mul_of_nonneg_left s1 hr.le
    linarith
  · have := mul_le_mul_of_nonneg_left s2 hr.le
    linarith
  · split_ifs <;> constructor <;> linarith
  · unfold dir
    rw [hcs.1, hcs.2, mul_comm r2d, deg_rad, hup.1, hup.2, p1, p2]

/-- C38: near the celestial object with declination equal to the latitude the altitude is always 90°, whatever the hour angle: at the
equator, an object on the equator with hour angle 6 h is on the horizon. -/
theorem C38_zenith_violated :
    (dechalat2alt 0 6 0).1 = 90 ∧ (horizontal 0 (π / 2) 0).z = 0 ∧ ¬ ∃ az, IsAltAz 90 az 0 (π / 2) 0 := by
  have hz : (horizontal 0 (π / 2) 0).z = 0 := by rw [horizontal_eq]; simp
  refine ⟨?_, hz, ?_⟩
  · unfold dechalat2alt
    dsimp only
    rw [if_pos (by simp)]
  · rintro ⟨az, _, _, h⟩
    have := congrArg V3.z h
    rw [hz] at this
    unfold dir at this
    dsimp only at this
    rw [show (90 : ℝ) * (π / 180) = π / 2 by ring, sin_pi_div_two] at this
    norm_num at this

/-- C38: on the meridian the azimuth is always 0 (north), also for objects south of the zenith: at latitude 45°, an object on the
equator. -/
theorem C38_meridian_violated :
    (dechalat2alt 0 0 45).2.1 = 0 ∧ (horizontal (45 * d2r) 0 0).x < 0 ∧
      ¬ IsAltAz (dechalat2alt 0 0 45).1 (dechalat2alt 0 0 45).2.1 (45 * d2r) 0 0 := by
  have hp := pi_pos
  have hx : (horizontal (45 * d2r) 0 0).x < 0 := by
    rw [horizontal_eq]
    simp only [sin_zero, cos_zero, zero_mul, one_mul, zero_sub, neg_lt_zero]
    apply sin_pos_of_pos_of_lt_pi <;> unfold d2r <;> nlinarith
  have haz : (dechalat2alt 0 0 45).2.1 = 0 := by
    unfold dechalat2alt
    simp
  refine ⟨haz, hx, ?_⟩
  rintro ⟨⟨h1, h2⟩, _, h⟩
  rw [haz] at h
  have := congrArg V3.x h
  unfold dir at this
  dsimp only at this
  rw [zero_mul, cos_zero, mul_one] at this
  have hc : 0 ≤ cos ((dechalat2alt 0 0 45).1 * (π / 180)) := by
    apply cos_nonneg_of_neg_pi_div_two_le_of_le <;> nlinarith
  linarith

/-- C38: on the meridian the altitude is right, and so is the azimuth where the object is not south of the zenith.  Missing: objects south
of the zenith (`C38_meridian_violated`) and within `10⁻⁶` of it. -/
theorem C38_meridian_partial {dec latDeg : ℝ} (hd : |dec| ≤ π / 2) (hl : |latDeg * d2r| ≤ π / 2)
    (h2 : 1 / 10 ^ 6 ≤ dec - latDeg * d2r) :
    IsAltAz (dechalat2alt dec 0 latDeg).1 (dechalat2alt dec 0 latDeg).2.1 (latDeg * d2r) 0 dec := by
  obtain ⟨d1, d2⟩ := abs_le.mp hd
  obtain ⟨l1, l2⟩ := abs_le.mp hl
  have hp := pi_pos
  have e : (dechalat2alt dec 0 latDeg).1 = r2d * arcsin (horizontal (latDeg * d2r) 0 dec).z ∧ (dechalat2alt dec 0 latDeg).2.1 = 0 := by
    rw [horizontal_eq]
    unfold dechalat2alt
    have : ¬ |dec - latDeg * d2r| < 1 / 10 ^ 6 := by rw [abs_of_nonneg (by linarith [show (0 : ℝ) < 1 / 10 ^ 6 by norm_num])]; exact not_lt.mpr h2
    simp only [if_true, if_neg this, cos_zero, mul_one]
    exact ⟨trivial, trivial⟩
  rw [e.1, e.2]
  have hup := arcsin_up (latDeg * d2r) 0 dec
  have hx : (horizontal (latDeg * d2r) 0 dec).x = sin (dec - latDeg * d2r) := by
    rw [horizontal_eq, sin_sub]; simp
  have hy : (horizontal (latDeg * d2r) 0 dec).y = 0 := by rw [horizontal_eq]; simp
  have hx0 : 0 ≤ (horizontal (latDeg * d2r) 0 dec).x := by
    rw [hx]
    exact sin_nonneg_of_nonneg_of_le_pi (by linarith [show (0 : ℝ) < 1 / 10 ^ 6 by norm_num]) (by linarith)
  unfold IsAltAz
  generalize horizontal (latDeg * d2r) 0 dec = v at *
  have s1 := neg_pi_div_two_le_arcsin v.z
  have s2 := arcsin_le_pi_div_two v.z
  have hr : 0 < r2d := r2d_pos
  have e180 : π * r2d = 180 := by unfold r2d; field_simp
  refine ⟨⟨?_, ?_⟩, ⟨by norm_num, by norm_num⟩, ?_⟩
  · have := mul_le_mul_of_nonneg_left s1 hr.le
    linarith
  · have := mul_le_mul_of_nonneg_left s2 hr.le
    linarith
  · unfold dir
    rw [mul_comm r2d, deg_rad, hup.1, hup.2, zero_mul, cos_zero, sin_zero, hy, mul_zero, add_zero, sqrt_mul_self hx0]
    ext <;> simp [hy]

/-- C38: at the poles the azimuth is the hour angle in radians: at the north pole, hour angle 18 h, it is about 4.7 instead of
90 degrees. -/
theorem C38_pole_violated :
    (dechalat2alt 0 18 90).2.1 = 3 * (π / 2) ∧ (horizontal (90 * d2r) (18 * 15 * d2r) 0) = ⟨0, 1, 0⟩ ∧
      ¬ ∃ alt, IsAltAz alt (dechalat2alt 0 18 90).2.1 (90 * d2r) (18 * 15 * d2r) 0 := by
  have hp := pi_pos
  have hp4 := pi_lt_d2
  have hc : cos (90 * d2r) = 0 := by unfold d2r; rw [show (90 : ℝ) * (π / 180) = π / 2 by ring, cos_pi_div_two]
  have hh : (18 : ℝ) * 15 * d2r = π + π / 2 := by unfold d2r; ring
  have haz : (dechalat2alt 0 18 90).2.1 = 3 * (π / 2) := by
    unfold dechalat2alt
    have n1 : ¬ (18 : ℝ) = 0 := by norm_num
    have n2 : cos (90 * d2r) < 1 / 10 ^ 6 := by rw [hc]; norm_num
    simp only [if_neg n1, if_pos n2, hh]
    ring
  have hv : horizontal (90 * d2r) (18 * 15 * d2r) 0 = ⟨0, 1, 0⟩ := by
    rw [horizontal_eq, hc, hh, add_comm π, cos_add_pi, sin_add_pi]
    simp
  refine ⟨haz, hv, ?_⟩
  rintro ⟨alt, ⟨h1, h2⟩, _, h⟩
  rw [hv, haz] at h
  have hy := congrArg V3.y h
  have hx := congrArg V3.x h
  unfold dir at hx hy
  dsimp only at hx hy
  have hs : 0 < cos (3 * (π / 2) * (π / 180)) := by
    apply cos_pos_of_mem_Ioo
    constructor <;> nlinarith
  rcases mul_eq_zero.mp hx with h0 | h0
  · rw [h0, zero_mul] at hy
    norm_num at hy
  · linarith

/-- C76: the parallactic angle in the general case (object not at a pole).  Missing: the meridian south of the zenith
(`C76_meridian_violated`), the surroundings of the terrestrial poles and of the celestial poles. -/
theorem C76_partial {dec ha latDeg : ℝ} (h0 : ha ≠ 0) (h1 : 1 / 10 ^ 6 ≤ cos (latDeg * d2r)) (hd : 0 < cos dec) :
    (-180 < (dechalat2alt dec ha latDeg).2.2 ∧ (dechalat2alt dec ha latDeg).2.2 ≤ 180) ∧
      IsParallactic (dechalat2alt dec ha latDeg).2.2 (latDeg * d2r) (ha * 15 * d2r) dec := by
  have e : (dechalat2alt dec ha latDeg).2.2 =
      let a := atan2 (-1 * cos dec * sin (ha * 15 * d2r)) (sin dec * cos (latDeg * d2r) - cos dec * cos (ha * 15 * d2r) * sin (latDeg * d2r))
      atan2 (-1 * sin a * cos (latDeg * d2r) / cos dec)
        (-1 * cos a * cos (ha * 15 * d2r) - sin a * sin (ha * 15 * d2r) * sin (latDeg * d2r)) * r2d := by
    unfold dechalat2alt
    simp only [if_neg h0, if_neg (not_lt.mpr h1), ne_eq, hd.ne', not_false_eq_true, if_true]
  dsimp only at e
  rw [e]
  generalize latDeg * d2r = lat at *
  generalize ha * 15 * d2r = h at *
  have hr : 0 < r2d := r2d_pos
  have e180 : π * r2d = 180 := by unfold r2d; field_simp
  have ⟨p1, p2⟩ := atan2_polar (-1 * cos dec * sin h) (sin dec * cos lat - cos dec * cos h * sin lat)
  generalize atan2 (-1 * cos dec * sin h) (sin dec * cos lat - cos dec * cos h * sin lat) = a at *
  generalize hR : sqrt ((sin dec * cos lat - cos dec * cos h * sin lat) * (sin dec * cos lat - cos dec * cos h * sin lat)
    + -1 * cos dec * sin h * (-1 * cos dec * sin h)) = R at *
  have hR0 : 0 ≤ R := hR ▸ sqrt_nonneg _
  have ⟨q1, q2⟩ := atan2_polar (-1 * sin a * cos lat / cos dec) (-1 * cos a * cos h - sin a * sin h * sin lat)
  have ⟨b1, b2⟩ := atan2_range (-1 * sin a * cos lat / cos dec) (-1 * cos a * cos h - sin a * sin h * sin lat)
  generalize atan2 (-1 * sin a * cos lat / cos dec) (-1 * cos a * cos h - sin a * sin h * sin lat) = b at *
  generalize hS : sqrt _ = S at q1 q2
  have hS0 : 0 ≤ S := hS ▸ sqrt_nonneg _
  refine ⟨⟨?_, ?_⟩, R * S, mul_nonneg hR0 hS0, ?_, ?_⟩
  · have := mul_lt_mul_of_pos_right b1 hr; linarith
  · have := mul_le_mul_of_nonneg_right b2 hr.le; linarith
  · rw [deg_rad, mul_assoc, q1]
    simp only [V3.dot, upAxis, equatorial, decAxis, cos_zero, sin_zero]
    have hh := sin_sq_add_cos_sq h
    linear_combination (-cos h) * p1 - (sin h * sin lat) * p2 + cos dec * sin lat * hh
  · rw [deg_rad, mul_assoc, q2]
    simp only [V3.dot, upAxis, equatorial, raAxis, cos_zero, sin_zero]
    have hq : R * (-1 * sin a * cos lat / cos dec) = -(R * sin a) * cos lat / cos dec := by ring
    rw [hq, p2]
    field_simp
    ring

/-- C76 on the meridian: the angle is always 180°, also south of the zenith, where it is 0. -/
theorem C76_meridian_violated :
    (dechalat2alt 0 0 45).2.2 = 180 ∧ ¬ IsParallactic 180 (45 * d2r) 0 0 ∧ IsParallactic 0 (45 * d2r) 0 0 := by
  have hp := pi_pos
  have hs : 0 < sin (45 * d2r) := by apply sin_pos_of_pos_of_lt_pi <;> unfold d2r <;> nlinarith
  refine ⟨?_, ?_, ?_⟩
  · have ha : atan2 0 (-1) = π := by
      unfold atan2
      rw [show (⟨-1, 0⟩ : ℂ) = -1 by apply Complex.ext <;> simp, Complex.arg_neg_one]
    unfold dechalat2alt
    simp [ha, r2d]
    field_simp
  · rintro ⟨r, hr, h1, _⟩
    rw [show (180 : ℝ) * (π / 180) = π by field_simp, cos_pi] at h1
    simp [V3.dot, upAxis, equatorial, decAxis] at h1
    linarith
  · refine ⟨sin (45 * d2r), hs.le, ?_, ?_⟩ <;> simp [V3.dot, upAxis, equatorial, decAxis, raAxis]

/-- A setting object: at the equator of the Earth, declination 0, hour angle 3 h and latitude 45°. -/
example : IsAltAz (dechalat2alt 0 3 45).1 (dechalat2alt 0 3 45).2.1 (45 * d2r) (3 * 15 * d2r) 0 := by
  have hp := pi_pos
  have hp3 := pi_gt_d2
  have hc : cos (45 * d2r) = sqrt 2 / 2 := by unfold d2r; rw [show (45 : ℝ) * (π / 180) = π / 4 by ring, cos_pi_div_four]
  apply C38_partial (by norm_num)
  · rw [hc]
    have : (1 : ℝ) ≤ sqrt 2 := by rw [show (1 : ℝ) = sqrt 1 by simp]; exact sqrt_le_sqrt (by norm_num)
    have h6 : (1 : ℝ) / 10 ^ 6 ≤ 1 / 2 := by norm_num
    linarith
  · rw [zero_sub, abs_neg, abs_of_pos (by unfold d2r; positivity)]
    unfold d2r
    have h6 : (1 : ℝ) / 10 ^ 6 ≤ 1 / 2 := by norm_num
    linarith

end SatSky.Props
