import Verif.Spec.Sun
import Verif.Lemmas.Angles
import Verif.Lemmas.Sphere
import Verif.Props.Angles
import Verif.Props.Shadow

/-! Positions seen by the observer: C37 (right ascension, declination, distance), C72 (the Sun), C73 (the observer). -/

namespace SatSky.Props

open SatSky SatSky.Spec SatSky.Geo Real

/-! ### C37 -/

theorem cos_arcsin_div {x y z d : ℝ} (hd : 0 < d) (h : d * d = x * x + y * y + z * z) :
    d * cos (arcsin (z / d)) = sqrt (x * x + y * y) ∧ d * sin (arcsin (z / d)) = z := by
  have hz : |z / d| ≤ 1 := by
    rw [abs_div, abs_of_pos hd, div_le_one hd]
    exact abs_le_of_sq_le_sq (by nlinarith [mul_self_nonneg x, mul_self_nonneg y]) hd.le
  obtain ⟨h1, h2⟩ := abs_le.mp hz
  constructor
  · rw [cos_arcsin]
    have : 1 - (z / d) ^ 2 = (x * x + y * y) / (d * d) := by field_simp; linarith
    rw [this, sqrt_div (by nlinarith [mul_self_nonneg x, mul_self_nonneg y]), sqrt_mul_self hd.le]
    field_simp
  · rw [sin_arcsin h1 h2]
    field_simp

/-- C37: for a satellite not at the observer, right ascension is in `[0, 2π)`, declination in `[-π/2, π/2]`, the distance is
positive and the three give back the vector from the observer to the satellite. -/
theorem C37_topocentric {obs sat : V3} (h : obs ≠ sat) {ra dec d : ℝ}
    (hr : get_satellite_ra_dec_delta obs sat = (ra, dec, d)) :
    (0 ≤ ra ∧ ra < 2 * π) ∧ (-(π / 2) ≤ dec ∧ dec ≤ π / 2) ∧ 0 < d ∧ V3.smul d (dir ra dec) = sat.sub obs := by
  unfold get_satellite_ra_dec_delta at hr
  dsimp only at hr
  simp only [Prod.mk.injEq] at hr
  obtain ⟨rfl, rfl, rfl⟩ := hr
  have hd := sqrt_pos.mpr (dot_pos h)
  have hdd := mul_self_sqrt (dot_nonneg (sat.sub obs))
  generalize sqrt ((sat.sub obs).dot (sat.sub obs)) = d at hd hdd
  generalize sat.sub obs = v at *
  have ⟨a1, a2⟩ := atan2_range v.y v.x
  have ⟨p1, p2⟩ := atan2_polar v.y v.x
  have ⟨c1, c2⟩ := cos_arcsin_div (x := v.x) (y := v.y) (z := v.z) hd (by rw [hdd]; rfl)
  have hcs : ∀ t : ℝ, cos (if t < 0 then t + 2 * π else t) = cos t ∧ sin (if t < 0 then t + 2 * π else t) = sin t := by
    intro t
    split_ifs
    · exact ⟨cos_add_two_pi t, sin_add_two_pi t⟩
    · exact ⟨rfl, rfl⟩
  refine ⟨?_, ⟨neg_pi_div_two_le_arcsin _, arcsin_le_pi_div_two _⟩, hd, ?_⟩
  · split_ifs with hn
    · constructor <;> linarith [pi_pos]
    · constructor <;> linarith [pi_pos]
  · simp only [V3.smul, dir, (hcs _).1, (hcs _).2]
    ext
    · dsimp only
      rw [← mul_assoc, c1, p1]
    · dsimp only
      rw [← mul_assoc, c1, p2]
    · exact c2

/-- The same for the functions themselves: the satellite seen to the south (-y) on the horizon plane of the equator. -/
example : get_satellite_ra_dec_delta ⟨1, 2, 3⟩ ⟨1, 0, 3⟩ = (3 * (π / 2), 0, 2) := by
  have hp := pi_pos
  have e : atan2 (-2) 0 = -(π / 2) := by
    unfold atan2
    rw [show (⟨0, -2⟩ : ℂ) = ((2 : ℝ) : ℂ) * -Complex.I by apply Complex.ext <;> simp, Complex.arg_real_mul _ (by norm_num),
      Complex.arg_neg_I]
  have e4 : sqrt 4 = 2 := by rw [show (4 : ℝ) = 2 * 2 by norm_num]; exact sqrt_mul_self (by norm_num)
  unfold get_satellite_ra_dec_delta V3.sub V3.dot
  norm_num
  rw [e, if_pos (by linarith)]
  exact ⟨by ring, e4⟩

/-! ### C72 -/

theorem sunLambda_eq (jd : ℝ) : sunLambda jd = almanacLongitude (jd - 2451545) * (π / 180) := by
  unfold sunLambda almanacLongitude almanacAnomaly JD2000 d2r
  norm_num

theorem sunEps_eq (jd : ℝ) : sunEps jd = almanacObliquity (jd - 2451545) * (π / 180) := by
  unfold sunEps almanacObliquity JD2000 d2r
  norm_num

/-- C72: the direction of the Sun is that of the point of the ecliptic with the longitude and for the obliquity given by the almanac; right
ascension is in `[0, 2π)`, declination in `[-π/2, π/2]`. -/
theorem C72_sun_direction (jd : ℝ) {ra dec : ℝ} (h : lpsun_radec jd = (ra, dec)) :
    (0 ≤ ra ∧ ra < 2 * π) ∧ (-(π / 2) ≤ dec ∧ dec ≤ π / 2) ∧ dir ra dec = sunDir jd := by
  unfold sunDir eclipticDir
  rw [← sunLambda_eq, ← sunEps_eq]
  unfold lpsun_radec at h
  dsimp only at h
  generalize sunLambda jd = la at *
  generalize sunEps jd = e at *
  obtain ⟨rfl, rfl⟩ := Prod.mk.injEq .. ▸ h
  obtain ⟨h0, h1, hc, hs⟩ := C40_atan_circ (cos la) (cos e * sin la)
  have hu : (1 : ℝ) * 1 = cos la * cos la + cos e * sin la * (cos e * sin la) + sin e * sin la * (sin e * sin la) := by
    have a := sin_sq_add_cos_sq la
    have b := sin_sq_add_cos_sq e
    linear_combination -a - (sin la) ^ 2 * b
  have ⟨c1, c2⟩ := cos_arcsin_div (d := 1) one_pos hu
  rw [one_mul, div_one] at c1 c2
  refine ⟨⟨h0, h1⟩, ⟨neg_pi_div_two_le_arcsin _, arcsin_le_pi_div_two _⟩, ?_⟩
  unfold dir
  rw [c1, c2, hc, hs]

/-- C72: the vector used for the shadow test is that direction at the distance of one astronomical unit. -/
theorem C72_sun_vector (ra dec : ℝ) : sphrad2v ra dec = dir ra dec ∧ (V3.smul AU_KM (sphrad2v ra dec)).len = AU_KM := by
  have e : sphrad2v ra dec = dir ra dec := by
    unfold sphrad2v dir
    ext <;> dsimp only <;> ring
  refine ⟨e, ?_⟩
  have ha : 0 ≤ AU_KM := by unfold AU_KM; norm_num
  unfold V3.len
  rw [e, show (V3.smul AU_KM (dir ra dec)).dot (V3.smul AU_KM (dir ra dec)) = AU_KM * AU_KM * (dir ra dec).dot (dir ra dec) by
    unfold V3.dot V3.smul; dsimp only; ring, dot_dir_self, mul_one, sqrt_mul_self ha]

/-- C72: the declination of the Sun never exceeds the inclination of the ecliptic. -/
theorem C72_sun_dec {jd ra dec : ℝ} (h : lpsun_radec jd = (ra, dec)) (he : 0 ≤ almanacObliquity (jd - 2451545) ∧ almanacObliquity (jd - 2451545) ≤ 90) :
    |dec| ≤ almanacObliquity (jd - 2451545) * (π / 180) := by
  have he : 0 ≤ sunEps jd ∧ sunEps jd ≤ π / 2 := by
    rw [sunEps_eq]
    constructor <;> nlinarith [he.1, he.2, pi_pos]
  rw [← sunEps_eq]
  obtain ⟨_, ⟨d1, d2⟩, hd⟩ := C72_sun_direction jd h
  unfold sunDir eclipticDir at hd
  rw [← sunLambda_eq, ← sunEps_eq] at hd
  have hs : sin dec = sin (sunEps jd) * sin (sunLambda jd) := congrArg V3.z hd
  have hn : 0 ≤ sin (sunEps jd) := sin_nonneg_of_nonneg_of_le_pi he.1 (by linarith [pi_pos])
  have h1 := sin_le_one (sunLambda jd)
  have h2 := neg_one_le_sin (sunLambda jd)
  rw [abs_le]
  constructor
  · have : sin (-sunEps jd) ≤ sin dec := by rw [sin_neg, hs]; nlinarith
    exact (strictMonoOn_sin.le_iff_le ⟨by linarith, by linarith⟩ ⟨d1, d2⟩).mp this
  · have : sin dec ≤ sin (sunEps jd) := by rw [hs]; nlinarith
    exact (strictMonoOn_sin.le_iff_le ⟨d1, d2⟩ ⟨by linarith, by linarith⟩).mp this

/-- The inclination is between 0 and a quarter turn for the times of interest. -/
example : 0 ≤ almanacObliquity (2458000 - 2451545) ∧ almanacObliquity (2458000 - 2451545) ≤ 90 := by
  unfold almanacObliquity
  norm_num

/-! ### C73 -/

/-- C73: without the height, the observer is on the ellipsoid of rotation with the two axes of lines 34-35 (in units of the major
axis), and `lat` is the angle of the normal of the ellipsoid with the equator. -/
theorem C73_ellipsoid {lat : ℝ} (ht : ℝ) (h : |lat| < π / 2) {rc rs : ℝ}
    (hr : earth_lat_alt_to_parallax lat ht = (rc, rs)) :
    ∃ x y : ℝ, x ^ 2 + (y / ratio) ^ 2 = 1 ∧ 0 < x ∧ x * sin lat = y / ratio ^ 2 * cos lat ∧
      rc = x + ht / axis * cos lat ∧ rs = y + ht / axis * sin lat := by
  obtain ⟨l1, l2⟩ := abs_lt.mp h
  have hc : 0 < cos lat := cos_pos_of_mem_Ioo ⟨l1, l2⟩
  have hq : 0 < ratio := by unfold ratio; norm_num
  unfold earth_lat_alt_to_parallax at hr
  dsimp only at hr
  obtain ⟨rfl, rfl⟩ := Prod.mk.injEq .. ▸ hr
  set u := arctan (sin lat * ratio / cos lat) with hu
  have hcu : 0 < cos u := cos_arctan_pos _
  have htu : tan u = sin lat * ratio / cos lat := tan_arctan _
  rw [tan_eq_sin_div_cos, div_eq_div_iff hcu.ne' hc.ne'] at htu
  refine ⟨cos u, ratio * sin u, ?_, hcu, ?_, rfl, rfl⟩
  · rw [mul_div_cancel_left₀ _ hq.ne']
    linarith [sin_sq_add_cos_sq u]
  · field_simp
    linarith

/-- C73: the observer's vector has the right ascension `lon + ThetaG` (the local sidereal time) and the components of the
meridian section, in km. -/
theorem C73_observer (jd lon : ℝ) {rc rs : ℝ} (h : 0 < rc) :
    ∃ d phi : ℝ, 0 < d ∧ |phi| < π / 2 ∧ d * cos phi = rc * 6378.14 ∧ d * sin phi = rs * 6378.14 ∧
      observer_cartesian_coords jd lon rc rs = V3.smul d (dir (lon + ThetaG jd) phi) := by
  have hp : 0 < rc * 6378.14 := by positivity
  have hd : 0 < rc * 6378.14 * (rc * 6378.14) + rs * 6378.14 * (rs * 6378.14) := by
    nlinarith [mul_self_nonneg (rs * 6378.14), mul_pos hp hp]
  have ⟨p1, p2⟩ := atan2_polar (rs * 6378.14) (rc * 6378.14)
  refine ⟨sqrt (rc * 6378.14 * (rc * 6378.14) + rs * 6378.14 * (rs * 6378.14)), atan2 (rs * 6378.14) (rc * 6378.14),
    sqrt_pos.mpr hd, ?_, p1, p2, ?_⟩
  · exact Complex.abs_arg_lt_pi_div_two_iff.mpr (Or.inl hp)
  · unfold observer_cartesian_coords axis V3.smul dir
    ext
    · dsimp only
      rw [← mul_assoc, p1]; ring
    · dsimp only
      rw [← mul_assoc, p1]; ring
    · dsimp only
      rw [p2]; ring

/-- At the equator and height 0 the observer is at distance 1 from the axis and in the plane of the equator. -/
example : earth_lat_alt_to_parallax 0 0 = (1, 0) := by
  simp [earth_lat_alt_to_parallax]

end SatSky.Props
