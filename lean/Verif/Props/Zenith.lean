import Verif.Model.Zenith
import Verif.Props.Tilt
import Verif.Spec.Sidereal
import Mathlib.Tactic.NormNum.RealSqrt

/-! C114, C115: the right ascension of the zenith. -/

namespace SatSky.Props

open Real SatSky.Spec SatSky.Zen

theorem midnight_eq (jd : ℝ) : ∃ n : ℤ, (midnight jd).1 = n - 1 / 2 ∧ jd = (midnight jd).1 + (midnight jd).2 / 86400 ∧ 0 ≤ (midnight jd).2 ∧ (midnight jd).2 < 86400 := by
  have h1 := Int.floor_le jd
  have h2 := Int.lt_floor_add_one jd
  unfold midnight
  dsimp only
  by_cases h : jd - ⌊jd⌋ < 1 / 2
  · rw [if_pos h]
    exact ⟨⌊jd⌋, rfl, by dsimp only; ring, by dsimp only; nlinarith, by dsimp only; nlinarith⟩
  · rw [if_neg h]
    push Not at h
    exact ⟨⌊jd⌋ + 1, by push_cast; ring, by dsimp only; ring, by dsimp only; nlinarith, by dsimp only; nlinarith⟩

/-- The sidereal time before whole days are taken away, in seconds. -/
noncomputable def rawSeconds (x s : ℝ) : ℝ :=
  (((-2.0e-6 * x - 3.0e-7) * x + 9.27701e-2) * x + linear) * x + constant
    + ((((-(4 * 2.0e-6) * x - (3 * 3.0e-7)) * x + (2 * 9.27701e-2)) * x + linear) / (86400 * 36525) + 1) * s

theorem ut2gmst_eq (jd : ℝ) : 0 ≤ ut2gmst jd ∧ ut2gmst jd < 24 ∧
    ∃ n : ℤ, ut2gmst jd * 15 = rawSeconds (((midnight jd).1 - 2451545) / 36525) (midnight jd).2 / 240 + 360 * n := by
  unfold ut2gmst
  dsimp only
  change _ ∧ _ ∧ _
  set g := rawSeconds (((midnight jd).1 - 2451545) / 36525) (midnight jd).2 with hg
  have e : (((-2.0e-6 * (((midnight jd).1 - 2451545) / 36525) - 3.0e-7) * (((midnight jd).1 - 2451545) / 36525) + 9.27701e-2) * (((midnight jd).1 - 2451545) / 36525)
      + linear) * (((midnight jd).1 - 2451545) / 36525) + constant + ((((-(4 * 2.0e-6) * (((midnight jd).1 - 2451545) / 36525) - (3 * 3.0e-7)) *
      (((midnight jd).1 - 2451545) / 36525) + (2 * 9.27701e-2)) * (((midnight jd).1 - 2451545) / 36525) + linear) / (86400 * 36525) + 1) * (midnight jd).2 = g := by
    rw [hg]; rfl
  rw [e]
  have h1 := Int.floor_le (g / 86400)
  have h2 := Int.lt_floor_add_one (g / 86400)
  rw [le_div_iff₀ (by norm_num)] at h1
  rw [div_lt_iff₀ (by norm_num)] at h2
  have a : 0 ≤ (g - 86400 * ⌊g / 86400⌋) / 3600 := div_nonneg (by linarith) (by norm_num)
  have b : (g - 86400 * ⌊g / 86400⌋) / 3600 < 24 := by rw [div_lt_iff₀ (by norm_num)]; linarith
  rw [if_neg (not_lt.mpr a), if_neg (not_le.mpr b)]
  exact ⟨a, b, -⌊g / 86400⌋, by push_cast; ring⟩

theorem raw_near {x s : ℝ} (hx : |x| ≤ 1001 / 1000) (hs : 0 ≤ s) (hs1 : s ≤ 86400) :
    |rawSeconds x s / 240 + 180
      - (280.46061837 + 360.98564736629 * (36525 * x + s / 86400) + 0.000387933 * (x + s / 86400 / 36525) ^ 2 - (x + s / 86400 / 36525) ^ 3 / 38710000)
      + 360 * (36525 * x)| ≤ 1 / 1200 := by
  obtain ⟨y, rfl⟩ : ∃ y, s = 86400 * y := ⟨s / 86400, by ring⟩
  have y0 : 0 ≤ y := by linarith
  have y1 : y ≤ 1 := by linarith
  rw [abs_le] at hx
  obtain ⟨a, b⟩ := hx
  have m1 : 0 ≤ x ^ 2 ∧ x ^ 2 ≤ 2 := ⟨by positivity, by nlinarith⟩
  have m2 : -2 ≤ x ^ 3 ∧ x ^ 3 ≤ 2 := by constructor <;> nlinarith
  have m3 : -2 ≤ x * y ∧ x * y ≤ 2 := by constructor <;> nlinarith
  have m4 : 0 ≤ x ^ 2 * y ∧ x ^ 2 * y ≤ 2 := ⟨by positivity, by nlinarith⟩
  have m5 : 0 ≤ y ^ 2 ∧ y ^ 2 ≤ 1 := ⟨by positivity, by nlinarith⟩
  have m6 : -2 ≤ x * y ^ 2 ∧ x * y ^ 2 ≤ 2 := by constructor <;> nlinarith
  have m7 : 0 ≤ y ^ 3 ∧ y ^ 3 ≤ 1 := ⟨by positivity, pow_le_one₀ y0 y1⟩
  have m8 : -2 ≤ x ^ 3 * y ∧ x ^ 3 * y ≤ 2 := by constructor <;> nlinarith
  have m9 : 0 ≤ x ^ 4 ∧ x ^ 4 ≤ 4 := ⟨by positivity, by nlinarith⟩
  unfold rawSeconds linear constant
  rw [abs_le]
  constructor <;> ring_nf <;>
    linarith [m1.1, m1.2, m2.1, m2.2, m3.1, m3.2, m4.1, m4.2, m5.1, m5.2, m6.1, m6.2, m7.1, m7.2, m8.1, m8.2, m9.1, m9.2]

/-- C115, Greenwich: from 1900 to 2100 the sidereal time agrees with the polynomial within 3 arcseconds. -/
theorem C115_gmst_partial (jd : ℝ) (h : |jd - 2451545| ≤ 36525) : ∃ n : ℤ, |ut2gmst jd * 15 - siderealDeg jd - 360 * n| ≤ 1 / 1200 := by
  obtain ⟨q, h1, h2, h3, h4⟩ := midnight_eq jd
  obtain ⟨_, _, n, hn⟩ := ut2gmst_eq jd
  generalize (midnight jd).1 = m at *
  generalize (midnight jd).2 = s at *
  obtain ⟨a, b⟩ := abs_le.mp h
  have hx : |(m - 2451545) / 36525| ≤ 1001 / 1000 := by rw [abs_le]; constructor <;> linarith
  refine ⟨n + (2451545 - q), le_of_eq_of_le (congrArg _ ?_) (raw_near hx h3 h4.le)⟩
  have e1 : 36525 * ((m - 2451545) / 36525) = m - 2451545 := by ring
  have e2 : (jd - 2451545) / 36525 = (m - 2451545) / 36525 + s / 86400 / 36525 := by rw [h2]; ring
  rw [hn]
  unfold siderealDeg
  dsimp only
  rw [e1, e2]
  generalize rawSeconds ((m - 2451545) / 36525) s = R
  generalize (m - 2451545) / 36525 + s / 86400 / 36525 = T
  rw [show jd - 2451545 = m - 2451545 + s / 86400 by rw [h2]; ring]
  have e4 : (q : ℝ) = m + 1 / 2 := by linarith
  push_cast
  rw [e4]
  ring

theorem oneTurn_range {x : ℝ} (h1 : -24 ≤ x) (h2 : x < 48) : 0 ≤ oneTurn x ∧ oneTurn x < 24 ∧ ∃ n : ℤ, oneTurn x = x + 24 * n := by
  unfold oneTurn
  by_cases h : x < 0
  · rw [if_pos h]; exact ⟨by linarith, by linarith, 1, by push_cast; ring⟩
  rw [if_neg h]
  by_cases h' : x ≥ 24
  · rw [if_pos h']; exact ⟨by linarith, by linarith, -1, by push_cast; ring⟩
  rw [if_neg h']
  exact ⟨by linarith, by linarith, 0, by push_cast; ring⟩

/-- C114: for a longitude in `[-180, 180]` the right ascension of the zenith is in `[0, 360)` and is, from 1900 to 2100 within 3 arcseconds, the mean
sidereal time plus the longitude. -/
theorem C114_zenith (mjd lon : ℝ) (h1 : -180 ≤ lon) (h2 : lon ≤ 180) (h : |mjd - 51544.5| ≤ 36525) :
    0 ≤ zenith_site_ra mjd lon ∧ zenith_site_ra mjd lon < 360 ∧
    ∃ n : ℤ, |zenith_site_ra mjd lon - (siderealDeg (mjd + 2400000.5) + lon) - 360 * n| ≤ 1 / 1200 := by
  obtain ⟨a, b, _⟩ := ut2gmst_eq (mjd + 2400000.5)
  obtain ⟨n, hn⟩ := C115_gmst_partial (mjd + 2400000.5) (by rw [show mjd + 2400000.5 - 2451545 = mjd - 51544.5 by norm_num; ring]; exact h)
  have r1 : -12 ≤ lon / 15 := by rw [le_div_iff₀ (by norm_num)]; linarith
  have r2 : lon / 15 ≤ 12 := by rw [div_le_iff₀ (by norm_num)]; linarith
  obtain ⟨c, d, m, hm⟩ := oneTurn_range (x := ut2gmst (mjd + 2400000.5) + lon / 15) (by linarith) (by linarith)
  unfold zenith_site_ra
  refine ⟨by linarith, by linarith, n + m, le_of_eq_of_le (congrArg _ ?_) hn⟩
  rw [hm]
  push_cast
  ring

/-- C114, the apparent time: the same plus the equation of the equinoxes, which is at most 1.4 seconds. -/
theorem C114_apparent (s : Nut.TiltState) (hs : TiltOk s) (mjd lon : ℝ) (h1 : -180 ≤ lon) (h2 : lon ≤ 180) (h : |mjd - 51544.5| ≤ 36525) :
    ∃ s' ra, zenith_site_ra_last s mjd lon = some (s', ra) ∧ TiltOk s' ∧ 0 ≤ ra ∧ ra < 360 ∧ |s'.val.eq| ≤ 14 / 10 ∧
    ∃ n : ℤ, |ra - (siderealDeg (mjd + 2400000.5) + s'.val.eq / 240 + lon) - 360 * n| ≤ 1 / 1200 := by
  have hd : |mjd + 2400000.5 - 2451545| ≤ 36525 := by rw [show mjd + 2400000.5 - 2451545 = mjd - 51544.5 by norm_num; ring]; exact h
  obtain ⟨d1, d2⟩ := abs_le.mp hd
  obtain ⟨s', e, ok, d', k1, k2, k3⟩ := earthtilt_ok hs (d := mjd + 2400000.5) (by rw [abs_of_pos] <;> linarith) (hd.trans (by norm_num))
  have heq : |s'.val.eq| ≤ 14 / 10 := by
    rw [k3]
    unfold tiltFresh
    dsimp only
    have hc : |century d'| ≤ 10 := by unfold century; rw [abs_div, abs_of_pos (by norm_num : (0 : ℝ) < 36525), div_le_iff₀ (by norm_num)]; linarith
    rw [abs_mul, abs_div, abs_of_pos (by norm_num : (0 : ℝ) < 15)]
    refine (mul_le_of_le_one_right (by positivity) (abs_cos_le_one _)).trans ?_
    rw [div_le_iff₀ (by norm_num)]
    exact (lon_le hc).trans (by norm_num)
  obtain ⟨q1, q2⟩ := abs_le.mp heq
  obtain ⟨a, b, _⟩ := ut2gmst_eq (mjd + 2400000.5)
  obtain ⟨n, hn⟩ := C115_gmst_partial (mjd + 2400000.5) hd
  have r1 : -12 ≤ lon / 15 := by rw [le_div_iff₀ (by norm_num)]; linarith
  have r2 : lon / 15 ≤ 12 := by rw [div_le_iff₀ (by norm_num)]; linarith
  obtain ⟨c, d, m, hm⟩ := oneTurn_range (x := ut2gmst (mjd + 2400000.5) + s'.val.eq / 3600 + lon / 15) (by linarith) (by linarith)
  refine ⟨s', oneTurn (ut2gmst (mjd + 2400000.5) + s'.val.eq / 3600 + lon / 15) * 15, ?_, ok, by linarith, by linarith, heq, n + m,
    le_of_eq_of_le (congrArg _ ?_) hn⟩
  · unfold zenith_site_ra_last ut2last ut2gast
    rw [e]
    rfl
  · rw [hm]
    push_cast
    ring

/-- C115 is violated: in 2050 the sidereal time is wrong by more than a second of arc, because a constant has the precision of `float`. -/
theorem C115_float_violated : ∃ jd : ℝ, |jd - 2451545| ≤ 36525 ∧ ∀ n : ℤ, 1 / 3600 < |ut2gmst jd * 15 - siderealDeg jd - 360 * n| := by
  have hm : midnight 2469807.5 = (2469807.5, 0) := by
    have : ⌊(2469807.5 : ℝ)⌋ = 2469807 := by rw [Int.floor_eq_iff]; norm_num
    unfold midnight
    rw [this]
    norm_num
  refine ⟨2469807.5, by norm_num, fun n => ?_⟩
  obtain ⟨_, _, m, h⟩ := ut2gmst_eq 2469807.5
  rw [hm] at h
  have e : ∃ r : ℝ, ut2gmst 2469807.5 * 15 - siderealDeg 2469807.5 = r + 360 * m - 360 * 18263 ∧ 1 / 3000 < r ∧ r < 1 / 2000 := by
    refine ⟨rawSeconds (1 / 2) 0 / 240 - siderealDeg 2469807.5 + 360 * 18263, ?_, ?_, ?_⟩
    · rw [h, show ((2469807.5, 0) : ℝ × ℝ).1 = 2469807.5 from rfl, show ((2469807.5 : ℝ) - 2451545) / 36525 = 1 / 2 by norm_num]
      ring
    all_goals unfold siderealDeg rawSeconds linear constant; norm_num
  obtain ⟨r, hr, h1, h2⟩ := e
  rw [hr]
  by_contra hc
  push Not at hc
  rw [abs_le] at hc
  have e2 : ((m - 18263 - n : ℤ) : ℝ) = m - 18263 - n := by push_cast; ring
  have k1 : ((m - 18263 - n : ℤ) : ℝ) < 0 := by rw [e2]; linarith [hc.2]
  have k2 : -1 < ((m - 18263 - n : ℤ) : ℝ) := by rw [e2]; linarith [hc.1]
  have k3 : (m - 18263 - n : ℤ) < 0 := by exact_mod_cast k1
  have k4 : -1 < (m - 18263 - n : ℤ) := by exact_mod_cast k2
  omega

/-- The midnight before noon of 1 January 2000. -/
example : midnight 2451545 = (2451544.5, 43200) := by
  unfold midnight
  norm_num

end SatSky.Props
