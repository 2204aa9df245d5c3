import Verif.Model.Deep
import Verif.Props.Sidereal
import Verif.Spec.Sidereal

/-! C113: the sidereal time of the deep-space model and of the observer against the polynomial for any instant. -/

namespace SatSky.Props

open Real SatSky.Spec SatSky.Geo

/-- The two functions of the name `ThetaG` give the same number for every date. -/
theorem C113_same (jd : ℝ) : Sxp.ThetaG jd = ThetaG jd := by
  unfold Sxp.ThetaG ThetaG
  dsimp only
  have hJ : JD2000 = 2451545 := by unfold JD2000; norm_num
  have e1 : Sxp.omegaE = 100273790934 / 10 ^ 11 := by unfold Sxp.omegaE; norm_num
  rw [hJ, e1]
  set ut := fmod (jd + 1 / 2) 1
  set T := (jd - ut - 2451545) / 36525
  have e2 : ∀ x : ℝ, fmod (x / 86400) 1 = fmod x 86400 / 86400 := by
    intro x; unfold fmod; rw [div_one]; ring
  have e3 : (2411054841 / 10 ^ 5 + T * (8640184812866 / 10 ^ 6 + T * (93104 / 10 ^ 6 - T * (62 / 10 ^ 7)))) / 86400 + 100273790934 / 10 ^ 11 * ut
      = (gmst0 T + 86400 * (100273790934 / 10 ^ 11) * ut) / 86400 := by unfold gmst0; ring
  rw [e3, e2]
  set g := fmod (gmst0 T + 86400 * (100273790934 / 10 ^ 11) * ut) 86400
  by_cases h : g < 0
  · rw [if_pos h, if_pos (by linarith)]; ring
  · rw [if_neg h, if_neg (by linarith)]; ring

/-- C113: the angle is in `[0, 2π)`. -/
theorem C113_range (jd : ℝ) : 0 ≤ Sxp.ThetaG jd ∧ Sxp.ThetaG jd < 2 * π := by
  unfold Sxp.ThetaG
  dsimp only
  generalize (2411054841 / 10 ^ 5 + (jd - fmod (jd + 1 / 2) 1 - 2451545) / 36525 * (8640184812866 / 10 ^ 6 + (jd - fmod (jd + 1 / 2) 1 - 2451545) / 36525 *
    (93104 / 10 ^ 6 - (jd - fmod (jd + 1 / 2) 1 - 2451545) / 36525 * (62 / 10 ^ 7)))) / 86400 + Sxp.omegaE * fmod (jd + 1 / 2) 1 = x
  have hπ := pi_pos
  rcases lt_or_ge x 0 with hx | hx
  · obtain ⟨h1, h2⟩ := fmod_neg (m := 1) one_pos hx
    by_cases h : fmod x 1 < 0
    · rw [if_pos h]; constructor <;> nlinarith
    · rw [if_neg h]; constructor <;> nlinarith
  · obtain ⟨h1, h2⟩ := fmod_nonneg (m := 1) one_pos hx
    rw [if_neg (not_lt.mpr h1)]; constructor <;> nlinarith

theorem gmst_poly {x y : ℝ} (hx : |x| ≤ 2001 / 1000) (hy : 0 ≤ y) (hy1 : y ≤ 1) :
    |(gmst0 x + 86400 * (100273790934 / 10 ^ 11) * y) / 240 + 180
      - (280.46061837 + 360.98564736629 * (36525 * x + y) + 0.000387933 * (x + y / 36525) ^ 2 - (x + y / 36525) ^ 3 / 38710000)
      + 360 * (36525 * x)| ≤ 4 / 10 ^ 7 := by
  rw [abs_le] at hx
  obtain ⟨a, b⟩ := hx
  have m1 : 0 ≤ x ^ 2 ∧ x ^ 2 ≤ 5 := ⟨by positivity, by nlinarith⟩
  have m2 : -10 ≤ x ^ 3 ∧ x ^ 3 ≤ 10 := by constructor <;> nlinarith
  have m3 : -3 ≤ x * y ∧ x * y ≤ 3 := by constructor <;> nlinarith
  have m4 : 0 ≤ x ^ 2 * y ∧ x ^ 2 * y ≤ 5 := ⟨by positivity, by nlinarith⟩
  have m5 : 0 ≤ y ^ 2 ∧ y ^ 2 ≤ 1 := ⟨by positivity, by nlinarith⟩
  have m6 : -3 ≤ x * y ^ 2 ∧ x * y ^ 2 ≤ 3 := by constructor <;> nlinarith
  have m7 : 0 ≤ y ^ 3 ∧ y ^ 3 ≤ 1 := ⟨by positivity, by nlinarith [pow_le_one₀ hy hy1 (n := 3)]⟩
  unfold gmst0
  rw [abs_le]
  constructor <;> ring_nf <;> linarith [m1.1, m1.2, m2.1, m2.2, m3.1, m3.2, m4.1, m4.2, m5.1, m5.2, m6.1, m6.2, m7.1, m7.2]

/-- C113: from 1800 to 2199 the sidereal time of the program agrees with the polynomial within 0.0000004 degree, up to whole turns. -/
theorem C113_sidereal (jd : ℝ) (h : |jd - 2451545| ≤ 73050) :
    ∃ n : ℤ, |Sxp.ThetaG jd * (180 / π) - siderealDeg jd - 360 * n| ≤ 4 / 10 ^ 7 := by
  rw [C113_same]
  have hJ : JD2000 = 2451545 := by unfold JD2000; norm_num
  have hπ := pi_pos
  obtain ⟨a, b⟩ := abs_le.mp h
  obtain ⟨u0, u1⟩ := fmod_nonneg (m := 1) one_pos (show 0 ≤ jd + 1 / 2 by linarith)
  obtain ⟨q, hq⟩ := fmod_turns (jd + 1 / 2) 1
  obtain ⟨m, hm⟩ := fmod_turns (gmst0 ((jd - fmod (jd + 1 / 2) 1 - 2451545) / 36525) + 86400 * (100273790934 / 10 ^ 11) * fmod (jd + 1 / 2) 1) 86400
  have hT : ∃ m : ℤ, ThetaG jd = 2 * π * (gmst0 ((jd - fmod (jd + 1 / 2) 1 - 2451545) / 36525)
      + 86400 * (100273790934 / 10 ^ 11) * fmod (jd + 1 / 2) 1 + 86400 * m) / 86400 := by
    unfold ThetaG
    dsimp only
    rw [hJ]
    split_ifs with hc
    · exact ⟨m + 1, by rw [hm]; push_cast; ring⟩
    · exact ⟨m, by rw [hm]⟩
  clear hm m
  obtain ⟨m, hm⟩ := hT
  generalize fmod (jd + 1 / 2) 1 = y at *
  have hx : |(jd - y - 2451545) / 36525| ≤ 2001 / 1000 := by rw [abs_le]; constructor <;> linarith
  have key := gmst_poly hx u0 u1.le
  have hN : jd - y = -q - 1 / 2 := by linarith
  refine ⟨m + (q + 2451545), le_of_eq_of_le (congrArg _ ?_) key⟩
  have e1 : 36525 * ((jd - y - 2451545) / 36525) = jd - y - 2451545 := by ring
  have e2 : ThetaG jd * (180 / π) = (gmst0 ((jd - y - 2451545) / 36525) + 86400 * (100273790934 / 10 ^ 11) * y) / 240 + 360 * m := by
    rw [hm]; field_simp; ring
  rw [e1, e2]
  unfold siderealDeg
  dsimp only
  have e3 : (jd - 2451545) / 36525 = (jd - y - 2451545) / 36525 + y / 36525 := by ring
  rw [e3]
  generalize (jd - y - 2451545) / 36525 = x
  push_cast
  have e4 : (q : ℝ) = -(jd - y) - 1 / 2 := by linarith
  rw [e4]
  ring

/-- C113: the same for the sidereal time, in hours, that the program reports and uses for the target and the sub-satellite point. -/
theorem C113_reported {n : ℕ} {jd lon l g : ℝ} (h : |jd - 2451545| ≤ 73050) (hg : lmst_hr n jd lon = some (l, g)) :
    ∃ n : ℤ, |g * 15 - siderealDeg jd - 360 * n| ≤ 4 / 10 ^ 7 := by
  obtain ⟨a, b⟩ := abs_le.mp h
  obtain ⟨k, hk⟩ := C75_agree (show 0 ≤ jd by linarith) hg
  obtain ⟨m, hm⟩ := C113_sidereal jd h
  refine ⟨m + k, le_of_eq_of_le (congrArg _ ?_) hm⟩
  rw [C113_same]
  have hπ := pi_pos
  have : g * 15 = ThetaG jd * (180 / π) + 360 * k := by
    field_simp at hk ⊢
    linarith
  rw [this]; push_cast; ring

/-- Meeus, example 12.b: 1987 April 10, 19h21m UT, 128.7378734 degrees. -/
example : |siderealDeg 2446896.30625 + 360 * 4661 - 128.7378734| ≤ 1 / 10 ^ 6 := by
  unfold siderealDeg
  rw [abs_le]
  constructor <;> norm_num

end SatSky.Props
