import Verif.Props.High
import Verif.Props.Tilt
import Verif.Spec.MoonTheory
import Verif.Spec.Sun
import Mathlib.Analysis.Real.Pi.Bounds
import Mathlib.Analysis.SpecialFunctions.Trigonometric.Bounds

/-! C116, C117: the positions of Moon and Sun used for elements of type 'H'. -/

namespace SatSky.Props

open Real SatSky.Spec SatSky.High

theorem high_args (t : ℝ) : lPrime t = moonL t * (π / 180) ∧ mPrime t = moonM' t * (π / 180) ∧ mSolar t = moonM t * (π / 180) ∧
    fArg t = moonF t * (π / 180) ∧ lunarMeanElong t = moonD t * (π / 180) := by
  unfold lPrime mPrime mSolar fArg lunarMeanElong moonL moonM' moonM moonF moonD
  refine ⟨?_, ?_, ?_, ?_, ?_⟩ <;> ring

/-- C116, latitude: the four largest terms of the theory. -/
theorem C116_latitude (t : ℝ) : lunarLat t = moonLat t * (π / 180) := by
  obtain ⟨_, h2, h3, h4, h5⟩ := high_args t
  unfold lunarLat moonLat moonLatTerms
  simp only [List.map_cons, List.map_nil, List.sum_cons, List.sum_nil, MoonTerm.arg]
  rw [h2, h4, h5]
  push_cast
  ring_nf

/-- C116, longitude: the mean longitude and the six largest terms of the theory, within 0.00005 degrees. -/
theorem C116_longitude (t : ℝ) : |lunarLon t / (π / 180) - moonLon t| ≤ 5 / 100000 := by
  obtain ⟨h1, h2, h3, h4, h5⟩ := high_args t
  have e : lunarLon t = (moonLon t - 5 / 100000 * sin (moonM t * (π / 180))) * (π / 180) := by
    unfold lunarLon moonLon moonLonTerms
    simp only [List.map_cons, List.map_nil, List.sum_cons, List.sum_nil, MoonTerm.arg]
    rw [h1, h2, h3, h4, h5]
    push_cast
    ring_nf
  rw [e, mul_div_assoc, div_self (by positivity), mul_one]
  have := abs_sin_le_one (moonM t * (π / 180))
  rw [show moonLon t - 5 / 100000 * sin (moonM t * (π / 180)) - moonLon t = -(5 / 100000) * sin (moonM t * (π / 180)) by ring, abs_mul]
  norm_num
  linarith

/-- C116, Sun: for a century around 2000 its longitude is that of the Almanac within 0.03 degrees. -/
theorem C116_sun (jd : ℝ) (h : |jd - 2451545| ≤ 36525) : |solarLon (tCen jd) / (π / 180) - almanacLongitude (jd - 2451545)| ≤ 3 / 100 := by
  obtain ⟨n, hn⟩ : ∃ n, n = jd - 2451545 := ⟨_, rfl⟩
  have ht : tCen jd = n / 36525 := by rw [hn]; rfl
  rw [← hn] at h ⊢
  rw [ht]
  have e : solarLon (n / 36525) / (π / 180) = 280.46646 + 36000.76983 * (n / 36525) + 1.914602 * sin (mSolar (n / 36525)) := by
    unfold solarLon lSolar
    have := pi_pos.ne'
    field_simp
  rw [e]
  unfold almanacLongitude
  have hm : |mSolar (n / 36525) - almanacAnomaly n * (π / 180)| ≤ 4 / 100000 := by
    have e : mSolar (n / 36525) - almanacAnomaly n * (π / 180) = (357.5291092 - 357.528 + (35999.0502909 / 36525 - 0.9856003) * n) * (π / 180) := by
      unfold mSolar almanacAnomaly; ring
    rw [e, abs_mul, abs_of_pos (by positivity : 0 < π / 180)]
    have h1 : |(357.5291092 - 357.528 + (35999.0502909 / 36525 - 0.9856003) * n : ℝ)| ≤ 2 / 1000 := by
      obtain ⟨a, b⟩ := abs_le.mp h
      rw [abs_le]
      constructor <;> norm_num <;> linarith
    have h2 : π / 180 ≤ 2 / 100 := by linarith [pi_lt_d2]
    calc _ ≤ 2 / 1000 * (2 / 100) := mul_le_mul h1 h2 (by positivity) (by norm_num)
      _ ≤ _ := by norm_num
  have hs := (sin_lip (mSolar (n / 36525)) (almanacAnomaly n * (π / 180))).trans hm
  obtain ⟨s1, s2⟩ := abs_le.mp hs
  obtain ⟨a, b⟩ := abs_le.mp h
  obtain ⟨c1, c2⟩ := abs_le.mp (abs_sin_le_one (2 * (almanacAnomaly n * (π / 180))))
  obtain ⟨d1, d2⟩ := abs_le.mp (abs_sin_le_one (almanacAnomaly n * (π / 180)))
  rw [abs_le]
  constructor <;> norm_num at * <;> linarith

theorem lunarR_eq (t : ℝ) : lunarR t = moonDist t + 569925 * (cos (2 * (moonM' t * (π / 180))) - cos (2 * (moonM t * (π / 180)))) := by
  obtain ⟨h1, h2, h3, h4, h5⟩ := high_args t
  unfold lunarR moonDist moonDistTerms
  simp only [List.map_cons, List.map_nil, List.sum_cons, List.sum_nil, MoonTerm.arg]
  rw [h2, h3, h5]
  push_cast
  ring_nf

/-- C117, what holds: the distance is that of the four largest terms of the theory within 1140 km. -/
theorem C117_distance_partial (t : ℝ) : |lunarR t - moonDist t| ≤ 1139850 := by
  rw [lunarR_eq]
  obtain ⟨a, b⟩ := abs_le.mp (abs_cos_le_one (2 * (moonM' t * (π / 180))))
  obtain ⟨c, d⟩ := abs_le.mp (abs_cos_le_one (2 * (moonM t * (π / 180))))
  rw [abs_le]
  constructor <;> linarith

/-- C117 is violated: the fourth term has the anomaly of the Sun instead of that of the Moon; 100 days after the beginning of 2000 the distance is wrong by more than
1100 km, twice the size of the term. -/
theorem C117_distance_violated : ∃ jd : ℝ, 2451544 < jd ∧ jd < 2451545 + 150 ∧ 1100000 < lunarR (tCen jd) - moonDist (tCen jd) := by
  refine ⟨2451545 + 36525 * ((1440 - 134.9633964) / 477198.8675055), by norm_num, by norm_num, ?_⟩
  have ht : tCen (2451545 + 36525 * ((1440 - 134.9633964) / 477198.8675055)) = (1440 - 134.9633964) / 477198.8675055 := by
    unfold tCen; norm_num
  rw [ht, lunarR_eq]
  have h1 : cos (2 * (moonM' ((1440 - 134.9633964) / 477198.8675055) * (π / 180))) = 1 := by
    rw [show 2 * (moonM' ((1440 - 134.9633964) / 477198.8675055) * (π / 180)) = (8 : ℕ) * (2 * π) by unfold moonM'; norm_num; ring]
    exact cos_nat_mul_two_pi 8
  have h2 : cos (2 * (moonM ((1440 - 134.9633964) / 477198.8675055) * (π / 180))) ≤ -0.95 := by
    obtain ⟨δ, hδ⟩ : ∃ δ : ℝ, δ = 2 * moonM ((1440 - 134.9633964) / 477198.8675055) - 900 := ⟨_, rfl⟩
    have hb : 0 ≤ δ ∧ δ ≤ 13 := by rw [hδ]; unfold moonM; constructor <;> norm_num
    have e : 2 * (moonM ((1440 - 134.9633964) / 477198.8675055) * (π / 180)) = δ * (π / 180) + π + (2 : ℕ) * (2 * π) := by
      rw [hδ]; push_cast; ring
    rw [e, cos_add_nat_mul_two_pi, cos_add_pi]
    have h3 := one_sub_sq_div_two_le_cos (x := δ * (π / 180))
    have h4 : δ * (π / 180) ≤ 13 * (3.15 / 180) := mul_le_mul hb.2 (by linarith [pi_lt_d2]) (by positivity) (by norm_num)
    have h5 : 0 ≤ δ * (π / 180) := mul_nonneg hb.1 (by positivity)
    nlinarith
  rw [h1]
  linarith

/-- The century covered reaches to 2099. -/
example : |solarLon (tCen 2488069.5) / (π / 180) - almanacLongitude (2488069.5 - 2451545)| ≤ 3 / 100 := C116_sun _ (by norm_num)

end SatSky.Props
