import Mathlib.Analysis.SpecialFunctions.Trigonometric.ArctanDeriv
import Mathlib.Analysis.SpecialFunctions.Integrals.Basic
import Mathlib.MeasureTheory.Integral.IntervalIntegral.IntegrationByParts
import Verif.Lemmas.ThirdBody

/-! Means of powers of `1 - η cos E` over a turn, by the substitution that leads from the eccentric to the true anomaly. -/

namespace SatSky.Conic

open Real

variable {b : ℝ}

/-- The true anomaly for the eccentricity `2 b / (1 + b ^ 2)`. -/
noncomputable def anom (b E : ℝ) : ℝ := E + 2 * arctan (b * sin E / (1 - b * cos E))

theorem one_sub_pos (hb : |b| < 1) (E : ℝ) : 0 < 1 - b * cos E := by
  have h1 := abs_mul b (cos E)
  have h2 := mul_le_mul_of_nonneg_left (abs_cos_le_one E) (abs_nonneg b)
  have := abs_lt.mp (show |b * cos E| < 1 by rw [h1]; linarith)
  linarith

theorem anom_deriv (hb : |b| < 1) (E : ℝ) : HasDerivAt (anom b) ((1 - b ^ 2) / (1 + b ^ 2 - 2 * b * cos E)) E := by
  have hp := one_sub_pos hb E
  have h1 : HasDerivAt (fun E => b * sin E / (1 - b * cos E)) ((b * cos E * (1 - b * cos E) - b * sin E * (b * sin E)) / (1 - b * cos E) ^ 2) E := by
    have := ((hasDerivAt_sin E).const_mul b).div (((hasDerivAt_cos E).const_mul b).const_sub 1) hp.ne'
    exact this.congr_deriv (by ring)
  have h2 := (hasDerivAt_id E).add ((h1.arctan).const_mul 2)
  refine h2.congr_deriv ?_
  have hs := sin_sq_add_cos_sq E
  have hD : 1 + b ^ 2 - 2 * b * cos E = (1 - b * cos E) ^ 2 + b ^ 2 * sin E ^ 2 := by linear_combination -b ^ 2 * hs
  have hD0 : 0 < (1 - b * cos E) ^ 2 + b ^ 2 * sin E ^ 2 := by positivity
  rw [hD]
  generalize sin E = s at *
  generalize cos E = c at *
  have : 1 + (b * s / (1 - b * c)) ^ 2 = ((1 - b * c) ^ 2 + b ^ 2 * s ^ 2) / (1 - b * c) ^ 2 := by field_simp
  rw [this]
  field_simp
  linear_combination (-(b ^ 2)) * hs

theorem cos_anom (hb : |b| < 1) (E : ℝ) : cos (anom b E) = ((1 + b ^ 2) * cos E - 2 * b) / (1 + b ^ 2 - 2 * b * cos E) := by
  have hp := one_sub_pos hb E
  have hs := sin_sq_add_cos_sq E
  have hD : 1 + b ^ 2 - 2 * b * cos E = (1 - b * cos E) ^ 2 + b ^ 2 * sin E ^ 2 := by linear_combination -b ^ 2 * hs
  have hD0 : 0 < (1 - b * cos E) ^ 2 + b ^ 2 * sin E ^ 2 := by positivity
  unfold anom
  rw [cos_add, cos_two_mul, sin_two_mul, cos_sq_arctan]
  have h3 : sin (arctan (b * sin E / (1 - b * cos E))) = b * sin E / (1 - b * cos E) * cos (arctan (b * sin E / (1 - b * cos E))) := by
    have := tan_mul_cos (cos_arctan_pos (b * sin E / (1 - b * cos E))).ne'
    rw [tan_arctan] at this; exact this.symm
  rw [h3, show 2 * (b * sin E / (1 - b * cos E) * cos (arctan (b * sin E / (1 - b * cos E)))) * cos (arctan (b * sin E / (1 - b * cos E)))
    = 2 * (b * sin E / (1 - b * cos E)) * cos (arctan (b * sin E / (1 - b * cos E))) ^ 2 by ring, cos_sq_arctan]
  rw [← hD] at hD0
  generalize sin E = s at *
  generalize cos E = c at *
  have h4 : 1 + (b * s / (1 - b * c)) ^ 2 = (1 + b ^ 2 - 2 * b * c) / (1 - b * c) ^ 2 := by rw [hD]; field_simp
  rw [h4]
  have h5 := hD0.ne'
  rw [eq_div_iff h5, one_div_div]
  have h6 : ∀ x y : ℝ, (c * (2 * (x / (1 + b ^ 2 - 2 * b * c)) - 1) - s * (2 * y * (x / (1 + b ^ 2 - 2 * b * c)))) * (1 + b ^ 2 - 2 * b * c)
      = c * (2 * x - (1 + b ^ 2 - 2 * b * c)) - s * (2 * y * x) := fun x y => by
    generalize 1 + b ^ 2 - 2 * b * c = D at *
    field_simp
  rw [h6, show s * (2 * (b * s / (1 - b * c)) * (1 - b * c) ^ 2) = 2 * b * s ^ 2 * (1 - b * c) by field_simp]
  linear_combination (-(2 * b * (1 - b * c))) * hs

theorem anom_zero (b : ℝ) : anom b 0 = 0 := by simp [anom]

theorem anom_turn (b : ℝ) : anom b (2 * π) = 2 * π := by simp [anom]

theorem denom_pos (hb : |b| < 1) (E : ℝ) : 0 < 1 + b ^ 2 - 2 * b * cos E := by
  have hp := one_sub_pos hb E
  have : 1 + b ^ 2 - 2 * b * cos E = (1 - b * cos E) ^ 2 + b ^ 2 * sin E ^ 2 := by linear_combination -b ^ 2 * sin_sq_add_cos_sq E
  rw [this]; positivity

/-- The substitution. -/
theorem substitute (hb : |b| < 1) (g : ℝ → ℝ) (hg : Continuous g) :
    ∫ E in (0)..(2 * π), g (((1 + b ^ 2) * cos E - 2 * b) / (1 + b ^ 2 - 2 * b * cos E)) * ((1 - b ^ 2) / (1 + b ^ 2 - 2 * b * cos E))
      = ∫ v in (0)..(2 * π), g (cos v) := by
  have h := intervalIntegral.integral_comp_mul_deriv (a := 0) (b := 2 * π) (f := anom b) (g := fun v => g (cos v))
    (fun x _ => anom_deriv hb x)
    (by
      apply Continuous.continuousOn
      exact continuous_const.div (by fun_prop) (fun x => (denom_pos hb x).ne'))
    (by fun_prop)
  rw [anom_zero, anom_turn] at h
  rw [← h]
  refine intervalIntegral.integral_congr (fun E _ => ?_)
  simp only [Function.comp, cos_anom hb]

/-- The same in terms of the eccentricity `η`. -/
theorem substitute_ecc {η : ℝ} (h : |η| < 1) (g : ℝ → ℝ) (hg : Continuous g) :
    ∫ E in (0)..(2 * π), g ((cos E - η) / (1 - η * cos E)) * (√(1 - η ^ 2) / (1 - η * cos E)) = ∫ v in (0)..(2 * π), g (cos v) := by
  have hu : 0 < 1 - η ^ 2 := by nlinarith [abs_lt.mp h]
  have hq : 0 < √(1 - η ^ 2) := sqrt_pos.mpr hu
  have hqs : √(1 - η ^ 2) ^ 2 = 1 - η ^ 2 := sq_sqrt hu.le
  have hb : |η / (1 + √(1 - η ^ 2))| < 1 := by
    rw [abs_div, abs_of_pos (by linarith : 0 < 1 + √(1 - η ^ 2)), div_lt_one (by linarith)]; linarith
  rw [← substitute hb g hg]
  refine intervalIntegral.integral_congr (fun E _ => ?_)
  have hd := one_sub_pos h E
  have hd2 := denom_pos hb E
  generalize √(1 - η ^ 2) = q at *
  generalize cos E = c at *
  have e1 : 1 + (η / (1 + q)) ^ 2 = 2 / (1 + q) := by field_simp; linear_combination hqs
  have e2 : 1 + (η / (1 + q)) ^ 2 - 2 * (η / (1 + q)) * c = 2 * (1 - η * c) / (1 + q) := by rw [e1]; field_simp
  have e3 : 1 - (η / (1 + q)) ^ 2 = 2 * q / (1 + q) := by field_simp; linear_combination -hqs
  rw [e2, e3, e1]
  congr 1
  · congr 1; field_simp
  · field_simp

variable {η : ℝ}

theorem true_radius (h : |η| < 1) (E : ℝ) : 1 + η * ((cos E - η) / (1 - η * cos E)) = (1 - η ^ 2) / (1 - η * cos E) := by
  have := (one_sub_pos h E).ne'
  field_simp
  ring

theorem true_plus (h : |η| < 1) (E : ℝ) : (cos E - η) / (1 - η * cos E) + η = (1 - η ^ 2) * cos E / (1 - η * cos E) := by
  have := (one_sub_pos h E).ne'
  rw [div_add' _ _ _ this]
  congr 1
  ring

/-- The mean of `(1 - η cos E)⁻⁴`, and those with the factors `cos E` and `cos² E`. -/
theorem mean_four (h : |η| < 1) :
    ∫ E in (0)..(2 * π), 1 / (1 - η * cos E) ^ 4 = 2 * π * (1 + 3 / 2 * η ^ 2) / √(1 - η ^ 2) ^ 7 := by
  have hu : 0 < 1 - η ^ 2 := by nlinarith [abs_lt.mp h]
  have hq : 0 < √(1 - η ^ 2) := sqrt_pos.mpr hu
  have hqs : √(1 - η ^ 2) ^ 2 = 1 - η ^ 2 := sq_sqrt hu.le
  have h1 := substitute_ecc h (fun c => (1 + η * c) ^ 3) (by fun_prop)
  simp only [true_radius h] at h1
  have h2 : (∫ v in (0)..(2 * π), (1 + η * cos v) ^ 3) = 2 * π * (1 + 3 / 2 * η ^ 2) := by
    have h := Tide.integral_trig 1 (3 * η) (3 * η ^ 2) (η ^ 3) 0 0 0
    rw [show (fun v => (1 + η * cos v) ^ 3) = fun E => (1 + 3 * η * cos E + 3 * η ^ 2 * cos E ^ 2 + η ^ 3 * cos E ^ 3 + 0 * sin E
      + 0 * (sin E ^ 1 * cos E ^ (2 * 0 + 1)) + 0 * (sin E * cos E ^ 2)) from funext fun v => by ring, h]
    ring
  rw [h2] at h1
  rw [← h1, eq_div_iff (by positivity), ← intervalIntegral.integral_mul_const]
  refine intervalIntegral.integral_congr (fun E _ => ?_)
  have hd := (one_sub_pos h E).ne'
  rw [show √(1 - η ^ 2) ^ 7 = (√(1 - η ^ 2) ^ 2) ^ 3 * √(1 - η ^ 2) by ring, hqs]
  field_simp

theorem mean_four_cos (h : |η| < 1) :
    ∫ E in (0)..(2 * π), cos E / (1 - η * cos E) ^ 4 = 2 * π * (2 * η + 1 / 2 * η ^ 3) / √(1 - η ^ 2) ^ 7 := by
  have hu : 0 < 1 - η ^ 2 := by nlinarith [abs_lt.mp h]
  have hq : 0 < √(1 - η ^ 2) := sqrt_pos.mpr hu
  have hqs : √(1 - η ^ 2) ^ 2 = 1 - η ^ 2 := sq_sqrt hu.le
  have h1 := substitute_ecc h (fun c => (c + η) * (1 + η * c) ^ 2) (by fun_prop)
  simp only [true_radius h, true_plus h] at h1
  have h2 : (∫ v in (0)..(2 * π), (cos v + η) * (1 + η * cos v) ^ 2) = 2 * π * (2 * η + 1 / 2 * η ^ 3) := by
    have h := Tide.integral_trig η (1 + 2 * η ^ 2) (2 * η + η ^ 3) (η ^ 2) 0 0 0
    rw [show (fun v => (cos v + η) * (1 + η * cos v) ^ 2) = fun E => (η + (1 + 2 * η ^ 2) * cos E + (2 * η + η ^ 3) * cos E ^ 2 + η ^ 2 * cos E ^ 3 + 0 * sin E
      + 0 * (sin E ^ 1 * cos E ^ (2 * 0 + 1)) + 0 * (sin E * cos E ^ 2)) from funext fun v => by ring, h]
    ring
  rw [h2] at h1
  rw [← h1, eq_div_iff (by positivity), ← intervalIntegral.integral_mul_const]
  refine intervalIntegral.integral_congr (fun E _ => ?_)
  have hd := (one_sub_pos h E).ne'
  rw [show √(1 - η ^ 2) ^ 7 = (√(1 - η ^ 2) ^ 2) ^ 3 * √(1 - η ^ 2) by ring, hqs]
  field_simp

theorem mean_four_cos_sq (h : |η| < 1) :
    ∫ E in (0)..(2 * π), cos E ^ 2 / (1 - η * cos E) ^ 4 = 2 * π * (1 / 2 + 2 * η ^ 2) / √(1 - η ^ 2) ^ 7 := by
  have hu : 0 < 1 - η ^ 2 := by nlinarith [abs_lt.mp h]
  have hq : 0 < √(1 - η ^ 2) := sqrt_pos.mpr hu
  have hqs : √(1 - η ^ 2) ^ 2 = 1 - η ^ 2 := sq_sqrt hu.le
  have h1 := substitute_ecc h (fun c => (c + η) ^ 2 * (1 + η * c)) (by fun_prop)
  simp only [true_radius h, true_plus h] at h1
  have h2 : (∫ v in (0)..(2 * π), (cos v + η) ^ 2 * (1 + η * cos v)) = 2 * π * (1 / 2 + 2 * η ^ 2) := by
    have h := Tide.integral_trig (η ^ 2) (2 * η + η ^ 3) (1 + 2 * η ^ 2) η 0 0 0
    rw [show (fun v => (cos v + η) ^ 2 * (1 + η * cos v)) = fun E => (η ^ 2 + (2 * η + η ^ 3) * cos E + (1 + 2 * η ^ 2) * cos E ^ 2 + η * cos E ^ 3 + 0 * sin E
      + 0 * (sin E ^ 1 * cos E ^ (2 * 0 + 1)) + 0 * (sin E * cos E ^ 2)) from funext fun v => by ring, h]
    ring
  rw [h2] at h1
  rw [← h1, eq_div_iff (by positivity), ← intervalIntegral.integral_mul_const]
  refine intervalIntegral.integral_congr (fun E _ => ?_)
  have hd := (one_sub_pos h E).ne'
  rw [show √(1 - η ^ 2) ^ 7 = (√(1 - η ^ 2) ^ 2) ^ 3 * √(1 - η ^ 2) by ring, hqs]
  field_simp

end SatSky.Conic
