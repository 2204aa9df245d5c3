import Verif.Lemmas.Sphere
import Mathlib.Analysis.Convex.Deriv
import Mathlib.Analysis.Convex.SpecificFunctions.Deriv
import Mathlib.Analysis.SpecialFunctions.Trigonometric.Deriv
import Mathlib.Analysis.SpecialFunctions.Sqrt
import Mathlib.Tactic.Positivity

namespace SatSky.Geo

open SatSky.Spec Real

theorem sin_slope {x y : ℝ} (hx : 0 < x) (hxy : x ≤ y) (hy : y ≤ π) : sin y / y ≤ sin x / x := by
  have hy0 : 0 < y := lt_of_lt_of_le hx hxy
  have m0 : (0 : ℝ) ∈ Set.Icc 0 π := ⟨le_refl _, pi_pos.le⟩
  have my : y ∈ Set.Icc 0 π := ⟨hy0.le, hy⟩
  have w0 : 0 ≤ 1 - x / y := by rw [sub_nonneg]; exact (div_le_one hy0).mpr hxy
  have w1 : 0 ≤ x / y := by positivity
  have h := strictConcaveOn_sin_Icc.concaveOn.2 m0 my w0 w1 (by ring)
  simp only [smul_eq_mul, mul_zero, sin_zero, zero_add] at h
  rw [div_mul_cancel₀ _ hy0.ne'] at h
  rw [div_le_div_iff₀ hy0 hx]
  have : x / y * sin y * y = sin y * x := by field_simp
  nlinarith

theorem convex_cos_sqrt : ConvexOn ℝ (Set.Icc 0 (π ^ 2)) (fun t => cos (sqrt t)) := by
  have hd : ∀ t ∈ Set.Ioo (0 : ℝ) (π ^ 2), HasDerivAt (fun t => cos (sqrt t)) (-sin (sqrt t) * (1 / (2 * sqrt t))) t := by
    intro t ht
    exact (hasDerivAt_cos (sqrt t)).comp t (hasDerivAt_sqrt ht.1.ne')
  apply MonotoneOn.convexOn_of_deriv (convex_Icc _ _)
  · exact (continuous_cos.comp continuous_sqrt).continuousOn
  · rw [interior_Icc]
    intro t ht
    exact (hd t ht).differentiableAt.differentiableWithinAt
  · rw [interior_Icc]
    intro s hs t ht hst
    rw [(hd s hs).deriv, (hd t ht).deriv]
    have h := sin_slope (sqrt_pos.mpr hs.1) (sqrt_le_sqrt hst)
      (by rw [← sqrt_sq pi_pos.le]; exact sqrt_le_sqrt ht.2.le)
    have e : ∀ u : ℝ, -sin u * (1 / (2 * u)) = -(sin u / u) / 2 := by intro u; by_cases hu : u = 0 <;> [simp [hu]; field_simp]
    rw [e, e]
    linarith

/-- On the sphere the hypotenuse is shorter than in the plane. -/
theorem cos_hyp_le {a b : ℝ} (h : a ^ 2 + b ^ 2 ≤ (π / 2) ^ 2) : cos (sqrt (a ^ 2 + b ^ 2)) ≤ cos a * cos b := by
  have hb : ∀ c : ℝ, c ^ 2 ≤ 2 * (a ^ 2 + b ^ 2) → c ^ 2 ∈ Set.Icc 0 (π ^ 2) := by
    intro c hc
    refine ⟨sq_nonneg _, ?_⟩
    nlinarith [pi_pos]
  have h1 := hb (a + b) (by nlinarith [sq_nonneg (a - b)])
  have h2 := hb (a - b) (by nlinarith [sq_nonneg (a + b)])
  have w : (0 : ℝ) ≤ 1 / 2 := by norm_num
  have hc := convex_cos_sqrt.2 h1 h2 w w (by norm_num)
  simp only [smul_eq_mul] at hc
  rw [sqrt_sq_eq_abs, sqrt_sq_eq_abs, cos_abs, cos_abs, cos_add, cos_sub,
    show 1 / 2 * (a + b) ^ 2 + 1 / 2 * (a - b) ^ 2 = a ^ 2 + b ^ 2 by ring] at hc
  linarith

/-- The angle between two directions is at most the length of the straight line in (longitude, latitude). -/
theorem angle_le_flat (a b c d : ℝ) : Spec.angle (dir a b) (dir c d) ≤ sqrt ((c - a) ^ 2 + (d - b) ^ 2) := by
  set s := sqrt ((c - a) ^ 2 + (d - b) ^ 2) with hs
  have hs0 : 0 ≤ s := sqrt_nonneg _
  rcases le_total π s with h | h
  · exact le_trans (InnerProductGeometry.angle_le_pi _ _) h
  rw [angle_dir]
  have hsq : s ^ 2 = (c - a) ^ 2 + (d - b) ^ 2 := sq_sqrt (by positivity)
  rw [← arccos_cos hs0 h]
  apply arccos_le_arccos
  -- cos s ≤ dot
  have hh := cos_hyp_le (a := (c - a) / 2) (b := (d - b) / 2) (by nlinarith [pi_pos])
  have e : sqrt (((c - a) / 2) ^ 2 + ((d - b) / 2) ^ 2) = s / 2 := by
    rw [show ((c - a) / 2) ^ 2 + ((d - b) / 2) ^ 2 = (s / 2) ^ 2 by rw [div_pow s, hsq]; ring]
    exact sqrt_sq (by linarith)
  rw [e] at hh
  have hc0 : 0 ≤ cos (s / 2) := cos_nonneg_of_neg_pi_div_two_le_of_le (by linarith [pi_pos]) (by linarith)
  have hsq2 : cos (s / 2) ^ 2 ≤ (cos ((c - a) / 2) * cos ((d - b) / 2)) ^ 2 := pow_le_pow_left₀ hc0 hh 2
  have h1 := cos_sq (s / 2)
  have h2 := cos_sq ((c - a) / 2)
  have h3 := cos_sq ((d - b) / 2)
  rw [mul_div_cancel₀ _ two_ne_zero] at h1 h2 h3
  rw [dot_dir]
  -- cos b cos d = (cos (d+b) + cos (d-b)) / 2 ≤ (1 + cos (d-b)) / 2
  have hbd : cos b * cos d ≤ (1 + cos (d - b)) / 2 := by
    have := cos_le_one (d + b)
    rw [cos_add] at this
    rw [cos_sub]
    linarith
  have hx : 0 ≤ 1 - cos (c - a) := by linarith [cos_le_one (c - a)]
  rw [mul_pow, h1, h2, h3] at hsq2
  nlinarith

end SatSky.Geo
