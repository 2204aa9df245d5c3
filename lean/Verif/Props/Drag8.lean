import Verif.Props.DragMean
import Verif.Props.Sgp8Motion
import Verif.Lemmas.Conic8

/-! C152, C153: the drag rates of SGP8 are means over the orbit in an atmosphere whose density follows a power law. -/

namespace SatSky.Props

open Real SatSky.Sxp SatSky.Sgp8 SatSky.Spec

/-! ### The means in terms of the true anomaly -/

section
variable {n a ε b q s : ℝ}

/-- What the two integrands have in common. -/
theorem true_facts (ha : 0 < a) (h0 : 0 ≤ ε) (h1 : ε < 1) (hs0 : 0 ≤ s) (hs : s < a * (1 - ε)) (E : ℝ) :
    let β := √(1 - ε ^ 2)
    let D := 1 - ε * cos E
    let c := (cos E - ε) / D
    let R := √((1 + ε * cos E) / (1 - ε * cos E))
    0 < β ∧ 0 < D ∧ 0 < a * D - s ∧ 0 < a * (1 - ε ^ 2) - s ∧ 1 + ε * c = β ^ 2 / D ∧ √(1 + 2 * ε * c + ε ^ 2) = β * R ∧
      1 - ε * s / (a * (1 - ε ^ 2) - s) * c = β ^ 2 * (a * D - s) / (D * (a * (1 - ε ^ 2) - s)) := by
  intro β D c R
  have hab : |ε| < 1 := by rw [abs_of_nonneg h0]; exact h1
  have hu : 0 < 1 - ε ^ 2 := by nlinarith
  have hβ : 0 < β := sqrt_pos.2 hu
  have hβ2 : β ^ 2 = 1 - ε ^ 2 := sq_sqrt hu.le
  have hD : 0 < D := Conic.one_sub_pos hab E
  have hDl : 1 - ε ≤ D := by
    have := cos_le_one E
    show 1 - ε ≤ 1 - ε * cos E
    nlinarith
  have haD : 0 < a * D - s := by nlinarith
  have hps : 0 < a * (1 - ε ^ 2) - s := by nlinarith [mul_nonneg ha.le h0, mul_nonneg (mul_nonneg ha.le h0) (by linarith : (0:ℝ) ≤ 1 - ε)]
  have hc : 1 + ε * c = β ^ 2 / D := by rw [hβ2]; exact Conic.true_radius hab E
  have hp2 : 0 ≤ 1 + ε * cos E := by nlinarith [neg_one_le_cos E]
  refine ⟨hβ, hD, haD, hps, hc, ?_, ?_⟩
  · have e1 : 1 + 2 * ε * c + ε ^ 2 = β ^ 2 * ((1 + ε * cos E) / (1 - ε * cos E)) := by
      have h3 : 1 + 2 * ε * c + ε ^ 2 = 2 * (1 + ε * c) - β ^ 2 := by rw [hβ2]; ring
      rw [h3, hc]
      show 2 * (β ^ 2 / D) - β ^ 2 = β ^ 2 * ((1 + ε * cos E) / D)
      field_simp
      show 2 - (1 - ε * cos E) = _
      ring
    rw [e1, sqrt_mul (sq_nonneg _), sqrt_sq hβ.le]
  · have e1 : ε * c = β ^ 2 / D - 1 := by linarith
    rw [show ε * s / (a * (1 - ε ^ 2) - s) * c = s * (ε * c) / (a * (1 - ε ^ 2) - s) by ring, e1, eq_div_iff (by positivity)]
    field_simp
    rw [hβ2]
    ring

theorem height_continuous {η : ℝ} (h : |η| < 1) : ContinuousOn (fun c : ℝ => (1 - η * c) ^ 4) (Set.Icc (-1) 1) ∧ ∀ c ∈ Set.Icc (-1 : ℝ) 1, (1 - η * c) ^ 4 ≠ 0 := by
  refine ⟨by fun_prop, fun c hc => ?_⟩
  have := Conic.one_sub_pos h (arccos c)
  rw [cos_arccos hc.1 hc.2] at this
  positivity

theorem eta8_lt (ha : 0 < a) (h0 : 0 ≤ ε) (h1 : ε < 1) (hs0 : 0 ≤ s) (hs : s < a * (1 - ε)) :
    0 ≤ ε * s / (a * (1 - ε ^ 2) - s) ∧ |ε * s / (a * (1 - ε ^ 2) - s)| < 1 := by
  have hps : 0 < a * (1 - ε ^ 2) - s := by nlinarith [mul_nonneg ha.le h0, mul_nonneg (mul_nonneg ha.le h0) (by linarith : (0:ℝ) ≤ 1 - ε)]
  have h : 0 ≤ ε * s / (a * (1 - ε ^ 2) - s) := by positivity
  refine ⟨h, ?_⟩
  rw [abs_of_nonneg h, div_lt_one hps]
  have : s * (1 + ε) < a * (1 - ε) * (1 + ε) := mul_lt_mul_of_pos_right hs (by linarith)
  nlinarith

/-- The mean rate of the axis. -/
theorem axis8_mean (hn : 0 < n) (ha : 0 < a) (h0 : 0 ≤ ε) (h1 : ε < 1) (hs0 : 0 ≤ s) (hs : s < a * (1 - ε)) :
    (Ellipse.mk (n ^ 2 * a ^ 3) a ε).timeMean ((Ellipse.mk (n ^ 2 * a ^ 3) a ε).axisRate ((Ellipse.mk (n ^ 2 * a ^ 3) a ε).powerLaw b q s))
      = -(2 * n * a ^ 2 * b * q / (a * (1 - ε ^ 2) - s) ^ 4) * ((∫ f in (0)..(2 * π), (1 + ε * cos f) ^ 2 * √(1 + 2 * ε * cos f + ε ^ 2) ^ 3
        / (1 - ε * s / (a * (1 - ε ^ 2) - s) * cos f) ^ 4) / (2 * π)) := by
  have hab : |ε| < 1 := by rw [abs_of_nonneg h0]; exact h1
  obtain ⟨hη0, hη⟩ := eta8_lt ha h0 h1 hs0 hs
  have hsub := Conic.substitute_on hab (g := fun c => (1 + ε * c) ^ 2 * √(1 + 2 * ε * c + ε ^ 2) ^ 3 / (1 - ε * s / (a * (1 - ε ^ 2) - s) * c) ^ 4)
    (ContinuousOn.div (by fun_prop) (height_continuous hη).1 (height_continuous hη).2)
  rw [← hsub]
  unfold Ellipse.timeMean
  rw [← mul_div_assoc, ← intervalIntegral.integral_const_mul]
  congr 1
  refine intervalIntegral.integral_congr fun E _ => ?_
  obtain ⟨hβ, hD, haD, hps, hc, hW, hη'⟩ := true_facts ha h0 h1 hs0 hs E
  dsimp only
  rw [hc, hW, hη']
  unfold Ellipse.axisRate Ellipse.powerLaw
  rw [orbit_speed hn ha h0 h1, orbit_radius]
  generalize √((1 + ε * cos E) / (1 - ε * cos E)) = R
  generalize √(1 - ε ^ 2) = β at *
  generalize a * (1 - ε ^ 2) - s = Q at *
  generalize 1 - ε * cos E = D at *
  generalize hX : a * D - s = X at *
  field_simp

/-- The mean rate of the eccentricity. -/
theorem ecc8_mean (hn : 0 < n) (ha : 0 < a) (h0 : 0 ≤ ε) (h1 : ε < 1) (hs0 : 0 ≤ s) (hs : s < a * (1 - ε)) :
    (Ellipse.mk (n ^ 2 * a ^ 3) a ε).timeMean ((Ellipse.mk (n ^ 2 * a ^ 3) a ε).eccRate ((Ellipse.mk (n ^ 2 * a ^ 3) a ε).powerLaw b q s))
      = -(2 * n * a * (1 - ε ^ 2) * b * q / (a * (1 - ε ^ 2) - s) ^ 4) * ((∫ f in (0)..(2 * π), (ε + cos f) * (1 + ε * cos f) ^ 2 * √(1 + 2 * ε * cos f + ε ^ 2)
        / (1 - ε * s / (a * (1 - ε ^ 2) - s) * cos f) ^ 4) / (2 * π)) := by
  have hab : |ε| < 1 := by rw [abs_of_nonneg h0]; exact h1
  obtain ⟨hη0, hη⟩ := eta8_lt ha h0 h1 hs0 hs
  have hsub := Conic.substitute_on hab (g := fun c => (ε + c) * (1 + ε * c) ^ 2 * √(1 + 2 * ε * c + ε ^ 2) / (1 - ε * s / (a * (1 - ε ^ 2) - s) * c) ^ 4)
    (ContinuousOn.div (by fun_prop) (height_continuous hη).1 (height_continuous hη).2)
  rw [← hsub]
  unfold Ellipse.timeMean
  rw [← mul_div_assoc, ← intervalIntegral.integral_const_mul]
  congr 1
  refine intervalIntegral.integral_congr fun E _ => ?_
  obtain ⟨hβ, hD, haD, hps, hc, hW, hη'⟩ := true_facts ha h0 h1 hs0 hs E
  dsimp only
  rw [hc, hW, hη']
  unfold Ellipse.eccRate Ellipse.powerLaw
  rw [orbit_speed hn ha h0 h1, orbit_radius]
  unfold Ellipse.cosTrue
  dsimp only
  have hβ2 : √(1 - ε ^ 2) ^ 2 = 1 - ε ^ 2 := sq_sqrt (by nlinarith)
  generalize √((1 + ε * cos E) / (1 - ε * cos E)) = R
  generalize a * (1 - ε ^ 2) - s = Q at *
  rw [← hβ2]
  generalize √(1 - ε ^ 2) = β at *
  generalize (cos E - ε) / (1 - ε * cos E) = c at *
  generalize 1 - ε * cos E = D at *
  generalize hX : a * D - s = X at *
  field_simp
  rw [sqrt_sq hβ.le]

end

/-! ### The expansion in the eccentricity -/

theorem three_halves {x : ℝ} (hx : -(1 / 2) ≤ x) : |√(1 + 2 * x) ^ 3 - (1 + 3 * x + 3 / 2 * x ^ 2)| ≤ |x| ^ 3 := by
  have hw : √(1 + 2 * x) ^ 2 = 1 + 2 * x := sq_sqrt (by linarith)
  have hw0 := sqrt_nonneg (1 + 2 * x)
  generalize √(1 + 2 * x) = w at *
  have hx' : x = (w - 1) * (w + 1) / 2 := by linarith
  subst hx'
  rw [show w ^ 3 - (1 + 3 * ((w - 1) * (w + 1) / 2) + 3 / 2 * ((w - 1) * (w + 1) / 2) ^ 2) = -((w - 1) ^ 3 * (3 * w + 1) / 8) by ring, abs_neg, abs_div, abs_mul, abs_pow,
    abs_div, abs_mul, div_pow, mul_pow, abs_of_pos (by linarith : 0 < 3 * w + 1), abs_of_pos (by linarith : 0 < w + 1), abs_of_pos (by norm_num : (0:ℝ) < 8),
    abs_of_pos (by norm_num : (0:ℝ) < 2)]
  have : 3 * w + 1 ≤ (w + 1) ^ 3 := by nlinarith [pow_nonneg hw0 3, sq_nonneg w]
  norm_num
  gcongr

theorem one_half {x : ℝ} (hx : -(1 / 2) ≤ x) : |√(1 + 2 * x) - (1 + x - 1 / 2 * x ^ 2)| ≤ 3 * |x| ^ 3 := by
  have hw : √(1 + 2 * x) ^ 2 = 1 + 2 * x := sq_sqrt (by linarith)
  have hw0 := sqrt_nonneg (1 + 2 * x)
  generalize √(1 + 2 * x) = w at *
  have hx' : x = (w - 1) * (w + 1) / 2 := by linarith
  subst hx'
  rw [show w - (1 + (w - 1) * (w + 1) / 2 - 1 / 2 * ((w - 1) * (w + 1) / 2) ^ 2) = (w - 1) ^ 3 * (w + 3) / 8 by ring, abs_div, abs_mul, abs_pow,
    abs_div, abs_mul, div_pow, mul_pow, abs_of_pos (by linarith : 0 < w + 3), abs_of_pos (by linarith : 0 < w + 1), abs_of_pos (by norm_num : (0:ℝ) < 8),
    abs_of_pos (by norm_num : (0:ℝ) < 2)]
  have h3 : w + 3 ≤ 3 * (w + 1) ^ 3 := by nlinarith [pow_nonneg hw0 3, sq_nonneg w]
  have h4 : 0 ≤ |w - 1| ^ 3 := by positivity
  norm_num
  have := mul_le_mul_of_nonneg_left h3 h4
  linarith

section
variable {ε c : ℝ}

/-- The speed in units of the one at the end of the minor axis or so. -/
theorem speed_split (h0 : 0 ≤ ε) (hc : |c| ≤ 1) :
    √(1 + 2 * ε * c + ε ^ 2) = √(1 + ε ^ 2) * √(1 + 2 * (ε * c / (1 + ε ^ 2))) ∧ -(1 / 2) ≤ ε * c / (1 + ε ^ 2) ∧ |ε * c / (1 + ε ^ 2)| ≤ ε ∧
      |ε * c / (1 + ε ^ 2) - ε * c| ≤ ε ^ 3 ∧ |(ε * c / (1 + ε ^ 2)) ^ 2 - (ε * c) ^ 2| ≤ 2 * ε ^ 4 := by
  have hp : 0 < 1 + ε ^ 2 := by positivity
  have hc' := abs_le.1 hc
  have hy : |ε * c| ≤ ε := by rw [abs_mul, abs_of_nonneg h0]; exact mul_le_of_le_one_right h0 hc
  have hx : |ε * c / (1 + ε ^ 2)| ≤ ε := by
    rw [abs_div, abs_of_pos hp, div_le_iff₀ hp]
    nlinarith
  have hd : |ε * c / (1 + ε ^ 2) - ε * c| ≤ ε ^ 3 := by
    rw [show ε * c / (1 + ε ^ 2) - ε * c = -(ε * c * ε ^ 2 / (1 + ε ^ 2)) by field_simp; ring, abs_neg, abs_div, abs_mul, abs_of_pos hp, div_le_iff₀ hp,
      abs_of_nonneg (sq_nonneg ε)]
    nlinarith [mul_le_mul_of_nonneg_right hy (sq_nonneg ε), pow_nonneg h0 5]
  refine ⟨?_, ?_, hx, hd, ?_⟩
  · rw [← sqrt_mul hp.le]
    congr 1
    field_simp
    ring
  · rw [le_div_iff₀ hp]
    nlinarith [sq_nonneg (1 - ε)]
  · rw [sq_sub_sq, abs_mul]
    have : |ε * c / (1 + ε ^ 2) + ε * c| ≤ 2 * ε := (abs_add_le _ _).trans (by linarith)
    calc _ ≤ (2 * ε) * ε ^ 3 := by gcongr
      _ = _ := by ring

theorem axis8_point (h0 : 0 ≤ ε) (h1 : ε < 1) (hc : |c| ≤ 1) :
    |(1 + ε * c) ^ 2 * √(1 + 2 * (ε * c / (1 + ε ^ 2))) ^ 3 - (1 + 5 * (ε * c) + 17 / 2 * (ε * c) ^ 2)| ≤ 36 * ε ^ 3 := by
  obtain ⟨-, k1, k2, k3, k4⟩ := speed_split h0 hc
  have k5 := three_halves k1
  have hy : |ε * c| ≤ ε := by rw [abs_mul, abs_of_nonneg h0]; exact mul_le_of_le_one_right h0 hc
  have hx3 : |ε * c / (1 + ε ^ 2)| ^ 3 ≤ ε ^ 3 := by gcongr
  generalize √(1 + 2 * (ε * c / (1 + ε ^ 2))) ^ 3 = W at *
  generalize ε * c / (1 + ε ^ 2) = x at *
  generalize ε * c = y at *
  have hy' := abs_le.1 hy
  have e4 : ε ^ 4 ≤ ε ^ 3 := pow_le_pow_of_le_one h0 h1.le (by norm_num)
  have m1 : |W - (1 + 3 * y + 3 / 2 * y ^ 2)| ≤ 7 * ε ^ 3 := by
    rw [show W - (1 + 3 * y + 3 / 2 * y ^ 2) = (W - (1 + 3 * x + 3 / 2 * x ^ 2)) + (3 * (x - y) + 3 / 2 * (x ^ 2 - y ^ 2)) by ring]
    refine (abs_add_le _ _).trans ?_
    have : |3 * (x - y) + 3 / 2 * (x ^ 2 - y ^ 2)| ≤ 3 * ε ^ 3 + 3 / 2 * (2 * ε ^ 4) := by
      refine (abs_add_le _ _).trans ?_
      rw [abs_mul, abs_mul, abs_of_pos (by norm_num : (0:ℝ) < 3), abs_of_pos (by norm_num : (0:ℝ) < 3 / 2)]
      gcongr
    linarith
  have m2 : |(1 + y) ^ 2| ≤ 4 := by rw [abs_of_nonneg (sq_nonneg _)]; nlinarith
  have hy3 : |y| ^ 3 ≤ ε ^ 3 := by gcongr
  have hy4 : |y| ^ 4 ≤ ε ^ 4 := by gcongr
  have m3 : |6 * y ^ 3 + 3 / 2 * y ^ 4| ≤ 6 * ε ^ 3 + 3 / 2 * ε ^ 4 := by
    refine (abs_add_le _ _).trans ?_
    rw [abs_mul, abs_mul, abs_pow, abs_pow, abs_of_pos (by norm_num : (0:ℝ) < 6), abs_of_pos (by norm_num : (0:ℝ) < 3 / 2)]
    gcongr
  rw [show (1 + y) ^ 2 * W - (1 + 5 * y + 17 / 2 * y ^ 2) = (1 + y) ^ 2 * (W - (1 + 3 * y + 3 / 2 * y ^ 2)) + (6 * y ^ 3 + 3 / 2 * y ^ 4) by ring]
  refine (abs_add_le _ _).trans ?_
  rw [abs_mul]
  have : |(1 + y) ^ 2| * |W - (1 + 3 * y + 3 / 2 * y ^ 2)| ≤ 4 * (7 * ε ^ 3) := by gcongr
  nlinarith [pow_nonneg h0 3]

theorem ecc8_point (h0 : 0 ≤ ε) (h1 : ε < 1) (hc : |c| ≤ 1) :
    |(ε + c) * (1 + ε * c) ^ 2 * √(1 + 2 * (ε * c / (1 + ε ^ 2))) - (c + ε * (1 + 3 * c ^ 2) + ε ^ 2 * (3 * c + 5 / 2 * c ^ 3))| ≤ 44 * ε ^ 3 := by
  obtain ⟨-, k1, k2, k3, k4⟩ := speed_split h0 hc
  have k5 := one_half k1
  have hy : |ε * c| ≤ ε := by rw [abs_mul, abs_of_nonneg h0]; exact mul_le_of_le_one_right h0 hc
  have hx3 : |ε * c / (1 + ε ^ 2)| ^ 3 ≤ ε ^ 3 := by gcongr
  generalize √(1 + 2 * (ε * c / (1 + ε ^ 2))) = W at *
  generalize ε * c / (1 + ε ^ 2) = x at *
  have hy' := abs_le.1 hy
  have hc' := abs_le.1 hc
  have e4 : ε ^ 4 ≤ ε ^ 3 := pow_le_pow_of_le_one h0 h1.le (by norm_num)
  have m1 : |W - (1 + ε * c - 1 / 2 * (ε * c) ^ 2)| ≤ 5 * ε ^ 3 := by
    rw [show W - (1 + ε * c - 1 / 2 * (ε * c) ^ 2) = (W - (1 + x - 1 / 2 * x ^ 2)) + ((x - ε * c) + -(1 / 2) * (x ^ 2 - (ε * c) ^ 2)) by ring]
    refine (abs_add_le _ _).trans ?_
    have : |(x - ε * c) + -(1 / 2) * (x ^ 2 - (ε * c) ^ 2)| ≤ ε ^ 3 + 1 / 2 * (2 * ε ^ 4) := by
      refine (abs_add_le _ _).trans ?_
      rw [abs_mul, abs_neg, abs_of_pos (by norm_num : (0:ℝ) < 1 / 2)]
      gcongr
    linarith
  have m2 : |(ε + c) * (1 + ε * c) ^ 2| ≤ 2 * 4 := by
    rw [abs_mul, abs_of_nonneg (sq_nonneg (1 + ε * c))]
    have w1 : |ε + c| ≤ 2 := by rw [abs_le]; constructor <;> linarith
    have w2 : (1 + ε * c) ^ 2 ≤ 4 := by nlinarith
    gcongr
  have m3 : |5 / 2 * (ε * (ε * c) ^ 2) - 1 / 2 * ((ε * c) ^ 4 * (ε + c))| ≤ 5 / 2 * (ε * ε ^ 2) + 1 / 2 * (ε ^ 4 * 2) := by
    refine (abs_sub _ _).trans ?_
    rw [abs_mul, abs_mul, abs_mul, abs_mul, abs_pow, abs_pow, abs_of_pos (by norm_num : (0:ℝ) < 5 / 2), abs_of_pos (by norm_num : (0:ℝ) < 1 / 2), abs_of_nonneg h0]
    have w1 : |ε + c| ≤ 2 := by rw [abs_le]; constructor <;> linarith
    gcongr
  rw [show (ε + c) * (1 + ε * c) ^ 2 * W - (c + ε * (1 + 3 * c ^ 2) + ε ^ 2 * (3 * c + 5 / 2 * c ^ 3))
    = (ε + c) * (1 + ε * c) ^ 2 * (W - (1 + ε * c - 1 / 2 * (ε * c) ^ 2)) + (5 / 2 * (ε * (ε * c) ^ 2) - 1 / 2 * ((ε * c) ^ 4 * (ε + c))) by ring]
  refine (abs_add_le _ _).trans ?_
  rw [abs_mul]
  have : |(ε + c) * (1 + ε * c) ^ 2| * |W - (1 + ε * c - 1 / 2 * (ε * c) ^ 2)| ≤ 2 * 4 * (5 * ε ^ 3) := by gcongr
  nlinarith [pow_nonneg h0 3]

end

/-! ### The integrals -/

section
variable {ε η : ℝ}

theorem axis8_integral (h0 : 0 ≤ ε) (h1 : ε < 1) (hη : |η| < 1) :
    |(∫ f in (0)..(2 * π), (1 + ε * cos f) ^ 2 * √(1 + 2 * ε * cos f + ε ^ 2) ^ 3 / (1 - η * cos f) ^ 4) / (2 * π)
      - √(1 + ε ^ 2) ^ 3 * (1 + 3 / 2 * η ^ 2 + 5 * ε * (2 * η + 1 / 2 * η ^ 3) + 17 / 2 * ε ^ 2 * (1 / 2 + 2 * η ^ 2)) / √(1 - η ^ 2) ^ 7|
      ≤ √(1 + ε ^ 2) ^ 3 * (36 * ε ^ 3 * (1 + 3 / 2 * η ^ 2)) / √(1 - η ^ 2) ^ 7 := by
  have hp := Conic.one_sub_pos hη
  have hu : 0 < 1 - η ^ 2 := by nlinarith [abs_lt.mp hη]
  have hq : 0 < √(1 - η ^ 2) := sqrt_pos.mpr hu
  have hα : 0 < √(1 + ε ^ 2) := sqrt_pos.mpr (by positivity)
  have hden : ∀ f, (1 - η * cos f) ^ 4 ≠ 0 := fun f => pow_ne_zero _ (hp f).ne'
  have c0 : Continuous fun f => 1 / (1 - η * cos f) ^ 4 := Continuous.div (by fun_prop) (by fun_prop) hden
  have cf : Continuous fun f => (1 + ε * cos f) ^ 2 * √(1 + 2 * (ε * cos f / (1 + ε ^ 2))) ^ 3 / (1 - η * cos f) ^ 4 :=
    Continuous.div (by fun_prop) (by fun_prop) hden
  have cg : Continuous fun f => (1 + 5 * ε * cos f + 17 / 2 * ε ^ 2 * cos f ^ 2 + 0 * cos f ^ 3) / (1 - η * cos f) ^ 4 :=
    Continuous.div (by fun_prop) (by fun_prop) hden
  have hfun : ∀ f, (1 + ε * cos f) ^ 2 * √(1 + 2 * ε * cos f + ε ^ 2) ^ 3 / (1 - η * cos f) ^ 4
      = √(1 + ε ^ 2) ^ 3 * ((1 + ε * cos f) ^ 2 * √(1 + 2 * (ε * cos f / (1 + ε ^ 2))) ^ 3 / (1 - η * cos f) ^ 4) := fun f => by
    rw [(speed_split h0 (abs_cos_le_one f)).1]; ring
  have hI : (∫ f in (0)..(2 * π), ((1 + 5 * ε * cos f + 17 / 2 * ε ^ 2 * cos f ^ 2 + 0 * cos f ^ 3) / (1 - η * cos f) ^ 4))
      = 2 * π * (1 + 3 / 2 * η ^ 2 + 5 * ε * (2 * η + 1 / 2 * η ^ 3) + 17 / 2 * ε ^ 2 * (1 / 2 + 2 * η ^ 2)) / √(1 - η ^ 2) ^ 7 := by
    rw [Conic.mean_four_poly hη]
    ring
  have hb := mean_between (k := 36 * ε ^ 3) (l := -(36 * ε ^ 3)) cf cg c0 (fun f => by
    have hw : 0 < 1 / (1 - η * cos f) ^ 4 := by have := hp f; positivity
    have h3 := abs_le.1 (axis8_point h0 h1 (abs_cos_le_one f))
    have e1 : (1 + ε * cos f) ^ 2 * √(1 + 2 * (ε * cos f / (1 + ε ^ 2))) ^ 3 / (1 - η * cos f) ^ 4
        - ((1 + 5 * ε * cos f + 17 / 2 * ε ^ 2 * cos f ^ 2 + 0 * cos f ^ 3) / (1 - η * cos f) ^ 4)
        = ((1 + ε * cos f) ^ 2 * √(1 + 2 * (ε * cos f / (1 + ε ^ 2))) ^ 3 - (1 + 5 * (ε * cos f) + 17 / 2 * (ε * cos f) ^ 2)) * (1 / (1 - η * cos f) ^ 4) := by ring
    rw [e1]
    exact ⟨mul_le_mul_of_nonneg_right h3.1 hw.le, mul_le_mul_of_nonneg_right h3.2 hw.le⟩) (Conic.mean_four hη)
  simp only [hfun]
  rw [intervalIntegral.integral_const_mul]
  rw [hI] at hb
  generalize (∫ f in (0)..(2 * π), (1 + ε * cos f) ^ 2 * √(1 + 2 * (ε * cos f / (1 + ε ^ 2))) ^ 3 / (1 - η * cos f) ^ 4) = I at *
  generalize hM : 1 + 3 / 2 * η ^ 2 + 5 * ε * (2 * η + 1 / 2 * η ^ 3) + 17 / 2 * ε ^ 2 * (1 / 2 + 2 * η ^ 2) = M at *
  have hpi := pi_pos
  have hJ : |I - 2 * π * M / √(1 - η ^ 2) ^ 7| ≤ 36 * ε ^ 3 * (2 * π * (1 + 3 / 2 * η ^ 2) / √(1 - η ^ 2) ^ 7) := by
    rw [abs_le]; constructor <;> linarith [hb.1, hb.2]
  rw [show √(1 + ε ^ 2) ^ 3 * I / (2 * π) - √(1 + ε ^ 2) ^ 3 * M / √(1 - η ^ 2) ^ 7 = √(1 + ε ^ 2) ^ 3 / (2 * π) * (I - 2 * π * M / √(1 - η ^ 2) ^ 7) by
    field_simp, abs_mul, abs_of_pos (by positivity)]
  calc _ ≤ √(1 + ε ^ 2) ^ 3 / (2 * π) * (36 * ε ^ 3 * (2 * π * (1 + 3 / 2 * η ^ 2) / √(1 - η ^ 2) ^ 7)) := by gcongr
    _ = _ := by field_simp

theorem ecc8_integral (h0 : 0 ≤ ε) (h1 : ε < 1) (hη : |η| < 1) :
    |(∫ f in (0)..(2 * π), (ε + cos f) * (1 + ε * cos f) ^ 2 * √(1 + 2 * ε * cos f + ε ^ 2) / (1 - η * cos f) ^ 4) / (2 * π)
      - √(1 + ε ^ 2) * (1 / 2 * (η * (4 + η ^ 2) + ε * (5 + 15 * η ^ 2) + ε ^ 2 * (39 / 2 * η + 8 * η ^ 3))) / √(1 - η ^ 2) ^ 7|
      ≤ √(1 + ε ^ 2) * (44 * ε ^ 3 * (1 + 3 / 2 * η ^ 2)) / √(1 - η ^ 2) ^ 7 := by
  have hp := Conic.one_sub_pos hη
  have hu : 0 < 1 - η ^ 2 := by nlinarith [abs_lt.mp hη]
  have hq : 0 < √(1 - η ^ 2) := sqrt_pos.mpr hu
  have hα : 0 < √(1 + ε ^ 2) := sqrt_pos.mpr (by positivity)
  have hden : ∀ f, (1 - η * cos f) ^ 4 ≠ 0 := fun f => pow_ne_zero _ (hp f).ne'
  have c0 : Continuous fun f => 1 / (1 - η * cos f) ^ 4 := Continuous.div (by fun_prop) (by fun_prop) hden
  have cf : Continuous fun f => (ε + cos f) * (1 + ε * cos f) ^ 2 * √(1 + 2 * (ε * cos f / (1 + ε ^ 2))) / (1 - η * cos f) ^ 4 :=
    Continuous.div (by fun_prop) (by fun_prop) hden
  have cg : Continuous fun f => (ε + (1 + 3 * ε ^ 2) * cos f + 3 * ε * cos f ^ 2 + 5 / 2 * ε ^ 2 * cos f ^ 3) / (1 - η * cos f) ^ 4 :=
    Continuous.div (by fun_prop) (by fun_prop) hden
  have hfun : ∀ f, (ε + cos f) * (1 + ε * cos f) ^ 2 * √(1 + 2 * ε * cos f + ε ^ 2) / (1 - η * cos f) ^ 4
      = √(1 + ε ^ 2) * ((ε + cos f) * (1 + ε * cos f) ^ 2 * √(1 + 2 * (ε * cos f / (1 + ε ^ 2))) / (1 - η * cos f) ^ 4) := fun f => by
    rw [(speed_split h0 (abs_cos_le_one f)).1]; ring
  have hI : (∫ f in (0)..(2 * π), ((ε + (1 + 3 * ε ^ 2) * cos f + 3 * ε * cos f ^ 2 + 5 / 2 * ε ^ 2 * cos f ^ 3) / (1 - η * cos f) ^ 4))
      = 2 * π * (1 / 2 * (η * (4 + η ^ 2) + ε * (5 + 15 * η ^ 2) + ε ^ 2 * (39 / 2 * η + 8 * η ^ 3))) / √(1 - η ^ 2) ^ 7 := by
    rw [Conic.mean_four_poly hη]
    ring
  have hb := mean_between (k := 44 * ε ^ 3) (l := -(44 * ε ^ 3)) cf cg c0 (fun f => by
    have hw : 0 < 1 / (1 - η * cos f) ^ 4 := by have := hp f; positivity
    have h3 := abs_le.1 (ecc8_point h0 h1 (abs_cos_le_one f))
    have e1 : (ε + cos f) * (1 + ε * cos f) ^ 2 * √(1 + 2 * (ε * cos f / (1 + ε ^ 2))) / (1 - η * cos f) ^ 4
        - ((ε + (1 + 3 * ε ^ 2) * cos f + 3 * ε * cos f ^ 2 + 5 / 2 * ε ^ 2 * cos f ^ 3) / (1 - η * cos f) ^ 4)
        = ((ε + cos f) * (1 + ε * cos f) ^ 2 * √(1 + 2 * (ε * cos f / (1 + ε ^ 2))) - (cos f + ε * (1 + 3 * cos f ^ 2) + ε ^ 2 * (3 * cos f + 5 / 2 * cos f ^ 3)))
          * (1 / (1 - η * cos f) ^ 4) := by ring
    rw [e1]
    exact ⟨mul_le_mul_of_nonneg_right h3.1 hw.le, mul_le_mul_of_nonneg_right h3.2 hw.le⟩) (Conic.mean_four hη)
  simp only [hfun]
  rw [intervalIntegral.integral_const_mul]
  rw [hI] at hb
  generalize (∫ f in (0)..(2 * π), (ε + cos f) * (1 + ε * cos f) ^ 2 * √(1 + 2 * (ε * cos f / (1 + ε ^ 2))) / (1 - η * cos f) ^ 4) = I at *
  generalize hM : 1 / 2 * (η * (4 + η ^ 2) + ε * (5 + 15 * η ^ 2) + ε ^ 2 * (39 / 2 * η + 8 * η ^ 3)) = M at *
  have hpi := pi_pos
  have hJ : |I - 2 * π * M / √(1 - η ^ 2) ^ 7| ≤ 44 * ε ^ 3 * (2 * π * (1 + 3 / 2 * η ^ 2) / √(1 - η ^ 2) ^ 7) := by
    rw [abs_le]; constructor <;> linarith [hb.1, hb.2]
  rw [show √(1 + ε ^ 2) * I / (2 * π) - √(1 + ε ^ 2) * M / √(1 - η ^ 2) ^ 7 = √(1 + ε ^ 2) / (2 * π) * (I - 2 * π * M / √(1 - η ^ 2) ^ 7) by
    field_simp, abs_mul, abs_of_pos (by positivity)]
  calc _ ≤ √(1 + ε ^ 2) / (2 * π) * (44 * ε ^ 3 * (2 * π * (1 + 3 / 2 * η ^ 2) / √(1 - η ^ 2) ^ 7)) := by gcongr
    _ = _ := by field_simp

end

/-! ### The rates of SGP8 -/

/-- The orbit as an ellipse in the field that belongs to its axis and mean motion. -/
noncomputable def ellipse8 (x : Orb) : Ellipse := ⟨x.n ^ 2 * x.a ^ 3, x.a, x.e⟩

/-- SGP8 with the terms of the flattening and of the third zonal harmonic taken out. -/
def noField (k : Fixed) : Fixed := ⟨k.bstar, 0, k.unm5th, 0, 0⟩

theorem orbit_facts {x : Orb} (hx : Above x) (h0 : 0 ≤ x.e) :
    0 < x.a ∧ x.e < 1 ∧ sConst < x.a * (1 - x.e) ∧ po x = x.a * (1 - x.e ^ 2) ∧ 0 < po x - sConst ∧ eta x = x.e * sConst / (po x - sConst) ∧ 0 ≤ eta x ∧ |eta x| < 1
      ∧ psim2 x ^ (7 / 2 : ℝ) = 1 / √(1 - eta x ^ 2) ^ 7 := by
  have hg := above_good hx
  have he : x.e < 1 := (abs_lt.1 hx.e).2
  have hs : sConst < x.a * (1 - x.e) := by have := hx.perigee; rwa [abs_of_nonneg h0] at this
  have hpo : po x = x.a * (1 - x.e ^ 2) := by unfold po betao2 eosq; ring
  have hη : eta x = x.e * sConst / (po x - sConst) := by unfold eta tsi; ring
  obtain ⟨h1, h2⟩ := eta8_lt hg.a h0 he sConst_pos.le hs
  rw [← hpo, ← hη] at h1 h2
  refine ⟨hg.a, he, hs, hpo, hg.ps, hη, h1, h2, ?_⟩
  have hu : 0 < 1 - eta x ^ 2 := by nlinarith [abs_lt.mp h2]
  have : psim2 x = 1 / (1 - eta x ^ 2) := by
    unfold psim2 eta2
    rw [← sq, abs_of_pos (by positivity)]
  rw [this, Real.div_rpow (by norm_num) hu.le, Real.one_rpow, pow_seven_half hu.le]

theorem c0_value (k : Fixed) {x : Orb} (hx : Above x) (h0 : 0 ≤ x.e) :
    Sgp8.c0 k x = k.bstar * qoms2t * x.n * x.a / (po x - sConst) ^ 4 / √(1 - eta x ^ 2) ^ 7 / √(1 + x.e ^ 2) := by
  obtain ⟨-, -, -, -, hps, -, -, -, hψ⟩ := orbit_facts hx h0
  unfold Sgp8.c0
  rw [hψ]
  have hr : rho ≠ 0 := by unfold rho; norm_num
  have hal : alpha2 x = 1 + x.e ^ 2 := by unfold alpha2 eosq; ring
  rw [hal]
  unfold bOf tsi
  field_simp

/-- C152: the rate of the mean motion, without the terms of the flattening and of the third zonal harmonic, is the mean over the orbit of Gauss's equation in an
atmosphere whose density falls with the fourth power of the distance from the level `s`, up to the third power of the eccentricity. -/
theorem C152_motion (k : Fixed) {x : Orb} (hx : Above x) (h0 : 0 ≤ x.e) : ∃ ρ, |ρ| ≤ 36 * x.e ^ 3 ∧
    -(3 / 2) * (x.n / x.a) * (ellipse8 x).timeMean ((ellipse8 x).axisRate ((ellipse8 x).powerLaw k.bstar qoms2t sConst)) = xndt (noField k) x * (1 + ρ) := by
  obtain ⟨ha, h1, hs, hpo, hps, hη, hη0, hη1, hψ⟩ := orbit_facts hx h0
  have hn := hx.n
  have hI := axis8_integral h0 h1 hη1
  have hu : 0 < 1 - eta x ^ 2 := by nlinarith [abs_lt.mp hη1]
  have hq : 0 < √(1 - eta x ^ 2) := sqrt_pos.mpr hu
  have hα : 0 < √(1 + x.e ^ 2) := sqrt_pos.mpr (by positivity)
  have hα2 : √(1 + x.e ^ 2) ^ 2 = 1 + x.e ^ 2 := sq_sqrt (by positivity)
  have hx8 : xndt (noField k) x = 3 * x.n ^ 2 * x.a * k.bstar * qoms2t / (po x - sConst) ^ 4 * (√(1 + x.e ^ 2) ^ 3 *
      (1 + 3 / 2 * eta x ^ 2 + 5 * x.e * (2 * eta x + 1 / 2 * eta x ^ 3) + 17 / 2 * x.e ^ 2 * (1 / 2 + 2 * eta x ^ 2)) / √(1 - eta x ^ 2) ^ 7) := by
    unfold xndt Sgp8.c1 Sgp8.c4 Sgp8.c5 b1 b2 b3
    rw [c0_value (noField k) hx h0]
    have hal : alpha2 x = 1 + x.e ^ 2 := by unfold alpha2 eosq; ring
    have hα4 : (1 + x.e ^ 2) * (1 + x.e ^ 2) = √(1 + x.e ^ 2) ^ 4 := by linear_combination (-(√(1 + x.e ^ 2) ^ 2 + (1 + x.e ^ 2))) * hα2
    rw [hal, hα4]
    simp only [noField, eta2, eeta, eosq]
    field_simp
    ring
  rw [hx8]
  unfold ellipse8
  rw [axis8_mean hn ha h0 h1 sConst_pos.le hs, ← hpo, ← hη]
  generalize (∫ f in (0)..(2 * π), (1 + x.e * cos f) ^ 2 * √(1 + 2 * x.e * cos f + x.e ^ 2) ^ 3 / (1 - eta x * cos f) ^ 4) / (2 * π) = I at *
  generalize hM : 1 + 3 / 2 * eta x ^ 2 + 5 * x.e * (2 * eta x + 1 / 2 * eta x ^ 3) + 17 / 2 * x.e ^ 2 * (1 / 2 + 2 * eta x ^ 2) = M at *
  have hM1 : 1 + 3 / 2 * eta x ^ 2 ≤ M := by rw [← hM]; have : 0 ≤ 5 * x.e * (2 * eta x + 1 / 2 * eta x ^ 3) := by positivity
                                             have : 0 ≤ 17 / 2 * x.e ^ 2 * (1 / 2 + 2 * eta x ^ 2) := by positivity
                                             linarith
  have hM0 : 0 < M := lt_of_lt_of_le (by positivity) hM1
  refine ⟨I / (√(1 + x.e ^ 2) ^ 3 * M / √(1 - eta x ^ 2) ^ 7) - 1, ?_, ?_⟩
  · rw [show I / (√(1 + x.e ^ 2) ^ 3 * M / √(1 - eta x ^ 2) ^ 7) - 1 = (I - √(1 + x.e ^ 2) ^ 3 * M / √(1 - eta x ^ 2) ^ 7) / (√(1 + x.e ^ 2) ^ 3 * M / √(1 - eta x ^ 2) ^ 7) by
      field_simp, abs_div, abs_of_pos (by positivity : 0 < √(1 + x.e ^ 2) ^ 3 * M / √(1 - eta x ^ 2) ^ 7), div_le_iff₀ (by positivity)]
    refine hI.trans ?_
    rw [← mul_div_assoc]
    gcongr ?_ / _
    rw [mul_left_comm]
    gcongr
  · field_simp
    ring

/-- The mean rate of the eccentricity in terms of the program's coefficient. -/
theorem ecc8_value (k : Fixed) {x : Orb} (hx : Above x) (h0 : 0 ≤ x.e) : ∃ r, |r| ≤ 44 * x.e ^ 3 * (1 + 3 / 2 * eta x ^ 2) ∧
    (ellipse8 x).timeMean ((ellipse8 x).eccRate ((ellipse8 x).powerLaw k.bstar qoms2t sConst))
      = -Sgp8.c0 k x * (1 - x.e ^ 4) * (eta x * (4 + eta x ^ 2) + x.e * (5 + 15 * eta x ^ 2) + x.e ^ 2 * (39 / 2 * eta x + 8 * eta x ^ 3) + 2 * r) := by
  obtain ⟨ha, h1, hs, hpo, hps, hη, hη0, hη1, hψ⟩ := orbit_facts hx h0
  have hn := hx.n
  have hI := ecc8_integral h0 h1 hη1
  have hu : 0 < 1 - eta x ^ 2 := by nlinarith [abs_lt.mp hη1]
  have hq : 0 < √(1 - eta x ^ 2) := sqrt_pos.mpr hu
  have hα : 0 < √(1 + x.e ^ 2) := sqrt_pos.mpr (by positivity)
  have hα2 : √(1 + x.e ^ 2) ^ 2 = 1 + x.e ^ 2 := sq_sqrt (by positivity)
  rw [c0_value k hx h0]
  unfold ellipse8
  rw [ecc8_mean hn ha h0 h1 sConst_pos.le hs, ← hpo, ← hη]
  generalize (∫ f in (0)..(2 * π), (x.e + cos f) * (1 + x.e * cos f) ^ 2 * √(1 + 2 * x.e * cos f + x.e ^ 2) / (1 - eta x * cos f) ^ 4) / (2 * π) = I at *
  generalize eta x * (4 + eta x ^ 2) + x.e * (5 + 15 * eta x ^ 2) + x.e ^ 2 * (39 / 2 * eta x + 8 * eta x ^ 3) = M at *
  refine ⟨I * √(1 - eta x ^ 2) ^ 7 / √(1 + x.e ^ 2) - 1 / 2 * M, ?_, ?_⟩
  · have e1 : I * √(1 - eta x ^ 2) ^ 7 / √(1 + x.e ^ 2) - 1 / 2 * M
        = (I - √(1 + x.e ^ 2) * (1 / 2 * M) / √(1 - eta x ^ 2) ^ 7) * (√(1 - eta x ^ 2) ^ 7 / √(1 + x.e ^ 2)) := by field_simp
    rw [e1, abs_mul, abs_of_pos (by positivity : 0 < √(1 - eta x ^ 2) ^ 7 / √(1 + x.e ^ 2))]
    calc _ ≤ √(1 + x.e ^ 2) * (44 * x.e ^ 3 * (1 + 3 / 2 * eta x ^ 2)) / √(1 - eta x ^ 2) ^ 7 * (√(1 - eta x ^ 2) ^ 7 / √(1 + x.e ^ 2)) := by gcongr
      _ = _ := by field_simp
  · have e4 : 1 - x.e ^ 4 = (1 - x.e ^ 2) * √(1 + x.e ^ 2) ^ 2 := by rw [hα2]; ring
    rw [e4]
    field_simp
    ring

theorem edot_value (k : Fixed) (x : Orb) :
    edot (noField k) x = -Sgp8.c0 k x * (eta x * (4 + eta x ^ 2) + x.e * (5 + 15 * eta x ^ 2) + x.e ^ 2 * (31 / 2 * eta x + 7 * eta x ^ 3)) := by
  have : Sgp8.c0 (noField k) x = Sgp8.c0 k x := rfl
  unfold edot Sgp8.c8 Sgp8.c9 b1 b2 b3
  rw [this]
  simp only [noField, eta2, eosq]
  ring

/-- C152: likewise the rate of the eccentricity, up to its second power. -/
theorem C152_eccentricity (k : Fixed) {x : Orb} (hx : Above x) (h0 : 0 ≤ x.e) : ∃ ρ, |ρ| ≤ 40 * x.e ^ 2 ∧
    (ellipse8 x).timeMean ((ellipse8 x).eccRate ((ellipse8 x).powerLaw k.bstar qoms2t sConst)) = edot (noField k) x * (1 + ρ) := by
  obtain ⟨ha, h1, hs, hpo, hps, hη, hη0, hη1, hψ⟩ := orbit_facts hx h0
  obtain ⟨r, hr, hm⟩ := ecc8_value k hx h0
  rw [hm, edot_value]
  rcases h0.eq_or_lt with he | he
  · refine ⟨0, by rw [abs_zero]; positivity, ?_⟩
    rw [← he] at hr ⊢
    norm_num at hr
    rw [hr, hη, ← he]
    ring
  have hηl := (abs_lt.1 hη1).2
  generalize eta x = η at *
  generalize x.e = e at *
  generalize hM : η * (4 + η ^ 2) + e * (5 + 15 * η ^ 2) + e ^ 2 * (31 / 2 * η + 7 * η ^ 3) = M
  have hM1 : η * (4 + η ^ 2) ≤ M := by rw [← hM]; have : 0 ≤ e * (5 + 15 * η ^ 2) := by positivity
                                       have : 0 ≤ e ^ 2 * (31 / 2 * η + 7 * η ^ 3) := by positivity
                                       linarith
  have hM2 : 5 * e * (1 + 3 / 2 * η ^ 2) ≤ M := by rw [← hM]; have : 0 ≤ η * (4 + η ^ 2) := by positivity
                                                   have : 0 ≤ e ^ 2 * (31 / 2 * η + 7 * η ^ 3) := by positivity
                                                   have : 0 ≤ e * η ^ 2 := by positivity
                                                   linarith
  have hM0 : 0 < M := lt_of_lt_of_le (by positivity) hM2
  have hsum : η * (4 + η ^ 2) + e * (5 + 15 * η ^ 2) + e ^ 2 * (39 / 2 * η + 8 * η ^ 3) + 2 * r = M + e ^ 2 * (η * (4 + η ^ 2)) + 2 * r := by rw [← hM]; ring
  rw [hsum]
  have hr2 : |2 * r| ≤ 88 / 5 * e ^ 2 * M := by
    rw [abs_mul, abs_of_pos (by norm_num : (0:ℝ) < 2)]
    nlinarith [mul_le_mul_of_nonneg_left hM2 (sq_nonneg e)]
  have hz : 0 ≤ e ^ 2 * (η * (4 + η ^ 2)) ∧ e ^ 2 * (η * (4 + η ^ 2)) ≤ e ^ 2 * M := ⟨by positivity, by gcongr⟩
  refine ⟨((1 - e ^ 4) * (M + e ^ 2 * (η * (4 + η ^ 2)) + 2 * r) - M) / M, ?_, by field_simp; ring⟩
  rw [abs_div, abs_of_pos hM0, div_le_iff₀ hM0]
  have he4 : e ^ 4 ≤ e ^ 2 := pow_le_pow_of_le_one h0 h1.le (by norm_num)
  have he41 : 0 ≤ 1 - e ^ 4 := by linarith [pow_le_one₀ h0 h1.le (n := 4)]
  have he40 : 0 ≤ e ^ 4 := by positivity
  rw [show (1 - e ^ 4) * (M + e ^ 2 * (η * (4 + η ^ 2)) + 2 * r) - M = (1 - e ^ 4) * (e ^ 2 * (η * (4 + η ^ 2)) + 2 * r) + -(e ^ 4 * M) by ring]
  refine (abs_add_le _ _).trans ?_
  rw [abs_mul, abs_neg, abs_of_nonneg he41, abs_of_nonneg (by positivity : 0 ≤ e ^ 4 * M)]
  have w1 : |e ^ 2 * (η * (4 + η ^ 2)) + 2 * r| ≤ e ^ 2 * M + 88 / 5 * e ^ 2 * M := (abs_add_le _ _).trans (by rw [abs_of_nonneg hz.1]; linarith [hz.2])
  have w2 : (1 - e ^ 4) * |e ^ 2 * (η * (4 + η ^ 2)) + 2 * r| ≤ 1 * (e ^ 2 * M + 88 / 5 * e ^ 2 * M) := by gcongr; linarith
  have w3 : e ^ 4 * M ≤ e ^ 2 * M := by gcongr
  have w4 : 0 ≤ e ^ 2 * M := by positivity
  linarith

/-- C153: up to the third power the mean is `1 + e ^ 2` times the rate of the program. -/
theorem C153_factor_partial (k : Fixed) {x : Orb} (hx : Above x) (h0 : 0 ≤ x.e) :
    |(ellipse8 x).timeMean ((ellipse8 x).eccRate ((ellipse8 x).powerLaw k.bstar qoms2t sConst)) - (1 + x.e ^ 2) * edot (noField k) x|
      ≤ 540 * x.e ^ 3 * |Sgp8.c0 k x| := by
  obtain ⟨ha, h1, hs, hpo, hps, hη, hη0, hη1, hψ⟩ := orbit_facts hx h0
  obtain ⟨r, hr, hm⟩ := ecc8_value k hx h0
  rw [hm, edot_value]
  have hηl := (abs_lt.1 hη1).2
  generalize eta x = η at *
  generalize x.e = e at *
  have e1 : -Sgp8.c0 k x * (1 - e ^ 4) * (η * (4 + η ^ 2) + e * (5 + 15 * η ^ 2) + e ^ 2 * (39 / 2 * η + 8 * η ^ 3) + 2 * r)
      - (1 + e ^ 2) * (-Sgp8.c0 k x * (η * (4 + η ^ 2) + e * (5 + 15 * η ^ 2) + e ^ 2 * (31 / 2 * η + 7 * η ^ 3)))
      = (1 + e ^ 2) * ((e ^ 3 * (5 + 15 * η ^ 2) + e ^ 4 * (39 / 2 * η + 8 * η ^ 3)) - (1 - e ^ 2) * (2 * r)) * Sgp8.c0 k x := by ring
  rw [e1, abs_mul]
  gcongr
  have hη2 : η ^ 2 ≤ 1 := by nlinarith
  have hη3 : η ^ 3 ≤ 1 := pow_le_one₀ hη0 hηl.le
  have he4 : e ^ 4 ≤ e ^ 3 := pow_le_pow_of_le_one h0 h1.le (by norm_num)
  have he3 : 0 ≤ e ^ 3 := by positivity
  have he2 : e ^ 2 ≤ 1 := by nlinarith
  have he20 : 0 ≤ e ^ 2 := by positivity
  rw [abs_mul, abs_of_pos (by positivity : 0 < 1 + e ^ 2)]
  have w1 : |2 * r| ≤ 220 * e ^ 3 := by
    rw [abs_mul, abs_of_pos (by norm_num : (0:ℝ) < 2)]
    nlinarith
  have w2 : |(1 - e ^ 2) * (2 * r)| ≤ 1 * (220 * e ^ 3) := by
    rw [abs_mul, abs_of_nonneg (by linarith : 0 ≤ 1 - e ^ 2)]
    gcongr
    linarith
  have w3 : |e ^ 3 * (5 + 15 * η ^ 2) + e ^ 4 * (39 / 2 * η + 8 * η ^ 3)| ≤ e ^ 3 * 20 + e ^ 3 * (55 / 2) := by
    rw [abs_of_nonneg (by positivity)]
    gcongr <;> linarith
  have w4 := (abs_sub (e ^ 3 * (5 + 15 * η ^ 2) + e ^ 4 * (39 / 2 * η + 8 * η ^ 3)) ((1 - e ^ 2) * (2 * r)))
  calc _ ≤ 2 * (e ^ 3 * 20 + e ^ 3 * (55 / 2) + 1 * (220 * e ^ 3)) := by
        gcongr
        · linarith
        · linarith
    _ ≤ _ := by linarith

/-- An orbit with a perigee close above the level: `eta` is one half. -/
noncomputable def skim (e : ℝ) : Orb := ⟨sConst * (1 + 2 * e) / (1 - e ^ 2), 1, e, 0⟩

theorem skim_facts {e : ℝ} (h0 : 0 < e) (h1 : e < 1) : Above (skim e) ∧ po (skim e) = sConst * (1 + 2 * e) ∧ eta (skim e) = 1 / 2 := by
  have hs := sConst_pos
  have hu : 0 < 1 - e ^ 2 := by nlinarith
  have hpo : po (skim e) = sConst * (1 + 2 * e) := by
    unfold po betao2 eosq skim
    field_simp
  refine ⟨⟨one_pos, by show |e| < 1; rw [abs_of_pos h0]; exact h1, ?_⟩, hpo, ?_⟩
  · show sConst < sConst * (1 + 2 * e) / (1 - e ^ 2) * (1 - |e|)
    rw [abs_of_pos h0, div_mul_eq_mul_div, lt_div_iff₀ hu]
    nlinarith [mul_pos hs h0, mul_pos hs (mul_pos h0 (by linarith : 0 < 1 - e))]
  · unfold eta tsi
    rw [hpo]
    show e * sConst * (1 / (sConst * (1 + 2 * e) - sConst)) = 1 / 2
    rw [show sConst * (1 + 2 * e) - sConst = 2 * (e * sConst) by ring]
    field_simp

/-- C153: the rate of the eccentricity is not complete to the second power as that of the mean motion is. -/
theorem C153_order_violated : ¬∃ K, ∀ (k : Fixed) (x : Orb), Above x → 0 ≤ x.e →
    |(ellipse8 x).timeMean ((ellipse8 x).eccRate ((ellipse8 x).powerLaw k.bstar qoms2t sConst)) - edot (noField k) x| ≤ K * x.e ^ 3 * |Sgp8.c0 k x| := by
  rintro ⟨K, hK⟩
  have hp : 0 < |K| + 541 := by positivity
  have h0 : 0 < 1 / (|K| + 541) := by positivity
  have h1 : 1 / (|K| + 541) < 1 := by rw [div_lt_one hp]; linarith [abs_nonneg K]
  have hKe : (K + 540) * (1 / (|K| + 541)) < 1 := by
    rw [mul_one_div, div_lt_one hp]; linarith [le_abs_self K]
  generalize 1 / (|K| + 541) = e at *
  obtain ⟨hx, hpo, hη⟩ := skim_facts h0 h1
  let k : Fixed := ⟨1, 0, 0, 0, 0⟩
  have g1 := hK k (skim e) hx h0.le
  have g2 := C153_factor_partial k hx h0.le
  have hc0 : 0 < Sgp8.c0 k (skim e) := by
    have hps := (above_good hx).ps
    have ha := (above_good hx).a
    have hn := hx.n
    rw [c0_value k hx h0.le, hη]
    have : 0 < √(1 - (1 / 2 : ℝ) ^ 2) := sqrt_pos.2 (by norm_num)
    have : 0 < √(1 + (skim e).e ^ 2) := sqrt_pos.2 (by positivity)
    have : 0 < qoms2t := by unfold qoms2t; norm_num
    have : k.bstar = 1 := rfl
    rw [this]
    positivity
  have hv := edot_value k (skim e)
  rw [hη] at hv
  have hee : (skim e).e = e := rfl
  rw [hee] at g1 g2 hv
  rw [abs_of_pos hc0] at g1 g2
  generalize Sgp8.c0 k (skim e) = c at *
  generalize (ellipse8 (skim e)).timeMean _ = T at *
  have hd : edot (noField k) (skim e) ≤ -(2 * c) := by
    rw [hv]
    have : 0 ≤ e * (5 + 15 * (1 / 2 : ℝ) ^ 2) + e ^ 2 * (31 / 2 * (1 / 2) + 7 * (1 / 2) ^ 3) := by positivity
    nlinarith
  generalize edot (noField k) (skim e) = d at *
  have g1' := abs_le.1 g1
  have g2' := abs_le.1 g2
  have he2 : 0 < e ^ 2 := by positivity
  have hA : e ^ 2 * (2 * c) ≤ (K + 540) * e ^ 3 * c := by nlinarith
  have hB : (K + 540) * e ^ 3 * c < e ^ 2 * c := by
    have : 0 < e ^ 2 * c := by positivity
    nlinarith
  nlinarith [mul_pos he2 hc0]

/-! ### The flattening and the third harmonic -/

/-- The periodic variation of the distance at the argument of latitude `u` on an orbit of the parameter `p`, as SGP8 has it in the position. -/
noncomputable def lift8 (k : Fixed) (p u : ℝ) : ℝ := ck2 / (2 * p) * (k.unmth2 * cos (2 * u) - 3 * k.tthmun) - a3ovk2 / 4 * k.sini * sin u

theorem lift8_expand (k : Fixed) (p g f : ℝ) :
    lift8 k p (f + g) = (-(3 * ck2 * k.tthmun / (2 * p)) - ck2 * k.unmth2 / (2 * p) * cos (2 * g)) + -(a3ovk2 / 4 * k.sini) * sin g * cos f
      + 2 * (ck2 * k.unmth2 / (2 * p)) * cos (2 * g) * cos f ^ 2 + 0 * cos f ^ 3
      + sin f * (-(a3ovk2 / 4 * k.sini) * cos g + -(2 * (ck2 * k.unmth2 / (2 * p)) * sin (2 * g)) * cos f + 0 * cos f ^ 2) := by
  unfold lift8
  rw [show 2 * (f + g) = 2 * f + 2 * g by ring, cos_add, sin_add, cos_two_mul f, sin_two_mul f]
  ring

theorem lift8_bound (k : Fixed) (p u : ℝ) : |lift8 k p u| ≤ |ck2 / (2 * p)| * (|k.unmth2| + |3 * k.tthmun|) + |a3ovk2 / 4 * k.sini| := by
  unfold lift8
  refine (abs_sub _ _).trans ?_
  rw [abs_mul, abs_mul _ (sin u)]
  have h1 : |k.unmth2 * cos (2 * u) - 3 * k.tthmun| ≤ |k.unmth2| + |3 * k.tthmun| := by
    refine (abs_sub _ _).trans ?_
    rw [abs_mul]
    have := mul_le_of_le_one_right (abs_nonneg k.unmth2) (abs_cos_le_one (2 * u))
    linarith
  have h2 := mul_le_of_le_one_right (abs_nonneg (a3ovk2 / 4 * k.sini)) (abs_sin_le_one u)
  gcongr

/-- C152: this is the variation in the position. -/
theorem C152_lift (p : Par8) (m : Mean8) (E : ℝ) (k : Fixed) (hk : k.unmth2 = p.c.unmth2 ∧ k.tthmun = p.c.tthmun ∧ k.sini = p.sini) (he : 0 ≤ m.em) (he1 : m.em < 1) :
    (short8 ck2 a3ovk2 p m E).rr = (xke / m.xn) ^ (2 / 3 : ℝ) * (1 - m.em * m.em) / (1 + m.em * cos (fm8 m.em E))
      + lift8 k ((xke / m.xn) ^ (2 / 3 : ℝ) * (1 - m.em * m.em)) (fm8 m.em E + m.omgasm) := by
  obtain ⟨f1, f2, f3, f4⟩ := fm8_polar he he1 E
  obtain ⟨k1, k2, k3⟩ := hk
  have hden : 0 < 1 - m.em * cos E := by nlinarith [neg_one_le_cos E, cos_le_one E]
  have hsn : √(1 - m.em * m.em) * sin E * (1 / (1 - m.em * cos E)) = sin (fm8 m.em E) := by rw [f2]; field_simp
  have hcs : (cos E - m.em) * (1 / (1 - m.em * cos E)) = cos (fm8 m.em E) := by rw [f1]; field_simp
  unfold short8 lift8
  dsimp only
  rw [hsn, hcs, k1, k2, k3, cos_two_mul, sin_add, cos_add]
  generalize (xke / m.xn) ^ (2 / 3 : ℝ) * (1 - m.em * m.em) = P
  rw [show ck2 / (2 * P) = ck2 * (1 / 2) * (1 / P) by rw [div_mul_eq_div_div]; ring]
  ring

/-- C152: the terms of the flattening and of the third harmonic in the rate of the mean motion are the effect on the mean density of the variation of the distance
that SGP8 has in the position; `(po - s) (1 - eta cos f)` is the height above the level times `1 + e cos f` (`C152_height`). -/
theorem C152_field_motion (k : Fixed) {x : Orb} (hx : Above x) (h0 : 0 ≤ x.e) :
    HasDerivAt (fun κ => (∫ f in (0)..(2 * π), 3 * x.n ^ 2 * x.a * √(1 + x.e ^ 2) ^ 3 * k.bstar * qoms2t
        / ((po x - sConst) * (1 - eta x * cos f) + κ * lift8 k (po x) (f + x.g)) ^ 4) / (2 * π))
      (xndt k x - xndt (noField k) x) 0 := by
  obtain ⟨ha, h1, hs, hpo, hps, hη, hη0, hη1, hψ⟩ := orbit_facts hx h0
  have hu : 0 < 1 - eta x ^ 2 := by nlinarith [abs_lt.mp hη1]
  have hq : 0 < √(1 - eta x ^ 2) := sqrt_pos.mpr hu
  have hqs : √(1 - eta x ^ 2) ^ 2 = 1 - eta x ^ 2 := sq_sqrt hu.le
  have hα : 0 < √(1 + x.e ^ 2) := sqrt_pos.mpr (by positivity)
  have hα2 : √(1 + x.e ^ 2) ^ 2 = 1 + x.e ^ 2 := sq_sqrt (by positivity)
  have hηl := (abs_lt.1 hη1).2
  have hd := Conic.lift_deriv (w := fun _ => 3 * x.n ^ 2 * x.a * √(1 + x.e ^ 2) ^ 3 * k.bstar * qoms2t) (D := fun f => (po x - sConst) * (1 - eta x * cos f))
    (h := fun f => lift8 k (po x) (f + x.g)) (m := (po x - sConst) * (1 - eta x)) (by fun_prop) (by fun_prop) (by unfold lift8; fun_prop)
    (mul_pos hps (by linarith)) (fun f => by gcongr; exact mul_le_of_le_one_right hη0 (cos_le_one f)) (fun f => lift8_bound k (po x) _) (fun f => le_rfl)
  refine (hd.div_const (2 * π)).congr_deriv ?_
  have e1 : ∀ f, -4 * (3 * x.n ^ 2 * x.a * √(1 + x.e ^ 2) ^ 3 * k.bstar * qoms2t) * lift8 k (po x) (f + x.g) / ((po x - sConst) * (1 - eta x * cos f)) ^ 5
      = -12 * x.n ^ 2 * x.a * √(1 + x.e ^ 2) ^ 3 * k.bstar * qoms2t / (po x - sConst) ^ 5 * (lift8 k (po x) (f + x.g) / (1 - eta x * cos f) ^ 5) := fun f => by
    have := (Conic.one_sub_pos hη1 f).ne'
    field_simp
    ring
  simp only [e1]
  rw [intervalIntegral.integral_const_mul]
  simp only [lift8_expand]
  rw [Conic.mean_five_poly hη1]
  have hx8 : xndt k x - xndt (noField k) x = Sgp8.c1 k x * (d1 x * d2 x * b1 k + Sgp8.c4 k x * cos2g x + Sgp8.c5 k x * sin x.g) := by
    have : Sgp8.c1 (noField k) x = Sgp8.c1 k x := rfl
    unfold xndt Sgp8.c4 Sgp8.c5 b1 b2 b3
    rw [this]
    simp only [noField]
    ring
  rw [hx8]
  unfold Sgp8.c1 Sgp8.c4 Sgp8.c5
  rw [c0_value k hx h0]
  have hal : alpha2 x = 1 + x.e ^ 2 := by unfold alpha2 eosq; ring
  have hα4 : (1 + x.e ^ 2) * (1 + x.e ^ 2) = √(1 + x.e ^ 2) ^ 4 := by linear_combination (-(√(1 + x.e ^ 2) ^ 2 + (1 + x.e ^ 2))) * hα2
  have hps2 : psim2 x = 1 / √(1 - eta x ^ 2) ^ 2 := by
    unfold psim2 eta2
    rw [hqs, ← sq, abs_of_pos (by positivity)]
  have hpo0 : po x ≠ 0 := (above_good hx).po
  have hc2 : cos2g x = cos (2 * x.g) := by unfold cos2g; rw [cos_two_mul]; ring
  rw [hal, hα4, hc2]
  unfold d1 d5 d2 d3 d4 b1 b2 b3 tsi eta2
  rw [hps2]
  generalize √(1 - eta x ^ 2) = ψ at *
  generalize √(1 + x.e ^ 2) = α at *
  generalize eta x = η at *
  generalize cos (2 * x.g) = C2
  generalize sin x.g = S1
  generalize po x - sConst = Q at *
  have hpi := pi_pos
  field_simp
  ring

/-- C152: likewise in the rate of the eccentricity. -/
theorem C152_field_eccentricity (k : Fixed) {x : Orb} (hx : Above x) (h0 : 0 ≤ x.e) :
    HasDerivAt (fun κ => (∫ f in (0)..(2 * π), -(2 * x.n * x.a / √(1 + x.e ^ 2) * k.bstar * qoms2t) * cos f
        / ((po x - sConst) * (1 - eta x * cos f) + κ * lift8 k (po x) (f + x.g)) ^ 4) / (2 * π))
      (edot k x - edot (noField k) x) 0 := by
  obtain ⟨ha, h1, hs, hpo, hps, hη, hη0, hη1, hψ⟩ := orbit_facts hx h0
  have hu : 0 < 1 - eta x ^ 2 := by nlinarith [abs_lt.mp hη1]
  have hq : 0 < √(1 - eta x ^ 2) := sqrt_pos.mpr hu
  have hqs : √(1 - eta x ^ 2) ^ 2 = 1 - eta x ^ 2 := sq_sqrt hu.le
  have hα : 0 < √(1 + x.e ^ 2) := sqrt_pos.mpr (by positivity)
  have hηl := (abs_lt.1 hη1).2
  have hd := Conic.lift_deriv (w := fun f => -(2 * x.n * x.a / √(1 + x.e ^ 2) * k.bstar * qoms2t) * cos f) (D := fun f => (po x - sConst) * (1 - eta x * cos f))
    (h := fun f => lift8 k (po x) (f + x.g)) (m := (po x - sConst) * (1 - eta x)) (by fun_prop) (by fun_prop) (by unfold lift8; fun_prop)
    (mul_pos hps (by linarith)) (fun f => by gcongr; exact mul_le_of_le_one_right hη0 (cos_le_one f)) (fun f => lift8_bound k (po x) _)
    (W := |-(2 * x.n * x.a / √(1 + x.e ^ 2) * k.bstar * qoms2t)|) (fun f => by rw [abs_mul]; exact mul_le_of_le_one_right (abs_nonneg _) (abs_cos_le_one f))
  refine (hd.div_const (2 * π)).congr_deriv ?_
  have e1 : ∀ f, -4 * (-(2 * x.n * x.a / √(1 + x.e ^ 2) * k.bstar * qoms2t) * cos f) * lift8 k (po x) (f + x.g) / ((po x - sConst) * (1 - eta x * cos f)) ^ 5
      = 8 * x.n * x.a / √(1 + x.e ^ 2) * k.bstar * qoms2t / (po x - sConst) ^ 5 * ((0 + (-(3 * ck2 * k.tthmun / (2 * po x)) - ck2 * k.unmth2 / (2 * po x) * cos (2 * x.g)) * cos f
        + -(a3ovk2 / 4 * k.sini) * sin x.g * cos f ^ 2 + 2 * (ck2 * k.unmth2 / (2 * po x)) * cos (2 * x.g) * cos f ^ 3
        + sin f * (0 + -(a3ovk2 / 4 * k.sini) * cos x.g * cos f + -(2 * (ck2 * k.unmth2 / (2 * po x)) * sin (2 * x.g)) * cos f ^ 2)) / (1 - eta x * cos f) ^ 5) := fun f => by
    rw [lift8_expand]
    have := (Conic.one_sub_pos hη1 f).ne'
    rw [mul_pow]
    have hpo0 : po x ≠ 0 := (above_good hx).po
    field_simp
    ring
  simp only [e1]
  rw [intervalIntegral.integral_const_mul]
  rw [Conic.mean_five_poly hη1]
  have hx8 : edot k x - edot (noField k) x = -Sgp8.c0 k x * (d1 x * d6 x * b1 k + c8 k x * cos2g x + c9 k x * sin x.g) := by
    have : Sgp8.c0 (noField k) x = Sgp8.c0 k x := rfl
    unfold edot Sgp8.c8 Sgp8.c9 b1 b2 b3
    rw [this]
    simp only [noField]
    ring
  rw [hx8]
  unfold Sgp8.c8 Sgp8.c9
  rw [c0_value k hx h0]
  have hps2 : psim2 x = 1 / √(1 - eta x ^ 2) ^ 2 := by
    unfold psim2 eta2
    rw [hqs, ← sq, abs_of_pos (by positivity)]
  have hpo0 : po x ≠ 0 := (above_good hx).po
  have hc2 : cos2g x = cos (2 * x.g) := by unfold cos2g; rw [cos_two_mul]; ring
  rw [hc2]
  unfold d1 d5 d6 d7 d8 b1 b2 b3 tsi eta2
  rw [hps2]
  generalize √(1 - eta x ^ 2) = ψ at *
  generalize √(1 + x.e ^ 2) = α at *
  generalize eta x = η at *
  generalize cos (2 * x.g) = C2
  generalize sin x.g = S1
  generalize po x - sConst = Q at *
  have hpi := pi_pos
  field_simp
  ring

/-- C152: the height above the level. -/
theorem C152_height {x : Orb} (hx : Above x) (h0 : 0 ≤ x.e) (f : ℝ) :
    (po x - sConst) * (1 - eta x * cos f) = (po x / (1 + x.e * cos f) - sConst) * (1 + x.e * cos f) := by
  obtain ⟨ha, h1, hs, hpo, hps, hη, hη0, hη1, hψ⟩ := orbit_facts hx h0
  have : 0 < 1 + x.e * cos f := by nlinarith [neg_one_le_cos f]
  rw [hη]
  field_simp
  ring

/-- The orbit close above the level with eccentricity 1/100: the two terms of the flattening that do not depend on the perigee. -/
example : (skim (1 / 100)).e = 1 / 100 ∧ Above (skim (1 / 100)) ∧ d2 (skim (1 / 100)) = 681 / 32 ∧ d6 (skim (1 / 100)) = 285 / 16 := by
  obtain ⟨h1, h2, h3⟩ := skim_facts (e := 1 / 100) (by norm_num) (by norm_num)
  refine ⟨rfl, h1, ?_, ?_⟩
  · unfold d2 eta2; rw [h3]; norm_num
  · unfold d6 eta2; rw [h3]; norm_num

/-! ### Circular orbits -/

/-- C154: SGP8 changes the eccentricity of a circular orbit only by the third harmonic. -/
theorem C154_sgp8_partial (k : Fixed) {x : Orb} (he : x.e = 0) : edot k x = -Sgp8.c0 k x * (d5 x * (a3ovk2 * k.sini) * sin x.g) := by
  have h1 : eta x = 0 := by unfold eta; rw [he]; ring
  unfold edot Sgp8.c8 Sgp8.c9 d6 d7 d8 b3 eta2
  rw [h1, he]
  ring

/-- C154: SGP4 changes it by the flattening, everywhere except at one inclination. -/
theorem C154_sgp4 {e : Elem} (he : e.eo = 0) :
    eccLoss ck2 e = 12 * ck2 * e.bstar * (sxpx_common_init e).xnodp * (sxpx_common_init e).coef1 * (sxpx_common_init e).tsi
      * ((sxpall_common_init e).aodp / (sxpall_common_init e).aodp) * (3 * cos e.xincl ^ 2 - 1) := by
  unfold eccLoss c4Of
  dsimp only
  rw [he]
  have h1 : (sxpall_common_init e).betao2 = 1 := by
    show 1 - e.eo * e.eo = 1
    rw [he]; ring
  have h2 : (sxpall_common_init e).cosio2 = cos e.xincl ^ 2 := by
    show cos e.xincl * cos e.xincl = _
    ring
  have h3 : (sxpx_common_init e).xnodp = (sxpall_common_init e).xnodp := rfl
  rw [h1, h2, h3]
  simp only [mul_zero, zero_mul, sub_zero, abs_one, mul_one, add_zero, zero_add]
  ring

/-- C154: so it is not zero, whatever the drag, for perigees above 20 km. -/
theorem C154_sgp4_violated {e : Elem} (he : e.eo = 0) (hb : e.bstar ≠ 0) (hi : 3 * cos e.xincl ^ 2 ≠ 1) (hn : 0 < (sxpx_common_init e).xnodp)
    (ha : 0 < (sxpx_common_init e).aodp) (hp : 20 < perige (sxpall_common_init e) e.eo) : eccLoss ck2 e ≠ 0 := by
  rw [C154_sgp4 he]
  have hs := (eta_bounds e he.ge (by rw [he]; norm_num) ha hp).1
  have htsi : (sxpx_common_init e).tsi ≠ 0 := (one_div_pos.2 hs).ne'
  have ha' : (sxpall_common_init e).aodp ≠ 0 := ha.ne'
  have hk : ck2 ≠ 0 := small_constants.1.ne'
  have hq : 0 < qoms24Of (perige (sxpall_common_init e) e.eo) := by
    unfold qoms24Of earthRadius qoms2t
    split_ifs with w1 w2
    · norm_num
    · have : 0 < (120 - (perige (sxpall_common_init e) e.eo - 78)) / (6378135 / 1000) := div_pos (by linarith) (by norm_num)
      dsimp only
      positivity
    · norm_num
  have hc : (sxpx_common_init e).coef1 ≠ 0 := by
    have h3 : (sxpx_common_init e).coef1 = qoms24Of (perige (sxpall_common_init e) e.eo) * ((sxpx_common_init e).tsi * (sxpx_common_init e).tsi)
        * ((sxpx_common_init e).tsi * (sxpx_common_init e).tsi)
        / |1 - (sxpall_common_init e).aodp * e.eo * (sxpx_common_init e).tsi * ((sxpall_common_init e).aodp * e.eo * (sxpx_common_init e).tsi)| ^ (7 / 2 : ℝ) := rfl
    rw [h3, he]
    simp only [mul_zero, zero_mul, sub_zero, abs_one, one_rpow, div_one]
    exact mul_ne_zero (mul_ne_zero (by rw [he] at hq; exact hq.ne') (mul_ne_zero htsi htsi)) (mul_ne_zero htsi htsi)
  have hi' : 3 * cos e.xincl ^ 2 - 1 ≠ 0 := sub_ne_zero.2 hi
  rw [div_self ha', mul_one]
  have := hn.ne'
  positivity

/-- A circular orbit above the equator. -/
noncomputable def wideCircle : Elem := { longOrbit with eo := 0 }

example : eccLoss ck2 wideCircle ≠ 0 := by
  have hx : xke ≠ 0 := by unfold xke; norm_num
  have hx0 : 0 < xke := by unfold xke; norm_num
  have h1 : a1 wideCircle = 4 := by
    unfold a1
    rw [show xke / wideCircle.xno = 8 by show xke / (xke / 8) = 8; field_simp]
    rw [show (8 : ℝ) = 2 ^ (3 : ℝ) by norm_num, ← rpow_mul (by norm_num), show (3 : ℝ) * (2 / 3) = (2 : ℕ) by norm_num, rpow_natCast]
    norm_num
  have ht : tval wideCircle = 3 * ck2 := by
    unfold tval; simp [wideCircle, longOrbit]; norm_num; ring
  have e1 : (sxpall_common_init wideCircle).aodp = ao wideCircle / (1 - delo wideCircle) := rfl
  have e2 : (sxpall_common_init wideCircle).xnodp = wideCircle.xno / (1 + delo wideCircle) := rfl
  have hd : 0 < delo wideCircle ∧ delo wideCircle < 1 / 1000 ∧ 399 / 100 < ao wideCircle / (1 - delo wideCircle) := by
    unfold delo ao del1
    rw [h1, ht]
    unfold ck2 xj2
    norm_num
  refine C154_sgp4_violated rfl one_ne_zero (by simp [wideCircle, longOrbit]) ?_ ?_ ?_
  · show 0 < (sxpall_common_init wideCircle).xnodp
    rw [e2]
    exact div_pos (by show 0 < xke / 8; positivity) (by linarith [hd.1])
  · show 0 < (sxpall_common_init wideCircle).aodp
    rw [e1]; linarith [hd.2.2]
  · unfold perige earthRadius
    rw [e1, show wideCircle.eo = 0 from rfl]
    nlinarith [hd.2.2]

end SatSky.Props
