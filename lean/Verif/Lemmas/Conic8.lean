import Verif.Lemmas.Conic
import Mathlib.Topology.Order.ProjIcc
import Mathlib.Analysis.Calculus.ParametricIntervalIntegral

/-! Means over the true anomaly for an atmosphere of the fourth power. -/

namespace SatSky.Conic

open Real

variable {η : ℝ}

theorem true_mem {e : ℝ} (h : |e| < 1) (E : ℝ) : (cos E - e) / (1 - e * cos E) ∈ Set.Icc (-1 : ℝ) 1 := by
  have hd := one_sub_pos h E
  have he := abs_lt.1 h
  have h1 := neg_one_le_cos E
  have h2 := cos_le_one E
  constructor
  · rw [le_div_iff₀ hd]; nlinarith
  · rw [div_le_one hd]; nlinarith

/-- The substitution of the true anomaly for a function of its cosine that is continuous there. -/
theorem substitute_on {e : ℝ} (h : |e| < 1) {g : ℝ → ℝ} (hg : ContinuousOn g (Set.Icc (-1) 1)) :
    ∫ E in (0)..(2 * π), g ((cos E - e) / (1 - e * cos E)) * (√(1 - e ^ 2) / (1 - e * cos E)) = ∫ v in (0)..(2 * π), g (cos v) := by
  have h1 : (-1 : ℝ) ≤ 1 := by norm_num
  have hG : Continuous (Set.IccExtend h1 ((Set.Icc (-1 : ℝ) 1).restrict g)) := (continuousOn_iff_continuous_restrict.1 hg).Icc_extend'
  have hv : ∀ x ∈ Set.Icc (-1 : ℝ) 1, Set.IccExtend h1 ((Set.Icc (-1 : ℝ) 1).restrict g) x = g x := fun x hx => by
    rw [Set.IccExtend_of_mem _ _ hx]; rfl
  have := substitute_ecc h _ hG
  simp only [hv _ (true_mem h _), hv _ ⟨neg_one_le_cos _, cos_le_one _⟩] at this
  exact this

/-- The mean of a polynomial of the cosine. -/
theorem mean_quartic (a0 a1 a2 a3 a4 : ℝ) :
    ∫ v in (0)..(2 * π), (a0 + a1 * cos v + a2 * cos v ^ 2 + a3 * cos v ^ 3 + a4 * cos v ^ 4) = 2 * π * (a0 + a2 / 2 + 3 / 8 * a4) := by
  have hd : ∀ v ∈ Set.uIcc 0 (2 * π), HasDerivAt (fun v => a0 * v + a1 * sin v + a2 * (v / 2 + sin v * cos v / 2) + a3 * (sin v - sin v ^ 3 / 3)
      + a4 * (3 / 8 * v + 3 / 8 * (sin v * cos v) + 1 / 4 * (cos v ^ 3 * sin v)))
      (a0 + a1 * cos v + a2 * cos v ^ 2 + a3 * cos v ^ 3 + a4 * cos v ^ 4) v := by
    intro v _
    have s := hasDerivAt_sin v
    have c := hasDerivAt_cos v
    have i := hasDerivAt_id v
    have h2 : sin v ^ 2 = 1 - cos v ^ 2 := by linarith [sin_sq_add_cos_sq v]
    have := ((((i.const_mul a0).add (s.const_mul a1)).add (((i.div_const 2).add ((s.mul c).div_const 2)).const_mul a2)).add
      ((s.sub ((s.pow 3).div_const 3)).const_mul a3)).add ((((i.const_mul (3 / 8)).add ((s.mul c).const_mul (3 / 8))).add
        (((c.pow 3).mul s).const_mul (1 / 4))).const_mul a4)
    refine this.congr_deriv ?_
    simp only [Pi.pow_apply]
    push_cast
    linear_combination (-(a2 / 2) - a3 * cos v - a4 * (3 / 8) - a4 * (3 / 4) * cos v ^ 2) * h2
  rw [intervalIntegral.integral_eq_sub_of_hasDerivAt hd (Continuous.intervalIntegrable (by fun_prop) _ _)]
  simp
  ring

theorem mean_four_cos_cube (h : |η| < 1) :
    ∫ E in (0)..(2 * π), cos E ^ 3 / (1 - η * cos E) ^ 4 = 2 * π * (3 / 2 * η + η ^ 3) / √(1 - η ^ 2) ^ 7 := by
  have hu : 0 < 1 - η ^ 2 := by nlinarith [abs_lt.mp h]
  have hq : 0 < √(1 - η ^ 2) := sqrt_pos.mpr hu
  have hqs : √(1 - η ^ 2) ^ 2 = 1 - η ^ 2 := sq_sqrt hu.le
  have h1 := substitute_ecc h (fun c => (c + η) ^ 3) (by fun_prop)
  simp only [true_plus h] at h1
  have h2 : (∫ v in (0)..(2 * π), (cos v + η) ^ 3) = 2 * π * (3 / 2 * η + η ^ 3) := by
    rw [show (fun v => (cos v + η) ^ 3) = fun v => η ^ 3 + 3 * η ^ 2 * cos v + 3 * η * cos v ^ 2 + 1 * cos v ^ 3 + 0 * cos v ^ 4 from
      funext fun v => by ring, mean_quartic]
    ring
  rw [h2] at h1
  rw [← h1, eq_div_iff (by positivity), ← intervalIntegral.integral_mul_const]
  refine intervalIntegral.integral_congr (fun E _ => ?_)
  have hd := (one_sub_pos h E).ne'
  rw [show √(1 - η ^ 2) ^ 7 = (√(1 - η ^ 2) ^ 2) ^ 3 * √(1 - η ^ 2) by ring, hqs]
  field_simp

/-- The means with the fifth power. -/
theorem mean_five (h : |η| < 1) (j : ℕ) (hj : j ≤ 4) :
    ∫ E in (0)..(2 * π), cos E ^ j / (1 - η * cos E) ^ 5 = (∫ v in (0)..(2 * π), (cos v + η) ^ j * (1 + η * cos v) ^ (4 - j)) / √(1 - η ^ 2) ^ 9 := by
  have hu : 0 < 1 - η ^ 2 := by nlinarith [abs_lt.mp h]
  have hq : 0 < √(1 - η ^ 2) := sqrt_pos.mpr hu
  have hqs : √(1 - η ^ 2) ^ 2 = 1 - η ^ 2 := sq_sqrt hu.le
  have h1 := substitute_ecc h (fun c => (c + η) ^ j * (1 + η * c) ^ (4 - j)) (by fun_prop)
  simp only [true_radius h, true_plus h] at h1
  rw [← h1, eq_div_iff (by positivity), ← intervalIntegral.integral_mul_const]
  refine intervalIntegral.integral_congr (fun E _ => ?_)
  have hd := (one_sub_pos h E).ne'
  rw [show √(1 - η ^ 2) ^ 9 = (√(1 - η ^ 2) ^ 2) ^ 4 * √(1 - η ^ 2) by ring, hqs]
  interval_cases j <;> (norm_num; field_simp)

theorem mean_five_zero (h : |η| < 1) :
    ∫ E in (0)..(2 * π), 1 / (1 - η * cos E) ^ 5 = 2 * π * (1 + 3 * η ^ 2 + 3 / 8 * η ^ 4) / √(1 - η ^ 2) ^ 9 := by
  have := mean_five h 0 (by norm_num)
  simp only [pow_zero, one_mul, Nat.sub_zero] at this
  rw [this, show (fun v => (1 + η * cos v) ^ 4) = fun v => 1 + 4 * η * cos v + 6 * η ^ 2 * cos v ^ 2 + 4 * η ^ 3 * cos v ^ 3 + η ^ 4 * cos v ^ 4 from
    funext fun v => by ring, mean_quartic]
  ring

theorem mean_five_cos (h : |η| < 1) :
    ∫ E in (0)..(2 * π), cos E / (1 - η * cos E) ^ 5 = 2 * π * (5 / 2 * η + 15 / 8 * η ^ 3) / √(1 - η ^ 2) ^ 9 := by
  have := mean_five h 1 (by norm_num)
  simp only [pow_one, Nat.add_one_sub_one] at this
  rw [this, show (fun v => (cos v + η) * (1 + η * cos v) ^ (4 - 1)) = fun v => η + (1 + 3 * η ^ 2) * cos v + (3 * η + 3 * η ^ 3) * cos v ^ 2
    + (3 * η ^ 2 + η ^ 4) * cos v ^ 3 + η ^ 3 * cos v ^ 4 from funext fun v => by norm_num; ring, mean_quartic]
  ring

theorem mean_five_cos_sq (h : |η| < 1) :
    ∫ E in (0)..(2 * π), cos E ^ 2 / (1 - η * cos E) ^ 5 = 2 * π * (1 / 2 + 27 / 8 * η ^ 2 + 1 / 2 * η ^ 4) / √(1 - η ^ 2) ^ 9 := by
  rw [mean_five h 2 (by norm_num), show (fun v => (cos v + η) ^ 2 * (1 + η * cos v) ^ (4 - 2)) = fun v => η ^ 2 + (2 * η + 2 * η ^ 3) * cos v
    + (1 + 4 * η ^ 2 + η ^ 4) * cos v ^ 2 + (2 * η + 2 * η ^ 3) * cos v ^ 3 + η ^ 2 * cos v ^ 4 from funext fun v => by norm_num; ring, mean_quartic]
  ring

theorem mean_five_cos_cube (h : |η| < 1) :
    ∫ E in (0)..(2 * π), cos E ^ 3 / (1 - η * cos E) ^ 5 = 2 * π * (15 / 8 * η + 5 / 2 * η ^ 3) / √(1 - η ^ 2) ^ 9 := by
  rw [mean_five h 3 (by norm_num), show (fun v => (cos v + η) ^ 3 * (1 + η * cos v) ^ (4 - 3)) = fun v => η ^ 3 + (3 * η ^ 2 + η ^ 4) * cos v
    + (3 * η + 3 * η ^ 3) * cos v ^ 2 + (1 + 3 * η ^ 2) * cos v ^ 3 + η * cos v ^ 4 from funext fun v => by norm_num; ring, mean_quartic]
  ring

/-- An odd function has no mean. -/
theorem mean_odd {g : ℝ → ℝ} (hg : ContinuousOn g (Set.Icc (-1) 1)) : ∫ v in (0)..(2 * π), sin v * g (cos v) = 0 := by
  have h1 : (-1 : ℝ) ≤ 1 := by norm_num
  have hG : Continuous (Set.IccExtend h1 ((Set.Icc (-1 : ℝ) 1).restrict g)) := (continuousOn_iff_continuous_restrict.1 hg).Icc_extend'
  have hv : ∀ x ∈ Set.Icc (-1 : ℝ) 1, Set.IccExtend h1 ((Set.Icc (-1 : ℝ) 1).restrict g) x = g x := fun x hx => by
    rw [Set.IccExtend_of_mem _ _ hx]; rfl
  have h := intervalIntegral.integral_comp_mul_deriv (a := 0) (b := 2 * π) (f := cos) (f' := fun v => -sin v) (fun x _ => hasDerivAt_cos x)
    (by fun_prop) hG
  simp only [cos_zero, cos_two_pi, intervalIntegral.integral_same, Function.comp] at h
  rw [← neg_eq_zero, ← intervalIntegral.integral_neg]
  refine Eq.trans (intervalIntegral.integral_congr fun v _ => ?_) h
  simp only [hv _ ⟨neg_one_le_cos _, cos_le_one _⟩]
  ring

/-- The mean of a polynomial in cosine and sine over the fifth power. -/
theorem mean_five_poly (h : |η| < 1) (A0 A1 A2 A3 B0 B1 B2 : ℝ) :
    ∫ v in (0)..(2 * π), (A0 + A1 * cos v + A2 * cos v ^ 2 + A3 * cos v ^ 3 + sin v * (B0 + B1 * cos v + B2 * cos v ^ 2)) / (1 - η * cos v) ^ 5
      = 2 * π * (A0 * (1 + 3 * η ^ 2 + 3 / 8 * η ^ 4) + A1 * (5 / 2 * η + 15 / 8 * η ^ 3) + A2 * (1 / 2 + 27 / 8 * η ^ 2 + 1 / 2 * η ^ 4)
        + A3 * (15 / 8 * η + 5 / 2 * η ^ 3)) / √(1 - η ^ 2) ^ 9 := by
  have hp : ∀ v, (1 - η * cos v) ^ 5 ≠ 0 := fun v => pow_ne_zero _ (one_sub_pos h v).ne'
  have hc : ∀ j : ℕ, Continuous fun v => cos v ^ j / (1 - η * cos v) ^ 5 := fun j => Continuous.div (by fun_prop) (by fun_prop) hp
  have ho := mean_odd (g := fun c => (B0 + B1 * c + B2 * c ^ 2) / (1 - η * c) ^ 5) (by
    refine ContinuousOn.div (by fun_prop) (by fun_prop) fun c hc => ?_
    have := one_sub_pos h (arccos c)
    rw [cos_arccos hc.1 hc.2] at this
    positivity)
  have hoc : Continuous fun v => sin v * ((B0 + B1 * cos v + B2 * cos v ^ 2) / (1 - η * cos v) ^ 5) :=
    continuous_sin.mul (Continuous.div (by fun_prop) (by fun_prop) hp)
  have e : ∀ v, (A0 + A1 * cos v + A2 * cos v ^ 2 + A3 * cos v ^ 3 + sin v * (B0 + B1 * cos v + B2 * cos v ^ 2)) / (1 - η * cos v) ^ 5
      = A0 * (cos v ^ 0 / (1 - η * cos v) ^ 5) + A1 * (cos v ^ 1 / (1 - η * cos v) ^ 5) + A2 * (cos v ^ 2 / (1 - η * cos v) ^ 5)
        + A3 * (cos v ^ 3 / (1 - η * cos v) ^ 5) + sin v * ((B0 + B1 * cos v + B2 * cos v ^ 2) / (1 - η * cos v) ^ 5) := fun v => by
    rw [pow_zero, pow_one]; ring
  have i : ∀ (A : ℝ) (j : ℕ), IntervalIntegrable (fun v => A * (cos v ^ j / (1 - η * cos v) ^ 5)) MeasureTheory.volume 0 (2 * π) :=
    fun A j => ((hc j).const_mul A).intervalIntegrable _ _
  simp only [e]
  rw [intervalIntegral.integral_add ((((i _ _).add (i _ _)).add (i _ _)).add (i _ _)) (hoc.intervalIntegrable _ _),
    intervalIntegral.integral_add (((i _ _).add (i _ _)).add (i _ _)) (i _ _), intervalIntegral.integral_add ((i _ _).add (i _ _)) (i _ _),
    intervalIntegral.integral_add (i _ _) (i _ _), ho]
  simp only [intervalIntegral.integral_const_mul]
  have m0 := mean_five_zero h
  have m1 := mean_five_cos h
  simp only [pow_zero, pow_one]
  rw [m0, m1, mean_five_cos_sq h, mean_five_cos_cube h]
  ring

/-- Likewise over the fourth power. -/
theorem mean_four_poly (h : |η| < 1) (A0 A1 A2 A3 : ℝ) :
    ∫ v in (0)..(2 * π), (A0 + A1 * cos v + A2 * cos v ^ 2 + A3 * cos v ^ 3) / (1 - η * cos v) ^ 4
      = 2 * π * (A0 * (1 + 3 / 2 * η ^ 2) + A1 * (2 * η + 1 / 2 * η ^ 3) + A2 * (1 / 2 + 2 * η ^ 2) + A3 * (3 / 2 * η + η ^ 3)) / √(1 - η ^ 2) ^ 7 := by
  have hp : ∀ v, (1 - η * cos v) ^ 4 ≠ 0 := fun v => pow_ne_zero _ (one_sub_pos h v).ne'
  have hc : ∀ j : ℕ, Continuous fun v => cos v ^ j / (1 - η * cos v) ^ 4 := fun j => Continuous.div (by fun_prop) (by fun_prop) hp
  have e : ∀ v, (A0 + A1 * cos v + A2 * cos v ^ 2 + A3 * cos v ^ 3) / (1 - η * cos v) ^ 4
      = A0 * (cos v ^ 0 / (1 - η * cos v) ^ 4) + A1 * (cos v ^ 1 / (1 - η * cos v) ^ 4) + A2 * (cos v ^ 2 / (1 - η * cos v) ^ 4)
        + A3 * (cos v ^ 3 / (1 - η * cos v) ^ 4) := fun v => by
    rw [pow_zero, pow_one]; ring
  have i : ∀ (A : ℝ) (j : ℕ), IntervalIntegrable (fun v => A * (cos v ^ j / (1 - η * cos v) ^ 4)) MeasureTheory.volume 0 (2 * π) :=
    fun A j => ((hc j).const_mul A).intervalIntegrable _ _
  simp only [e]
  rw [intervalIntegral.integral_add (((i _ _).add (i _ _)).add (i _ _)) (i _ _), intervalIntegral.integral_add ((i _ _).add (i _ _)) (i _ _),
    intervalIntegral.integral_add (i _ _) (i _ _)]
  simp only [intervalIntegral.integral_const_mul]
  have m0 := mean_four h
  have m1 := mean_four_cos h
  simp only [pow_zero, pow_one]
  rw [m0, m1, mean_four_cos_sq h, mean_four_cos_cube h]
  ring

/-- The derivative under the integral of the fourth power of the height. -/
theorem lift_deriv {w D h : ℝ → ℝ} (hw : Continuous w) (hD : Continuous D) (hh : Continuous h) {m H W : ℝ} (hm : 0 < m) (hDm : ∀ v, m ≤ D v)
    (hH : ∀ v, |h v| ≤ H) (hW : ∀ v, |w v| ≤ W) :
    HasDerivAt (fun κ => ∫ v in (0)..(2 * π), w v / (D v + κ * h v) ^ 4) (∫ v in (0)..(2 * π), -4 * w v * h v / D v ^ 5) 0 := by
  have hH0 : 0 ≤ H := (abs_nonneg _).trans (hH 0)
  have hW0 : 0 ≤ W := (abs_nonneg _).trans (hW 0)
  have hlow : ∀ κ ∈ Metric.ball (0 : ℝ) (m / (2 * (H + 1))), ∀ v, m / 2 ≤ D v + κ * h v := by
    intro κ hκ v
    rw [mem_ball_zero_iff, Real.norm_eq_abs, lt_div_iff₀ (by positivity)] at hκ
    have h1 : |κ * h v| ≤ m / 2 := by
      rw [abs_mul]
      nlinarith [abs_nonneg κ, abs_nonneg (h v), hH v, mul_le_mul_of_nonneg_left (hH v) (abs_nonneg κ)]
    have := abs_le.1 h1
    linarith [hDm v]
  have := intervalIntegral.hasDerivAt_integral_of_dominated_loc_of_deriv_le (μ := MeasureTheory.volume) (𝕜 := ℝ) (a := 0) (b := 2 * π)
    (F := fun κ v => w v / (D v + κ * h v) ^ 4) (F' := fun κ v => -4 * w v * h v / (D v + κ * h v) ^ 5) (x₀ := (0 : ℝ))
    (s := Metric.ball (0 : ℝ) (m / (2 * (H + 1)))) (bound := fun _ => 4 * W * H / (m / 2) ^ 5)
    (Metric.ball_mem_nhds _ (by positivity)) ?_ ?_ ?_ ?_ ?_ ?_
  · refine this.2.congr_deriv ?_
    refine intervalIntegral.integral_congr fun v _ => ?_
    simp
  · filter_upwards [Metric.ball_mem_nhds (0 : ℝ) (by positivity : 0 < m / (2 * (H + 1)))] with κ hκ
    exact (Continuous.div hw (by fun_prop) fun v => pow_ne_zero _ (by linarith [hlow κ hκ v])).aestronglyMeasurable
  · refine (Continuous.div hw (by fun_prop) fun v => ?_).intervalIntegrable _ _
    exact pow_ne_zero _ (by linarith [hlow 0 (Metric.mem_ball_self (by positivity)) v])
  · refine (Continuous.div (by fun_prop) (by fun_prop) fun v => ?_).aestronglyMeasurable
    exact pow_ne_zero _ (by linarith [hlow 0 (Metric.mem_ball_self (by positivity)) v])
  · refine Filter.Eventually.of_forall fun v _ κ hκ => ?_
    have h0 := hlow κ hκ v
    have hm2 : 0 < m / 2 := by positivity
    rw [Real.norm_eq_abs, abs_div, abs_of_pos (pow_pos (by linarith) 5 : 0 < (D v + κ * h v) ^ 5), abs_mul, abs_mul, abs_neg, abs_of_pos (by norm_num : (0:ℝ) < 4)]
    have := hW v
    have := hH v
    gcongr
  · exact intervalIntegrable_const
  · refine Filter.Eventually.of_forall fun v _ κ hκ => ?_
    have h0 := hlow κ hκ v
    have hp : 0 < D v + κ * h v := by linarith
    have d1 : HasDerivAt (fun κ => D v + κ * h v) (h v) κ := (((hasDerivAt_id κ).mul_const (h v)).const_add (D v)).congr_deriv (by ring)
    have d2 := (hasDerivAt_const κ (w v)).div (d1.pow 4) (pow_ne_zero 4 hp.ne')
    refine d2.congr_deriv ?_
    simp only [Pi.pow_apply]
    push_cast
    field_simp
    ring

end SatSky.Conic
