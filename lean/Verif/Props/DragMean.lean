import Verif.Model.Propagate
import Verif.Spec.Drag
import Verif.Lemmas.Conic
import Verif.Props.Drag

/-! C135, C136: the drag coefficients are means over the orbit in an atmosphere whose density follows a power law. -/

namespace SatSky.Props

open Real SatSky.Spec SatSky.Sxp

/-- The orbit at the epoch, with the strength of the field that belongs to its mean motion. -/
noncomputable def epochOrbit (e : Elem) : Ellipse where
  μ := (sxpx_common_init e).xnodp ^ 2 * (sxpx_common_init e).aodp ^ 3
  a := (sxpx_common_init e).aodp
  e := e.eo

/-- The rates that the drag coefficients of the program stand for, with the field coefficient `k2` in the place of `ck2`. -/
noncomputable def axisLoss (k2 : ℝ) (e : Elem) : ℝ :=
  2 * (sxpx_common_init e).aodp * (e.bstar * c2Of k2 (sxpall_common_init e) e.eo (sxpx_common_init e).tsi (sxpx_common_init e).coef1)
noncomputable def eccLoss (k2 : ℝ) (e : Elem) : ℝ :=
  e.bstar * c4Of k2 (sxpall_common_init e) e.eo e.omegao (sxpx_common_init e).tsi (sxpx_common_init e).coef1

/-! ### The speed -/

theorem root_lower {x : ℝ} (h1 : -1 < x) (h2 : x < 1) : 1 + x ≤ √((1 + x) / (1 - x)) := by
  apply le_sqrt_of_sq_le
  rw [le_div_iff₀ (by linarith)]
  nlinarith [mul_nonneg (by linarith : (0:ℝ) ≤ 1 + x) (sq_nonneg x)]

theorem root_upper {x : ℝ} (h1 : -1 < x) (h2 : x < 1) : √((1 + x) / (1 - x)) ≤ 1 / (1 - x) := by
  have : 0 < 1 - x := by linarith
  rw [sqrt_le_left (by positivity), div_pow, div_le_div_iff₀ this (by positivity)]
  nlinarith [mul_nonneg this.le (sq_nonneg x)]

/-- `√((1 + x) / (1 - x))` is `1 + x` up to the square of `x`. -/
theorem root_linear {x e : ℝ} (h : |x| ≤ e) (he : e < 1) : 0 ≤ √((1 + x) / (1 - x)) - (1 + x) ∧ √((1 + x) / (1 - x)) - (1 + x) ≤ e ^ 2 / (1 - e) := by
  have hx := abs_le.mp h
  have h1 := root_lower (x := x) (by linarith) (by linarith)
  have h2 := root_upper (x := x) (by linarith) (by linarith)
  refine ⟨by linarith, ?_⟩
  have h3 : 1 / (1 - x) - (1 + x) = x ^ 2 / (1 - x) := by
    have : 1 - x ≠ 0 := by linarith
    field_simp
    ring
  have h4 : x ^ 2 / (1 - x) ≤ e ^ 2 / (1 - e) :=
    div_le_div₀ (sq_nonneg e) (sq_le_sq' hx.1 hx.2) (by linarith) (by linarith)
  linarith

/-- `(1 + x) √((1 + x) / (1 - x))` is `1 + 2 x` up to the square of `x`. -/
theorem root_linear_two {x e : ℝ} (h : |x| ≤ e) (he : e < 1) :
    0 ≤ (1 + x) * √((1 + x) / (1 - x)) - (1 + 2 * x) ∧ (1 + x) * √((1 + x) / (1 - x)) - (1 + 2 * x) ≤ 2 * e ^ 2 / (1 - e) := by
  have hx := abs_le.mp h
  have h1 := root_lower (x := x) (by linarith) (by linarith)
  have h2 := root_upper (x := x) (by linarith) (by linarith)
  have h0 : 0 < 1 + x := by linarith
  refine ⟨by nlinarith [mul_le_mul_of_nonneg_left h1 h0.le, sq_nonneg x], ?_⟩
  have h3 : (1 + x) * (1 / (1 - x)) - (1 + 2 * x) = 2 * x ^ 2 / (1 - x) := by
    have : 1 - x ≠ 0 := by linarith
    field_simp
    ring
  have h4 : 2 * x ^ 2 / (1 - x) ≤ 2 * e ^ 2 / (1 - e) :=
    div_le_div₀ (by positivity) (by linarith [sq_le_sq' hx.1 hx.2]) (by linarith) (by linarith)
  have := mul_le_mul_of_nonneg_left h2 h0.le
  linarith

variable {n a ε : ℝ}

theorem orbit_radius (μ : ℝ) (E : ℝ) : (Ellipse.mk μ a ε).radius E = a * (1 - ε * cos E) := rfl

theorem orbit_speed (hn : 0 < n) (ha : 0 < a) (h0 : 0 ≤ ε) (h1 : ε < 1) (E : ℝ) :
    (Ellipse.mk (n ^ 2 * a ^ 3) a ε).speed E = n * a * √((1 + ε * cos E) / (1 - ε * cos E)) := by
  have hp := Conic.one_sub_pos (b := ε) (by rw [abs_of_nonneg h0]; exact h1) E
  unfold Ellipse.speed
  rw [orbit_radius, show n ^ 2 * a ^ 3 * (2 / (a * (1 - ε * cos E)) - 1 / a) = (n * a) ^ 2 * ((1 + ε * cos E) / (1 - ε * cos E)) by field_simp; ring,
    sqrt_mul (sq_nonneg _), sqrt_sq (by positivity)]

/-- The integrand of the mean rate of the axis. -/
theorem axis_integrand (hn : 0 < n) (ha : 0 < a) (h0 : 0 ≤ ε) (h1 : ε < 1) (b q : ℝ) {s : ℝ} (hs : s < a) (E : ℝ) :
    (Ellipse.mk (n ^ 2 * a ^ 3) a ε).axisRate ((Ellipse.mk (n ^ 2 * a ^ 3) a ε).powerLaw b q s) E * (1 - ε * cos E) =
      -(2 * n * a ^ 2 * b * q / (a - s) ^ 4) * ((1 + ε * cos E) * √((1 + ε * cos E) / (1 - ε * cos E)) / (1 - a * ε / (a - s) * cos E) ^ 4) := by
  have hp := Conic.one_sub_pos (b := ε) (by rw [abs_of_nonneg h0]; exact h1) E
  have hp2 := Conic.one_sub_pos (b := -ε) (by rw [abs_neg, abs_of_nonneg h0]; exact h1) E
  have hx : 0 ≤ (1 + ε * cos E) / (1 - ε * cos E) := div_nonneg (by linarith) hp.le
  have hw := sq_sqrt hx
  unfold Ellipse.axisRate Ellipse.powerLaw
  rw [orbit_speed hn ha h0 h1, orbit_radius, show a * (1 - ε * cos E) - s = (a - s) * (1 - a * ε / (a - s) * cos E) by
    have : a - s ≠ 0 := by linarith
    field_simp
    ring]
  rw [show (n * a * √((1 + ε * cos E) / (1 - ε * cos E))) ^ 3 = n ^ 3 * a ^ 3 * (√((1 + ε * cos E) / (1 - ε * cos E)) ^ 2
    * √((1 + ε * cos E) / (1 - ε * cos E))) by ring, hw]
  generalize √((1 + ε * cos E) / (1 - ε * cos E)) = w
  rw [mul_pow]
  generalize (1 - a * ε / (a - s) * cos E) ^ 4 = f
  have h3 : (a - s) ^ 4 ≠ 0 := pow_ne_zero 4 (by linarith)
  generalize (a - s) ^ 4 = g at *
  by_cases hf : f = 0
  · rw [hf]; simp
  field_simp

/-- The integrand of the mean rate of the eccentricity. -/
theorem ecc_integrand (hn : 0 < n) (ha : 0 < a) (h0 : 0 ≤ ε) (h1 : ε < 1) (b q : ℝ) {s : ℝ} (hs : s < a) (E : ℝ) :
    (Ellipse.mk (n ^ 2 * a ^ 3) a ε).eccRate ((Ellipse.mk (n ^ 2 * a ^ 3) a ε).powerLaw b q s) E * (1 - ε * cos E) =
      -(2 * (1 - ε ^ 2) * n * a * b * q / (a - s) ^ 4) * (cos E * √((1 + ε * cos E) / (1 - ε * cos E)) / (1 - a * ε / (a - s) * cos E) ^ 4) := by
  have hp := Conic.one_sub_pos (b := ε) (by rw [abs_of_nonneg h0]; exact h1) E
  unfold Ellipse.eccRate Ellipse.powerLaw Ellipse.cosTrue
  rw [orbit_speed hn ha h0 h1, orbit_radius, show a * (1 - ε * cos E) - s = (a - s) * (1 - a * ε / (a - s) * cos E) by
    have : a - s ≠ 0 := by linarith
    field_simp
    ring]
  generalize √((1 + ε * cos E) / (1 - ε * cos E)) = w
  rw [mul_pow]
  dsimp only
  rw [show ε + (cos E - ε) / (1 - ε * cos E) = (1 - ε ^ 2) * cos E / (1 - ε * cos E) by
    rw [add_comm, div_add' _ _ _ hp.ne']; congr 1; ring]
  generalize (1 - a * ε / (a - s) * cos E) ^ 4 = f
  have h3 : (a - s) ^ 4 ≠ 0 := pow_ne_zero 4 (by linarith)
  generalize (a - s) ^ 4 = g at *
  by_cases hf : f = 0
  · rw [hf]; simp
  field_simp

theorem pow_seven_half {x : ℝ} (hx : 0 ≤ x) : x ^ (7 / 2 : ℝ) = √x ^ 7 := by
  rw [sqrt_eq_rpow, ← rpow_natCast, ← rpow_mul hx]; norm_num

/-- What lies between two multiples of a weight has its mean between them. -/
theorem mean_between {f g w : ℝ → ℝ} {k l I : ℝ} (hf : Continuous f) (hg : Continuous g) (hw : Continuous w)
    (h : ∀ E, l * w E ≤ f E - g E ∧ f E - g E ≤ k * w E) (hI : (∫ E in (0)..(2 * π), w E) = I) :
    l * I ≤ (∫ E in (0)..(2 * π), f E) - (∫ E in (0)..(2 * π), g E) ∧ (∫ E in (0)..(2 * π), f E) - (∫ E in (0)..(2 * π), g E) ≤ k * I := by
  rw [← intervalIntegral.integral_sub (hf.intervalIntegrable _ _) (hg.intervalIntegrable _ _), ← hI, ← intervalIntegral.integral_const_mul,
    ← intervalIntegral.integral_const_mul]
  have h2 : (0 : ℝ) ≤ 2 * π := by positivity
  exact ⟨intervalIntegral.integral_mono h2 ((continuous_const.mul hw).intervalIntegrable _ _) ((hf.sub hg).intervalIntegrable _ _) fun E => (h E).1,
    intervalIntegral.integral_mono h2 ((hf.sub hg).intervalIntegrable _ _) ((continuous_const.mul hw).intervalIntegrable _ _) fun E => (h E).2⟩

theorem root_continuous (h0 : 0 ≤ ε) (h1 : ε < 1) : Continuous fun E => √((1 + ε * cos E) / (1 - ε * cos E)) := by
  have hp := Conic.one_sub_pos (b := ε) (by rw [abs_of_nonneg h0]; exact h1)
  exact (Continuous.div (by fun_prop) (by fun_prop) fun E => (hp E).ne').sqrt

theorem ecc_cos_le (h0 : 0 ≤ ε) (E : ℝ) : |ε * cos E| ≤ ε := by
  rw [abs_mul, abs_of_nonneg h0]
  exact mul_le_of_le_one_right h0 (abs_cos_le_one E)

/-- The mean of the factor of the axis. -/
theorem axis_factor {η : ℝ} (hη : |η| < 1) (hη0 : 0 ≤ η) (h0 : 0 ≤ ε) (h1 : ε < 1) :
    ∃ ρ, (0 ≤ ρ ∧ ρ ≤ 2 * ε ^ 2 / (1 - ε)) ∧
      (∫ E in (0)..(2 * π), (1 + ε * cos E) * √((1 + ε * cos E) / (1 - ε * cos E)) / (1 - η * cos E) ^ 4)
        = 2 * π * ((1 + 3 / 2 * η ^ 2 + ε * η * (4 + η ^ 2)) / √(1 - η ^ 2) ^ 7) * (1 + ρ) := by
  have hp := Conic.one_sub_pos hη
  have hu : 0 < 1 - η ^ 2 := by nlinarith [abs_lt.mp hη]
  have hq : 0 < √(1 - η ^ 2) := sqrt_pos.mpr hu
  have hw := root_continuous h0 h1
  have c4 : Continuous fun E => 1 / (1 - η * cos E) ^ 4 := Continuous.div (by fun_prop) (by fun_prop) fun E => pow_ne_zero 4 (hp E).ne'
  have c4c : Continuous fun E => cos E / (1 - η * cos E) ^ 4 := Continuous.div (by fun_prop) (by fun_prop) fun E => pow_ne_zero 4 (hp E).ne'
  have c4d : Continuous fun E => 2 * ε * (cos E / (1 - η * cos E) ^ 4) := continuous_const.mul c4c
  have cg : Continuous fun E => 1 / (1 - η * cos E) ^ 4 + 2 * ε * (cos E / (1 - η * cos E) ^ 4) := c4.add c4d
  have cf : Continuous fun E => (1 + ε * cos E) * √((1 + ε * cos E) / (1 - ε * cos E)) / (1 - η * cos E) ^ 4 :=
    Continuous.div ((by fun_prop : Continuous fun E => 1 + ε * cos E).mul hw) (by fun_prop) fun E => pow_ne_zero 4 (hp E).ne'
  have hg : (∫ E in (0)..(2 * π), (1 / (1 - η * cos E) ^ 4 + 2 * ε * (cos E / (1 - η * cos E) ^ 4)))
      = 2 * π * ((1 + 3 / 2 * η ^ 2 + ε * η * (4 + η ^ 2)) / √(1 - η ^ 2) ^ 7) := by
    rw [intervalIntegral.integral_add (c4.intervalIntegrable _ _) (c4d.intervalIntegrable _ _),
      intervalIntegral.integral_const_mul, Conic.mean_four hη, Conic.mean_four_cos hη]
    ring
  have hb := mean_between (k := 2 * ε ^ 2 / (1 - ε)) (l := 0) cf cg c4 (fun E => by
    have h4 : 0 < 1 / (1 - η * cos E) ^ 4 := by have := hp E; positivity
    have hr := root_linear_two (ecc_cos_le h0 E) h1
    have he : (1 + ε * cos E) * √((1 + ε * cos E) / (1 - ε * cos E)) / (1 - η * cos E) ^ 4
        - (1 / (1 - η * cos E) ^ 4 + 2 * ε * (cos E / (1 - η * cos E) ^ 4))
        = ((1 + ε * cos E) * √((1 + ε * cos E) / (1 - ε * cos E)) - (1 + 2 * (ε * cos E))) * (1 / (1 - η * cos E) ^ 4) := by ring
    rw [he]
    exact ⟨by rw [zero_mul]; exact mul_nonneg hr.1 h4.le, mul_le_mul_of_nonneg_right hr.2 h4.le⟩) (Conic.mean_four hη)
  rw [hg] at hb
  generalize (∫ E in (0)..(2 * π), (1 + ε * cos E) * √((1 + ε * cos E) / (1 - ε * cos E)) / (1 - η * cos E) ^ 4) = I at *
  have hq7 : 0 < √(1 - η ^ 2) ^ 7 := by positivity
  generalize √(1 - η ^ 2) ^ 7 = Q at *
  have hpi := pi_pos
  have hA : 0 < 1 + 3 / 2 * η ^ 2 + ε * η * (4 + η ^ 2) := by positivity
  have hB : 0 < 2 * π * ((1 + 3 / 2 * η ^ 2 + ε * η * (4 + η ^ 2)) / Q) := by positivity
  refine ⟨I / (2 * π * ((1 + 3 / 2 * η ^ 2 + ε * η * (4 + η ^ 2)) / Q)) - 1, ⟨?_, ?_⟩, ?_⟩
  · rw [sub_nonneg, le_div_iff₀ hB]; linarith
  · have hle : 2 * π * (1 + 3 / 2 * η ^ 2) / Q ≤ 2 * π * ((1 + 3 / 2 * η ^ 2 + ε * η * (4 + η ^ 2)) / Q) := by
      rw [mul_div_assoc]
      have : (1 + 3 / 2 * η ^ 2) / Q ≤ (1 + 3 / 2 * η ^ 2 + ε * η * (4 + η ^ 2)) / Q :=
        div_le_div_of_nonneg_right (by nlinarith [mul_nonneg (mul_nonneg h0 hη0) (by positivity : (0:ℝ) ≤ 4 + η ^ 2)]) hq7.le
      exact mul_le_mul_of_nonneg_left this (by positivity)
    rw [sub_le_iff_le_add, div_le_iff₀ hB]
    have hk : 0 ≤ 2 * ε ^ 2 / (1 - ε) := div_nonneg (by positivity) (by linarith)
    nlinarith [mul_le_mul_of_nonneg_left hle hk, hb.2]
  · field_simp; ring

/-- The mean of the factor of the eccentricity. -/
theorem ecc_factor {η : ℝ} (hη : |η| < 1) (h0 : 0 ≤ ε) (hεη : ε ≤ η) (h1 : ε < 1) :
    ∃ ρ, |ρ| ≤ 3 / 5 * ε / (1 - ε) ∧
      (∫ E in (0)..(2 * π), cos E * √((1 + ε * cos E) / (1 - ε * cos E)) / (1 - η * cos E) ^ 4)
        = 2 * π * ((η * (2 + 1 / 2 * η ^ 2) + ε * (1 / 2 + 2 * η ^ 2)) / √(1 - η ^ 2) ^ 7) * (1 + ρ) := by
  have hp := Conic.one_sub_pos hη
  have hu : 0 < 1 - η ^ 2 := by nlinarith [abs_lt.mp hη]
  have hq : 0 < √(1 - η ^ 2) := sqrt_pos.mpr hu
  have hw := root_continuous h0 h1
  have c4 : Continuous fun E => 1 / (1 - η * cos E) ^ 4 := Continuous.div (by fun_prop) (by fun_prop) fun E => pow_ne_zero 4 (hp E).ne'
  have c4c : Continuous fun E => cos E / (1 - η * cos E) ^ 4 := Continuous.div (by fun_prop) (by fun_prop) fun E => pow_ne_zero 4 (hp E).ne'
  have c4s : Continuous fun E => cos E ^ 2 / (1 - η * cos E) ^ 4 := Continuous.div (by fun_prop) (by fun_prop) fun E => pow_ne_zero 4 (hp E).ne'
  have c4d : Continuous fun E => ε * (cos E ^ 2 / (1 - η * cos E) ^ 4) := continuous_const.mul c4s
  have cg : Continuous fun E => cos E / (1 - η * cos E) ^ 4 + ε * (cos E ^ 2 / (1 - η * cos E) ^ 4) := c4c.add c4d
  have cf : Continuous fun E => cos E * √((1 + ε * cos E) / (1 - ε * cos E)) / (1 - η * cos E) ^ 4 :=
    Continuous.div (continuous_cos.mul hw) (by fun_prop) fun E => pow_ne_zero 4 (hp E).ne'
  have hg : (∫ E in (0)..(2 * π), (cos E / (1 - η * cos E) ^ 4 + ε * (cos E ^ 2 / (1 - η * cos E) ^ 4)))
      = 2 * π * ((η * (2 + 1 / 2 * η ^ 2) + ε * (1 / 2 + 2 * η ^ 2)) / √(1 - η ^ 2) ^ 7) := by
    rw [intervalIntegral.integral_add (c4c.intervalIntegrable _ _) (c4d.intervalIntegrable _ _),
      intervalIntegral.integral_const_mul, Conic.mean_four_cos hη, Conic.mean_four_cos_sq hη]
    ring
  have hk : 0 ≤ ε ^ 2 / (1 - ε) := div_nonneg (by positivity) (by linarith)
  have hb := mean_between (k := ε ^ 2 / (1 - ε)) (l := -(ε ^ 2 / (1 - ε))) cf cg c4 (fun E => by
    have h4 : 0 < 1 / (1 - η * cos E) ^ 4 := by have := hp E; positivity
    have hr := root_linear (ecc_cos_le h0 E) h1
    have he : cos E * √((1 + ε * cos E) / (1 - ε * cos E)) / (1 - η * cos E) ^ 4
        - (cos E / (1 - η * cos E) ^ 4 + ε * (cos E ^ 2 / (1 - η * cos E) ^ 4))
        = cos E * (√((1 + ε * cos E) / (1 - ε * cos E)) - (1 + ε * cos E)) * (1 / (1 - η * cos E) ^ 4) := by ring
    rw [he]
    have hc := abs_le.mp (abs_cos_le_one E)
    exact ⟨mul_le_mul_of_nonneg_right (by nlinarith) h4.le, mul_le_mul_of_nonneg_right (by nlinarith) h4.le⟩) (Conic.mean_four hη)
  rw [hg] at hb
  generalize (∫ E in (0)..(2 * π), cos E * √((1 + ε * cos E) / (1 - ε * cos E)) / (1 - η * cos E) ^ 4) = I at *
  have hq7 : 0 < √(1 - η ^ 2) ^ 7 := by positivity
  generalize √(1 - η ^ 2) ^ 7 = Q at *
  have hpi := pi_pos
  have hη0 : 0 ≤ η := h0.trans hεη
  rcases hη0.eq_or_lt with hz | hη1
  · have hε : ε = 0 := by linarith
    subst hε
    rw [← hz] at hb ⊢
    refine ⟨0, by simp, ?_⟩
    simp at hb ⊢
    linarith
  have hA : 0 < η * (2 + 1 / 2 * η ^ 2) + ε * (1 / 2 + 2 * η ^ 2) := by positivity
  have hB : 0 < 2 * π * ((η * (2 + 1 / 2 * η ^ 2) + ε * (1 / 2 + 2 * η ^ 2)) / Q) := by positivity
  have hle : ε ^ 2 / (1 - ε) * (2 * π * (1 + 3 / 2 * η ^ 2) / Q)
      ≤ 3 / 5 * ε / (1 - ε) * (2 * π * ((η * (2 + 1 / 2 * η ^ 2) + ε * (1 / 2 + 2 * η ^ 2)) / Q)) := by
    have h3 : ε * (1 + 3 / 2 * η ^ 2) ≤ 3 / 5 * (η * (2 + 1 / 2 * η ^ 2) + ε * (1 / 2 + 2 * η ^ 2)) := by
      nlinarith [mul_le_mul_of_nonneg_right hεη (sq_nonneg η), sq_nonneg η]
    have h4 : 0 ≤ ε / (1 - ε) * (2 * π / Q) := mul_nonneg (div_nonneg h0 (by linarith)) (by positivity)
    have := mul_le_mul_of_nonneg_left h3 h4
    have e1 : ε / (1 - ε) * (2 * π / Q) * (ε * (1 + 3 / 2 * η ^ 2)) = ε ^ 2 / (1 - ε) * (2 * π * (1 + 3 / 2 * η ^ 2) / Q) := by ring
    have e2 : ε / (1 - ε) * (2 * π / Q) * (3 / 5 * (η * (2 + 1 / 2 * η ^ 2) + ε * (1 / 2 + 2 * η ^ 2)))
      = 3 / 5 * ε / (1 - ε) * (2 * π * ((η * (2 + 1 / 2 * η ^ 2) + ε * (1 / 2 + 2 * η ^ 2)) / Q)) := by ring
    rw [e1, e2] at this
    exact this
  refine ⟨I / (2 * π * ((η * (2 + 1 / 2 * η ^ 2) + ε * (1 / 2 + 2 * η ^ 2)) / Q)) - 1, abs_le.mpr ⟨?_, ?_⟩, ?_⟩
  · rw [le_sub_iff_add_le, le_div_iff₀ hB]
    nlinarith [hb.1]
  · rw [sub_le_iff_le_add, div_le_iff₀ hB]
    nlinarith [hb.2]
  · field_simp; ring

/-! ### The program -/

theorem level_pos (h : ℝ) : 0 < s4Of h := by
  unfold s4Of sConst earthRadius
  split_ifs with h1 h2
  · norm_num
  · push Not at h2
    have : 0 < (h - 78) / (6378135 / 1000) := div_pos (by linarith) (by norm_num)
    linarith
  · norm_num

/-- The level of the atmosphere is below the perigee when this is above 20 km. -/
theorem level_below (e : Elem) (hp : 20 < perige (sxpall_common_init e) e.eo) :
    (sxpx_common_init e).s4 < (sxpx_common_init e).aodp * (1 - e.eo) := by
  show s4Of (perige (sxpall_common_init e) e.eo) < (sxpall_common_init e).aodp * (1 - e.eo)
  have hd : (sxpall_common_init e).aodp * (1 - e.eo) = perige (sxpall_common_init e) e.eo / earthRadius + 1 := by
    unfold perige earthRadius; field_simp; ring
  rw [hd]
  generalize perige (sxpall_common_init e) e.eo = h at *
  have hE : (0 : ℝ) < earthRadius := by unfold earthRadius; norm_num
  unfold s4Of sConst
  split_ifs with h1 h2
  · linarith [div_lt_div_of_pos_right hp hE]
  · linarith [div_lt_div_of_pos_right (show h - 78 < h by linarith) hE]
  · push Not at h1
    linarith [div_lt_div_of_pos_right (show 78 < h by linarith) hE]

theorem eta_bounds (e : Elem) (h0 : 0 ≤ e.eo) (h1 : e.eo < 1) (ha : 0 < (sxpx_common_init e).aodp) (hp : 20 < perige (sxpall_common_init e) e.eo) :
    0 < (sxpx_common_init e).aodp - (sxpx_common_init e).s4 ∧
    |(sxpx_common_init e).aodp * e.eo / ((sxpx_common_init e).aodp - (sxpx_common_init e).s4)| < 1 ∧
    e.eo ≤ (sxpx_common_init e).aodp * e.eo / ((sxpx_common_init e).aodp - (sxpx_common_init e).s4) := by
  have hl := level_below e hp
  have hs : 0 < (sxpx_common_init e).s4 := level_pos _
  generalize (sxpx_common_init e).aodp = a at *
  generalize (sxpx_common_init e).s4 = s at *
  have h2 : 0 < a - s := by nlinarith
  refine ⟨h2, ?_, ?_⟩
  · rw [abs_of_nonneg (by positivity), div_lt_one h2]; nlinarith
  · rw [le_div_iff₀ h2]; nlinarith

/-- C135: the coefficient of the loss of the axis, without the part that belongs to the flattening, is the mean over the orbit of Gauss's equation in an
atmosphere whose density falls with the fourth power of the distance from the level `s`, up to the square of the eccentricity. -/
theorem C135_axis (e : Elem) (h0 : 0 ≤ e.eo) (h1 : e.eo < 1) (hn : 0 < (sxpx_common_init e).xnodp) (ha : 0 < (sxpx_common_init e).aodp)
    (hp : 20 < perige (sxpall_common_init e) e.eo) : ∃ ρ, (0 ≤ ρ ∧ ρ ≤ 2 * e.eo ^ 2 / (1 - e.eo)) ∧
      (epochOrbit e).timeMean ((epochOrbit e).axisRate ((epochOrbit e).powerLaw e.bstar (sxpx_common_init e).qoms24 (sxpx_common_init e).s4))
        = -axisLoss 0 e * (1 + ρ) := by
  obtain ⟨hs, hη, hle⟩ := eta_bounds e h0 h1 ha hp
  obtain ⟨ρ, hρ, hI⟩ := axis_factor hη (h0.trans hle) h0 h1
  refine ⟨ρ, hρ, ?_⟩
  unfold Ellipse.timeMean
  rw [show (epochOrbit e).e = e.eo from rfl]
  unfold epochOrbit
  rw [intervalIntegral.integral_congr (fun E _ => axis_integrand hn ha h0 h1 e.bstar (sxpx_common_init e).qoms24 (by linarith) E),
    intervalIntegral.integral_const_mul, hI]
  have htsi : (sxpx_common_init e).tsi = 1 / ((sxpx_common_init e).aodp - (sxpx_common_init e).s4) := rfl
  have hc1 : (sxpx_common_init e).coef1 = (sxpx_common_init e).qoms24 * ((sxpx_common_init e).tsi * (sxpx_common_init e).tsi)
    * ((sxpx_common_init e).tsi * (sxpx_common_init e).tsi) / |1 - (sxpx_common_init e).aodp * e.eo * (sxpx_common_init e).tsi
      * ((sxpx_common_init e).aodp * e.eo * (sxpx_common_init e).tsi)| ^ (7 / 2 : ℝ) := rfl
  unfold axisLoss c2Of
  dsimp only
  rw [show (sxpall_common_init e).aodp = (sxpx_common_init e).aodp from rfl, show (sxpall_common_init e).xnodp = (sxpx_common_init e).xnodp from rfl]
  rw [hc1, htsi, show (sxpx_common_init e).aodp * e.eo * (1 / ((sxpx_common_init e).aodp - (sxpx_common_init e).s4))
    = (sxpx_common_init e).aodp * e.eo / ((sxpx_common_init e).aodp - (sxpx_common_init e).s4) by ring]
  have hu : 0 < 1 - ((sxpx_common_init e).aodp * e.eo / ((sxpx_common_init e).aodp - (sxpx_common_init e).s4)) ^ 2 := by nlinarith [abs_lt.mp hη]
  generalize (sxpx_common_init e).aodp * e.eo / ((sxpx_common_init e).aodp - (sxpx_common_init e).s4) = η at *
  rw [show η * η = η ^ 2 by ring, abs_of_pos hu, pow_seven_half hu.le]
  have hq7 : √(1 - η ^ 2) ^ 7 ≠ 0 := by have := sqrt_pos.mpr hu; positivity
  generalize √(1 - η ^ 2) ^ 7 = Q at *
  have hpi := pi_ne_zero
  have hs2 := hs.ne'
  generalize (sxpx_common_init e).aodp - (sxpx_common_init e).s4 = d at *
  field_simp
  ring

/-- C135: likewise the coefficient of the loss of the eccentricity. -/
theorem C135_eccentricity (e : Elem) (h0 : 0 ≤ e.eo) (h1 : e.eo < 1) (hn : 0 < (sxpx_common_init e).xnodp) (ha : 0 < (sxpx_common_init e).aodp)
    (hp : 20 < perige (sxpall_common_init e) e.eo) : ∃ ρ, |ρ| ≤ 3 / 5 * e.eo / (1 - e.eo) ∧
      (epochOrbit e).timeMean ((epochOrbit e).eccRate ((epochOrbit e).powerLaw e.bstar (sxpx_common_init e).qoms24 (sxpx_common_init e).s4))
        = -eccLoss 0 e * (1 + ρ) := by
  obtain ⟨hs, hη, hle⟩ := eta_bounds e h0 h1 ha hp
  obtain ⟨ρ, hρ, hI⟩ := ecc_factor hη h0 hle h1
  refine ⟨ρ, hρ, ?_⟩
  unfold Ellipse.timeMean
  rw [show (epochOrbit e).e = e.eo from rfl]
  unfold epochOrbit
  rw [intervalIntegral.integral_congr (fun E _ => ecc_integrand hn ha h0 h1 e.bstar (sxpx_common_init e).qoms24 (by linarith) E),
    intervalIntegral.integral_const_mul, hI]
  have htsi : (sxpx_common_init e).tsi = 1 / ((sxpx_common_init e).aodp - (sxpx_common_init e).s4) := rfl
  have hc1 : (sxpx_common_init e).coef1 = (sxpx_common_init e).qoms24 * ((sxpx_common_init e).tsi * (sxpx_common_init e).tsi)
    * ((sxpx_common_init e).tsi * (sxpx_common_init e).tsi) / |1 - (sxpx_common_init e).aodp * e.eo * (sxpx_common_init e).tsi
      * ((sxpx_common_init e).aodp * e.eo * (sxpx_common_init e).tsi)| ^ (7 / 2 : ℝ) := rfl
  have hb2 : (sxpall_common_init e).betao2 = 1 - e.eo ^ 2 := by show 1 - e.eo * e.eo = _; ring
  unfold eccLoss c4Of
  dsimp only
  rw [show (sxpall_common_init e).aodp = (sxpx_common_init e).aodp from rfl, show (sxpall_common_init e).xnodp = (sxpx_common_init e).xnodp from rfl, hb2]
  rw [hc1, htsi, show (sxpx_common_init e).aodp * e.eo * (1 / ((sxpx_common_init e).aodp - (sxpx_common_init e).s4))
    = (sxpx_common_init e).aodp * e.eo / ((sxpx_common_init e).aodp - (sxpx_common_init e).s4) by ring]
  have hu : 0 < 1 - ((sxpx_common_init e).aodp * e.eo / ((sxpx_common_init e).aodp - (sxpx_common_init e).s4)) ^ 2 := by nlinarith [abs_lt.mp hη]
  generalize (sxpx_common_init e).aodp * e.eo / ((sxpx_common_init e).aodp - (sxpx_common_init e).s4) = η at *
  rw [show η * η = η ^ 2 by ring, abs_of_pos hu, pow_seven_half hu.le]
  have hq7 : √(1 - η ^ 2) ^ 7 ≠ 0 := by have := sqrt_pos.mpr hu; positivity
  generalize √(1 - η ^ 2) ^ 7 = Q at *
  have hpi := pi_ne_zero
  have hs2 := hs.ne'
  generalize (sxpx_common_init e).aodp - (sxpx_common_init e).s4 = d at *
  simp only [mul_zero, zero_mul, zero_div, sub_zero]
  field_simp

/-- C135: these are the rates in the program: the axis changes at the epoch at the first rate, and the eccentricity, which is never taken below `10 ^ -6`, falls
at the second one but for a bounded term, absent for perigees below 220 km. -/
theorem C135_program (e : Elem) : HasDerivAt (axisAt e) (-axisLoss ck2 e) 0 ∧
    ∃ P : ℝ → ℝ, (∃ B, ∀ t, |P t| ≤ B) ∧ ((SGP4_init e).simple → ∀ t, P t = 0) ∧ P 0 = 0 ∧
      ∀ t, (sgp4Mean (SGP4_init e) e t).ecc = max (1 / 10 ^ 6) (e.eo - eccLoss ck2 e * t - P t) := by
  classical
  constructor
  · by_cases hs : (SGP4_init e).simple
    · have hd : ∀ t, HasDerivAt (decay e) (Jet.quartic (-(sxpx_common_init e).c1) (2 * 0) (3 * 0) (4 * 0) 0 t) t := fun t => by
        unfold decay; rw [if_pos hs]; exact quartic_deriv _ _ _ _ _ t
      have := (axis_deriv e hd).self_of_nhds
      refine this.congr_deriv ?_
      rw [decay_zero]
      show _ = -(2 * (sxpx_common_init e).aodp * (sxpx_common_init e).c1)
      simp [Jet.quartic]
    · have hd : ∀ t, HasDerivAt (decay e) (Jet.quartic (-(sxpx_common_init e).c1) (2 * -(SGP4_init e).d2) (3 * -(SGP4_init e).d3)
          (4 * -(SGP4_init e).d4) 0 t) t := fun t => by
        unfold decay; rw [if_neg hs]; exact quartic_deriv _ _ _ _ _ t
      have := (axis_deriv e hd).self_of_nhds
      refine this.congr_deriv ?_
      rw [decay_zero]
      show _ = -(2 * (sxpx_common_init e).aodp * (sxpx_common_init e).c1)
      simp [Jet.quartic]
  · have hmax : ∀ x : ℝ, (if x < 1 / 10 ^ 6 then 1 / 10 ^ 6 else x) = max (1 / 10 ^ 6) x := fun x => by
      split_ifs with h
      · rw [max_eq_left h.le]
      · rw [max_eq_right (not_lt.mp h)]
    by_cases hs : (SGP4_init e).simple
    · refine ⟨fun _ => 0, ⟨0, by simp⟩, fun _ _ => rfl, rfl, fun t => ?_⟩
      rw [← hmax]
      unfold sgp4Mean
      simp only [if_pos hs, sub_zero]
      rfl
    · refine ⟨fun t => e.bstar * (SGP4_init e).c5 * (sin (e.xmo + (SGP4_init e).i.xmdot * t + ((SGP4_init e).omgcof * t + (SGP4_init e).xmcof
        * ((1 + (SGP4_init e).i.aodp * e.eo * (SGP4_init e).i.tsi * cos (e.xmo + (SGP4_init e).i.xmdot * t)) * (1 + (SGP4_init e).i.aodp * e.eo *
          (SGP4_init e).i.tsi * cos (e.xmo + (SGP4_init e).i.xmdot * t)) * (1 + (SGP4_init e).i.aodp * e.eo * (SGP4_init e).i.tsi
            * cos (e.xmo + (SGP4_init e).i.xmdot * t)) - (SGP4_init e).delmo))) - (SGP4_init e).sinmo), ⟨|e.bstar * (SGP4_init e).c5| * 2, fun t => ?_⟩,
          fun h => absurd h hs, ?_, fun t => ?_⟩
      · rw [abs_mul]
        refine mul_le_mul_of_nonneg_left ?_ (abs_nonneg _)
        have hm : (SGP4_init e).sinmo = sin e.xmo := rfl
        rw [hm]
        generalize e.xmo + (SGP4_init e).i.xmdot * t + _ = x
        have h1 := abs_le.mp (abs_sin_le_one x)
        have h2 := abs_le.mp (abs_sin_le_one e.xmo)
        rw [abs_le]; constructor <;> linarith
      · have hm : (SGP4_init e).sinmo = sin e.xmo := rfl
        have hd : (SGP4_init e).delmo = (1 + (SGP4_init e).i.aodp * e.eo * (SGP4_init e).i.tsi * cos e.xmo) * ((1 + (SGP4_init e).i.aodp * e.eo
          * (SGP4_init e).i.tsi * cos e.xmo) * (1 + (SGP4_init e).i.aodp * e.eo * (SGP4_init e).i.tsi * cos e.xmo)) := rfl
        rw [hm, hd]
        simp only [mul_zero, add_zero, zero_add]
        rw [show ∀ x y : ℝ, x * x * x - x * (x * x) = 0 from fun x _ => by ring]
        · simp
        · exact 0
      · rw [← hmax]
        unfold sgp4Mean
        simp only [if_neg hs]
        rw [show e.eo - eccLoss ck2 e * t - _ = e.eo - (eccLoss ck2 e * t + _) from sub_sub _ _ _]
        rfl

/-! ### The flattening -/

/-- The coefficient is linear in the field coefficient. -/
theorem c2_linear (k2 : ℝ) (r : Recov) (eo tsi coef1 : ℝ) : c2Of k2 r eo tsi coef1 = c2Of 0 r eo tsi coef1 + k2 * (c2Of 1 r eo tsi coef1 - c2Of 0 r eo tsi coef1) := by
  unfold c2Of; dsimp only; ring

/-- The mean of the density over the eccentric anomaly. -/
theorem density_mean {d w : ℝ} (hd : |d| < w) :
    ∫ E in (0)..(2 * π), 1 / (w - d * cos E) ^ 4 = 2 * π * (w * (w ^ 2 + 3 / 2 * d ^ 2)) / √(w ^ 2 - d ^ 2) ^ 7 := by
  have hw : 0 < w := lt_of_le_of_lt (abs_nonneg d) hd
  have hη : |d / w| < 1 := by rw [abs_div, abs_of_pos hw, div_lt_one hw]; exact hd
  have h1 := Conic.mean_four hη
  have h2 : ∀ E, 1 / (w - d * cos E) ^ 4 = 1 / w ^ 4 * (1 / (1 - d / w * cos E) ^ 4) := fun E => by
    rw [show w - d * cos E = w * (1 - d / w * cos E) by field_simp, mul_pow]
    rw [one_div_mul_one_div]
  rw [intervalIntegral.integral_congr (fun E _ => h2 E), intervalIntegral.integral_const_mul, h1]
  have hu : 0 < w ^ 2 - d ^ 2 := by nlinarith [abs_lt.mp hd]
  rw [show 1 - (d / w) ^ 2 = (w ^ 2 - d ^ 2) / w ^ 2 by field_simp, sqrt_div hu.le, sqrt_sq hw.le]
  have : 0 < √(w ^ 2 - d ^ 2) := sqrt_pos.mpr hu
  field_simp

/-- Its derivative when the orbit is lifted as a whole. -/
theorem density_lift {d w : ℝ} (hd : |d| < w) (ρ : ℝ) : HasDerivAt (fun k => (∫ E in (0)..(2 * π), 1 / (w + k * ρ - d * cos E) ^ 4) / (2 * π))
    (-(1 / 2) * ρ * (8 * w ^ 4 + 24 * w ^ 2 * d ^ 2 + 3 * d ^ 4) / √(w ^ 2 - d ^ 2) ^ 9) 0 := by
  have hw : 0 < w := lt_of_le_of_lt (abs_nonneg d) hd
  have hu : 0 < w ^ 2 - d ^ 2 := by nlinarith [abs_lt.mp hd]
  have hev : ∀ᶠ k in nhds (0 : ℝ), (∫ E in (0)..(2 * π), 1 / (w + k * ρ - d * cos E) ^ 4) / (2 * π)
      = ((w + k * ρ) * ((w + k * ρ) ^ 2 + 3 / 2 * d ^ 2)) / √((w + k * ρ) ^ 2 - d ^ 2) ^ 7 := by
    have hc : ContinuousAt (fun k : ℝ => w + k * ρ) 0 := by fun_prop
    filter_upwards [hc.eventually (lt_mem_nhds (show |d| < w + 0 * ρ by linarith))] with k hk
    rw [density_mean hk]
    have := pi_ne_zero
    field_simp
  refine HasDerivAt.congr_of_eventuallyEq ?_ hev
  have hx : HasDerivAt (fun k : ℝ => w + k * ρ) ρ 0 := by simpa using ((hasDerivAt_id (0 : ℝ)).mul_const ρ).const_add w
  have hs : √(w ^ 2 - d ^ 2) ≠ 0 := (sqrt_pos.mpr hu).ne'
  have hq := (((hx.pow 2).sub_const (d ^ 2)).sqrt (by simpa using hu.ne')).pow 7
  have hm := hx.mul ((hx.pow 2).add_const (3 / 2 * d ^ 2))
  have := hm.div hq (by simpa using hs)
  refine this.congr_deriv ?_
  simp only [Pi.pow_apply, zero_mul, add_zero, Pi.mul_apply]
  have hss := sq_sqrt hu.le
  generalize √(w ^ 2 - d ^ 2) = q at *
  push_cast
  field_simp
  have hd2 : d ^ 2 = w ^ 2 - q ^ 2 := by linarith
  rw [show d ^ 4 = (d ^ 2) ^ 2 by ring, hd2]
  ring

/-- C136: the part of the coefficient of the axis that belongs to the flattening is the effect on the mean density of the lift `-3 k2 (3 cos² i - 1) / (2 a)`
that the flattening gives to a circular orbit of the axis `a` and the inclination `i` (C107). -/
theorem C136_flattening (e : Elem) (h0 : 0 ≤ e.eo) (h1 : e.eo < 1) (ha : 0 < (sxpx_common_init e).aodp)
    (hp : 20 < perige (sxpall_common_init e) e.eo) :
    (∀ k, axisLoss k e = axisLoss 0 e + k * (axisLoss 1 e - axisLoss 0 e)) ∧
    HasDerivAt (fun k => 2 * (sxpx_common_init e).aodp * ((sxpx_common_init e).xnodp * (sxpx_common_init e).aodp *
      ((∫ E in (0)..(2 * π), e.bstar * ((sxpx_common_init e).qoms24
        / ((epochOrbit e).radius E + k * (-(3 / 2 * (3 * cos e.xincl ^ 2 - 1) / (sxpx_common_init e).aodp)) - (sxpx_common_init e).s4) ^ 4)) / (2 * π))))
      (axisLoss 1 e - axisLoss 0 e) 0 := by
  constructor
  · intro k
    unfold axisLoss
    rw [c2_linear k]
    ring
  obtain ⟨hs, hη, hle⟩ := eta_bounds e h0 h1 ha hp
  have hdw : |(sxpx_common_init e).aodp * e.eo| < (sxpx_common_init e).aodp - (sxpx_common_init e).s4 := by
    rwa [abs_div, abs_of_pos hs, div_lt_one hs] at hη
  have hu : 0 < 1 - ((sxpx_common_init e).aodp * e.eo / ((sxpx_common_init e).aodp - (sxpx_common_init e).s4)) ^ 2 := by nlinarith [abs_lt.mp hη]
  have hd := ((density_lift hdw (-(3 / 2 * (3 * cos e.xincl ^ 2 - 1) / (sxpx_common_init e).aodp))).const_mul
    (2 * (sxpx_common_init e).aodp * ((sxpx_common_init e).xnodp * (sxpx_common_init e).aodp * (e.bstar * (sxpx_common_init e).qoms24))))
  refine hda' hd (fun k => ?_) ?_
  · have : ∀ E, e.bstar * ((sxpx_common_init e).qoms24
        / ((epochOrbit e).radius E + k * (-(3 / 2 * (3 * cos e.xincl ^ 2 - 1) / (sxpx_common_init e).aodp)) - (sxpx_common_init e).s4) ^ 4)
        = e.bstar * (sxpx_common_init e).qoms24 * (1 / ((sxpx_common_init e).aodp - (sxpx_common_init e).s4
          + k * (-(3 / 2 * (3 * cos e.xincl ^ 2 - 1) / (sxpx_common_init e).aodp)) - (sxpx_common_init e).aodp * e.eo * cos E) ^ 4) := fun E => by
      rw [show (epochOrbit e).radius E = (sxpx_common_init e).aodp * (1 - e.eo * cos E) from rfl,
        show (sxpx_common_init e).aodp * (1 - e.eo * cos E) + k * (-(3 / 2 * (3 * cos e.xincl ^ 2 - 1) / (sxpx_common_init e).aodp)) - (sxpx_common_init e).s4
          = (sxpx_common_init e).aodp - (sxpx_common_init e).s4 + k * (-(3 / 2 * (3 * cos e.xincl ^ 2 - 1) / (sxpx_common_init e).aodp))
            - (sxpx_common_init e).aodp * e.eo * cos E by ring]
      ring
    rw [intervalIntegral.integral_congr (fun E _ => this E), intervalIntegral.integral_const_mul]
    ring
  · have htsi : (sxpx_common_init e).tsi = 1 / ((sxpx_common_init e).aodp - (sxpx_common_init e).s4) := rfl
    have hc1 : (sxpx_common_init e).coef1 = (sxpx_common_init e).qoms24 * ((sxpx_common_init e).tsi * (sxpx_common_init e).tsi)
      * ((sxpx_common_init e).tsi * (sxpx_common_init e).tsi) / |1 - (sxpx_common_init e).aodp * e.eo * (sxpx_common_init e).tsi
        * ((sxpx_common_init e).aodp * e.eo * (sxpx_common_init e).tsi)| ^ (7 / 2 : ℝ) := rfl
    have hco : (sxpall_common_init e).cosio2 = cos e.xincl ^ 2 := by show cos e.xincl * cos e.xincl = _; ring
    unfold axisLoss c2Of
    dsimp only
    rw [show (sxpall_common_init e).aodp = (sxpx_common_init e).aodp from rfl, show (sxpall_common_init e).xnodp = (sxpx_common_init e).xnodp from rfl, hco]
    rw [hc1, htsi, show (sxpx_common_init e).aodp * e.eo * (1 / ((sxpx_common_init e).aodp - (sxpx_common_init e).s4))
      = (sxpx_common_init e).aodp * e.eo / ((sxpx_common_init e).aodp - (sxpx_common_init e).s4) by ring]
    have hw : √(((sxpx_common_init e).aodp - (sxpx_common_init e).s4) ^ 2 - ((sxpx_common_init e).aodp * e.eo) ^ 2)
        = ((sxpx_common_init e).aodp - (sxpx_common_init e).s4)
          * √(1 - ((sxpx_common_init e).aodp * e.eo / ((sxpx_common_init e).aodp - (sxpx_common_init e).s4)) ^ 2) := by
      rw [show ((sxpx_common_init e).aodp - (sxpx_common_init e).s4) ^ 2 - ((sxpx_common_init e).aodp * e.eo) ^ 2
        = ((sxpx_common_init e).aodp - (sxpx_common_init e).s4) ^ 2
          * (1 - ((sxpx_common_init e).aodp * e.eo / ((sxpx_common_init e).aodp - (sxpx_common_init e).s4)) ^ 2) by
          have := hs.ne'
          field_simp, sqrt_mul (sq_nonneg _), sqrt_sq hs.le]
    rw [hw]
    have hde : (sxpx_common_init e).aodp * e.eo = (sxpx_common_init e).aodp * e.eo / ((sxpx_common_init e).aodp - (sxpx_common_init e).s4)
        * ((sxpx_common_init e).aodp - (sxpx_common_init e).s4) := by
      have := hs.ne'
      field_simp
    have hde2 := congrArg (fun x => x ^ 2) hde
    have hde4 := congrArg (fun x => x ^ 4) hde
    rw [hde2, hde4]
    clear hde hde2 hde4 hw
    generalize (sxpx_common_init e).aodp * e.eo / ((sxpx_common_init e).aodp - (sxpx_common_init e).s4) = η at *
    rw [show η * η = η ^ 2 by ring, abs_of_pos hu, pow_seven_half hu.le]
    have hq : √(1 - η ^ 2) ≠ 0 := (sqrt_pos.mpr hu).ne'
    have hq2 := sq_sqrt hu.le
    rw [show √(1 - η ^ 2) ^ 7 = √(1 - η ^ 2) ^ 7 from rfl, ← hq2]
    simp only [sqrt_sq (sqrt_nonneg _)]
    generalize √(1 - η ^ 2) = q at *
    have hs2 := hs.ne'
    generalize (sxpx_common_init e).aodp - (sxpx_common_init e).s4 = d at *
    field_simp
    ring

/-- A satellite in the plane of the equator, between 1.6 and 6.4 radii of the Earth. -/
noncomputable def longOrbit : Elem where
  epoch := 0
  bstar := 1
  xincl := 0
  xnodeo := 0
  eo := 3 / 5
  omegao := 0
  xmo := 0
  xno := xke / 8
  ephType := 0

theorem longOrbit_axis : 399 / 100 < (sxpall_common_init longOrbit).aodp ∧ (sxpall_common_init longOrbit).aodp < 401 / 100 ∧ 0 < (sxpall_common_init longOrbit).xnodp := by
  have hx : xke ≠ 0 := by unfold xke; norm_num
  have hx0 : 0 < xke := by unfold xke; norm_num
  have h1 : a1 longOrbit = 4 := by
    unfold a1
    rw [show xke / longOrbit.xno = 8 by show xke / (xke / 8) = 8; field_simp]
    rw [show (8 : ℝ) = 2 ^ (3 : ℝ) by norm_num, ← rpow_mul (by norm_num), show (3 : ℝ) * (2 / 3) = (2 : ℕ) by norm_num, rpow_natCast]
    norm_num
  have hs : √(1 - longOrbit.eo * longOrbit.eo) = 4 / 5 := by
    rw [show 1 - longOrbit.eo * longOrbit.eo = (4 / 5) ^ 2 by simp [longOrbit]; norm_num, sqrt_sq (by norm_num)]
  have ht : tval longOrbit = 3 * ck2 / (4 / 5 * (16 / 25)) := by
    unfold tval; rw [hs]; simp [longOrbit]; norm_num; ring
  have e1 : (sxpall_common_init longOrbit).aodp = ao longOrbit / (1 - delo longOrbit) := rfl
  have e2 : (sxpall_common_init longOrbit).xnodp = longOrbit.xno / (1 + delo longOrbit) := rfl
  rw [e1, e2]
  have hd : 0 < delo longOrbit ∧ delo longOrbit < 1 / 1000 ∧ ao longOrbit / (1 - delo longOrbit) < 401 / 100 ∧ 399 / 100 < ao longOrbit / (1 - delo longOrbit) := by
    unfold delo ao del1
    rw [h1, ht]
    unfold ck2 xj2
    norm_num
  refine ⟨hd.2.2.2, hd.2.2.1, div_pos ?_ (by linarith [hd.1])⟩
  show 0 < xke / 8
  positivity

theorem longOrbit_height : 20 < perige (sxpall_common_init longOrbit) longOrbit.eo := by
  obtain ⟨h1, _, _⟩ := longOrbit_axis
  unfold perige earthRadius
  rw [show longOrbit.eo = 3 / 5 from rfl]
  nlinarith

/-- Its loss of the axis is that of the atmosphere, up to the factor allowed, and the effect of the flattening is not zero. -/
example : ∃ ρ, (0 ≤ ρ ∧ ρ ≤ 9 / 5) ∧ (epochOrbit longOrbit).timeMean ((epochOrbit longOrbit).axisRate
    ((epochOrbit longOrbit).powerLaw 1 (sxpx_common_init longOrbit).qoms24 (sxpx_common_init longOrbit).s4)) = -axisLoss 0 longOrbit * (1 + ρ) := by
  obtain ⟨h1, h2, h3⟩ := longOrbit_axis
  have ha : 0 < (sxpx_common_init longOrbit).aodp := show 0 < (sxpall_common_init longOrbit).aodp by linarith
  obtain ⟨ρ, h, h'⟩ := C135_axis longOrbit (by simp [longOrbit]; norm_num) (by simp [longOrbit]; norm_num) h3 ha longOrbit_height
  refine ⟨ρ, ⟨h.1, h.2.trans ?_⟩, h'⟩
  rw [show longOrbit.eo = 3 / 5 from rfl]; norm_num

example : (sxpx_common_init longOrbit).coef1 ≠ 0 → axisLoss 1 longOrbit ≠ axisLoss 0 longOrbit := by
  intro hc
  obtain ⟨h1, h2, h3⟩ := longOrbit_axis
  have ha : 0 < (sxpx_common_init longOrbit).aodp := show 0 < (sxpall_common_init longOrbit).aodp by linarith
  obtain ⟨hs, hη, hle⟩ := eta_bounds longOrbit (by simp [longOrbit]; norm_num) (by simp [longOrbit]; norm_num) ha longOrbit_height
  have htsi : (sxpx_common_init longOrbit).tsi = 1 / ((sxpx_common_init longOrbit).aodp - (sxpx_common_init longOrbit).s4) := rfl
  have hco : (sxpall_common_init longOrbit).cosio2 = 1 := by show cos longOrbit.xincl * cos longOrbit.xincl = _; simp [longOrbit]
  unfold axisLoss c2Of
  dsimp only
  rw [hco, show (sxpall_common_init longOrbit).aodp = (sxpx_common_init longOrbit).aodp from rfl, htsi, show (sxpx_common_init longOrbit).aodp * longOrbit.eo
    * (1 / ((sxpx_common_init longOrbit).aodp - (sxpx_common_init longOrbit).s4))
    = (sxpx_common_init longOrbit).aodp * longOrbit.eo / ((sxpx_common_init longOrbit).aodp - (sxpx_common_init longOrbit).s4) by ring]
  have hu : 0 < 1 - ((sxpx_common_init longOrbit).aodp * longOrbit.eo / ((sxpx_common_init longOrbit).aodp - (sxpx_common_init longOrbit).s4)) ^ 2 := by
    nlinarith [abs_lt.mp hη]
  generalize (sxpx_common_init longOrbit).aodp * longOrbit.eo / ((sxpx_common_init longOrbit).aodp - (sxpx_common_init longOrbit).s4) = η at *
  rw [show η * η = η ^ 2 by ring, abs_of_pos hu]
  intro h
  have hb : longOrbit.bstar = 1 := rfl
  rw [hb] at h
  have h4 : (2 * (sxpx_common_init longOrbit).aodp * ((sxpx_common_init longOrbit).coef1 * (sxpall_common_init longOrbit).xnodp)) *
      (3 / 4 * 1 * (1 / ((sxpx_common_init longOrbit).aodp - (sxpx_common_init longOrbit).s4)) / (1 - η ^ 2) * (3 * 1 - 1) * (8 + 3 * η ^ 2 * (8 + η ^ 2))) = 0 := by
    linear_combination h
  have h5 : 0 < 3 / 4 * 1 * (1 / ((sxpx_common_init longOrbit).aodp - (sxpx_common_init longOrbit).s4)) / (1 - η ^ 2) * (3 * 1 - 1) * (8 + 3 * η ^ 2 * (8 + η ^ 2)) := by
    norm_num
    positivity
  rcases mul_eq_zero.mp h4 with h6 | h6
  · rcases mul_eq_zero.mp h6 with h7 | h7
    · linarith
    · rcases mul_eq_zero.mp h7 with h8 | h8
      · exact hc h8
      · linarith
  · linarith

end SatSky.Props
