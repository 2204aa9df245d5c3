import Verif.Model.Propagate
import Verif.Spec.Orbit
import Mathlib.Tactic.NormNum
import Mathlib.Tactic.Positivity
import Mathlib.Tactic.Linarith
import Mathlib.Tactic.FieldSimp
import Mathlib.Tactic.Ring
import Mathlib.Analysis.SpecialFunctions.Trigonometric.Deriv
import Mathlib.Analysis.SpecialFunctions.Trigonometric.Bounds
import Mathlib.Analysis.Calculus.Deriv.MeanValue

/-! Kepler's equation with the eccentricity vector `(x, y)`: monotonicity, the root, and the correction used by the program. -/

namespace SatSky.Kep

open Real SatSky.Spec SatSky.Sxp

/-- `e cos E` and `e sin E`. -/
noncomputable def ec (x y E : ℝ) : ℝ := x * cos E + y * sin E
noncomputable def es (x y E : ℝ) : ℝ := x * sin E - y * cos E

theorem ec_es (x y E : ℝ) : ec x y E ^ 2 + es x y E ^ 2 = x ^ 2 + y ^ 2 := by
  have := sin_sq_add_cos_sq E
  unfold ec es
  linear_combination (x ^ 2 + y ^ 2) * this

theorem abs_ec {x y e : ℝ} (he : 0 ≤ e) (h : x ^ 2 + y ^ 2 ≤ e ^ 2) (E : ℝ) : |ec x y E| ≤ e := by
  apply abs_le_of_sq_le_sq _ he
  have := ec_es x y E
  nlinarith [sq_nonneg (es x y E)]

theorem abs_es {x y e : ℝ} (he : 0 ≤ e) (h : x ^ 2 + y ^ 2 ≤ e ^ 2) (E : ℝ) : |es x y E| ≤ e := by
  apply abs_le_of_sq_le_sq _ he
  have := ec_es x y E
  nlinarith [sq_nonneg (ec x y E)]

theorem es_add (x y E d : ℝ) : es x y (E + d) = es x y E * cos d + ec x y E * sin d := by
  unfold es ec
  rw [sin_add, cos_add]; ring

theorem hasDerivAt_es (x y E : ℝ) : HasDerivAt (es x y) (ec x y E) E := by
  have h := ((hasDerivAt_sin E).const_mul x).sub ((hasDerivAt_cos E).const_mul y)
  have e1 : x * cos E - y * -sin E = ec x y E := by unfold ec; ring
  rw [e1] at h
  exact h

theorem hasDerivAt_ec (x y E : ℝ) : HasDerivAt (ec x y) (-es x y E) E := by
  have h := ((hasDerivAt_cos E).const_mul x).add ((hasDerivAt_sin E).const_mul y)
  have e1 : x * -sin E + y * cos E = -es x y E := by unfold es; ring
  rw [e1] at h
  exact h

theorem res_eq (x y l E : ℝ) : keplerRes x y l E = l - E + es x y E := by
  unfold keplerRes es; ring

theorem keplerEq_iff (x y l E : ℝ) : KeplerEq x y l E ↔ keplerRes x y l E = 0 := by
  unfold KeplerEq keplerRes
  constructor <;> intro h <;> linarith

/-- The mean longitude grows at least at the rate `1 - e`. -/
theorem slope {x y e : ℝ} (he : 0 ≤ e) (h : x ^ 2 + y ^ 2 ≤ e ^ 2) {E E' : ℝ} (hE : E ≤ E') :
    (1 - e) * (E' - E) ≤ (E' - es x y E') - (E - es x y E) := by
  have hd : ∀ t, HasDerivAt (fun t => e * t - es x y t) (e - ec x y t) t := by
    intro t
    have h1 := ((hasDerivAt_id t).const_mul e).sub (hasDerivAt_es x y t)
    rw [mul_one] at h1
    exact h1
  have hmono : Monotone (fun t => e * t - es x y t) := by
    apply monotone_of_deriv_nonneg
    · intro t; exact (hd t).differentiableAt
    · intro t
      rw [(hd t).deriv]
      have := abs_le.mp (abs_ec he h t)
      linarith [this.2]
  have := hmono hE
  simp only at this
  linarith

/-- Distance to a root, from the residual. -/
theorem near {x y e l : ℝ} (he : 0 ≤ e) (he1 : e < 1) (h : x ^ 2 + y ^ 2 ≤ e ^ 2) {E R : ℝ} (hR : keplerRes x y l R = 0) :
    |E - R| ≤ |keplerRes x y l E| / (1 - e) := by
  rw [le_div_iff₀ (by linarith)]
  rw [res_eq] at hR ⊢
  have hk : l = R - es x y R := by linarith
  rw [hk]
  rcases le_total E R with h1 | h1
  · have := slope he h h1
    rw [abs_of_nonpos (by linarith)]
    refine le_trans ?_ (le_abs_self _)
    linarith
  · have := slope he h h1
    rw [abs_of_nonneg (by linarith)]
    refine le_trans ?_ (neg_le_abs _)
    linarith

theorem root_exists {x y e : ℝ} (l : ℝ) (he : 0 ≤ e) (he1 : e < 1) (h : x ^ 2 + y ^ 2 ≤ e ^ 2) : ∃ R, keplerRes x y l R = 0 := by
  have hc : Continuous (fun t => keplerRes x y l t) := by
    unfold keplerRes
    fun_prop
  have h0 : keplerRes x y l (l + 1) ≤ 0 := by
    rw [res_eq]
    have := (abs_le.mp (abs_es he h (l + 1))).2
    linarith
  have h1 : 0 ≤ keplerRes x y l (l - 1) := by
    rw [res_eq]
    have := (abs_le.mp (abs_es he h (l - 1))).1
    linarith
  have := intermediate_value_Icc' (show l - 1 ≤ l + 1 by linarith) hc.continuousOn
  obtain ⟨R, _, hR⟩ := this ⟨h0, h1⟩
  exact ⟨R, hR⟩

/-- The remainder after the linear terms, for steps up to one radian. -/
theorem rem2 {x y e : ℝ} (he : 0 ≤ e) (h : x ^ 2 + y ^ 2 ≤ e ^ 2) (E : ℝ) {d : ℝ} (hd : |d| ≤ 1) :
    |es x y (E + d) - es x y E - ec x y E * d| ≤ 3 / 4 * e * d ^ 2 := by
  have hs := abs_es he h E
  have hc := abs_ec he h E
  have h1 : |cos d - 1| ≤ d ^ 2 / 2 := by
    rw [abs_sub_comm, abs_of_nonneg (by linarith [cos_le_one d])]
    linarith [one_sub_sq_div_two_le_cos (x := d)]
  have h2 : |sin d - d| ≤ 11 / 50 * d ^ 2 := by
    have hb := sin_bound hd
    have h3 : |sin d - d| ≤ |sin d - (d - d ^ 3 / 6)| + |d ^ 3 / 6| := by
      have := abs_sub_abs_le_abs_sub (sin d - d) (-(d ^ 3 / 6))
      rw [abs_neg] at this
      have e1 : sin d - d - -(d ^ 3 / 6) = sin d - (d - d ^ 3 / 6) := by ring
      rw [e1] at this
      linarith
    have h4 : |d ^ 3 / 6| ≤ d ^ 2 / 6 := by
      rw [abs_div, abs_pow, ← sq_abs d]
      have := abs_nonneg d
      rw [abs_of_pos (show (0 : ℝ) < 6 by norm_num)]
      have : |d| ^ 3 ≤ |d| ^ 2 := pow_le_pow_of_le_one this hd (by norm_num)
      linarith
    have h5 : |d| ^ 5 ≤ d ^ 2 := by
      rw [← sq_abs d]
      exact pow_le_pow_of_le_one (abs_nonneg d) hd (by norm_num)
    linarith [sq_nonneg d]
  rw [es_add, show es x y E * cos d + ec x y E * sin d - es x y E - ec x y E * d = es x y E * (cos d - 1) + ec x y E * (sin d - d) by ring]
  calc _ ≤ |es x y E * (cos d - 1)| + |ec x y E * (sin d - d)| := abs_add_le _ _
    _ = |es x y E| * |cos d - 1| + |ec x y E| * |sin d - d| := by rw [abs_mul, abs_mul]
    _ ≤ e * (d ^ 2 / 2) + e * (11 / 50 * d ^ 2) := by gcongr
    _ ≤ 3 / 4 * e * d ^ 2 := by nlinarith [mul_nonneg he (sq_nonneg d)]

/-- The remainder after the quadratic terms. -/
theorem rem3 {x y e : ℝ} (he : 0 ≤ e) (h : x ^ 2 + y ^ 2 ≤ e ^ 2) (E : ℝ) {d : ℝ} (hd : |d| ≤ 1) :
    |es x y (E + d) - es x y E - ec x y E * d + es x y E * d ^ 2 / 2| ≤ 7 / 25 * e * |d| ^ 3 := by
  have hs := abs_es he h E
  have hc := abs_ec he h E
  have hd4 : |d| ^ 4 ≤ |d| ^ 3 := pow_le_pow_of_le_one (abs_nonneg d) hd (by norm_num)
  have hd5 : |d| ^ 5 ≤ |d| ^ 3 := pow_le_pow_of_le_one (abs_nonneg d) hd (by norm_num)
  have h1 : |cos d - (1 - d ^ 2 / 2)| ≤ 5 / 96 * |d| ^ 3 := by
    have := cos_bound hd
    linarith
  have h2 : |sin d - d| ≤ 7 / 32 * |d| ^ 3 := by
    have hb := sin_bound hd
    have h3 : |sin d - d| ≤ |sin d - (d - d ^ 3 / 6)| + |d ^ 3 / 6| := by
      have := abs_sub_abs_le_abs_sub (sin d - d) (-(d ^ 3 / 6))
      rw [abs_neg] at this
      have e1 : sin d - d - -(d ^ 3 / 6) = sin d - (d - d ^ 3 / 6) := by ring
      rw [e1] at this
      linarith
    have h4 : |d ^ 3 / 6| = |d| ^ 3 / 6 := by
      rw [abs_div, abs_pow, abs_of_pos (show (0 : ℝ) < 6 by norm_num)]
    have h6 : 0 ≤ |d| ^ 3 := by positivity
    linarith
  rw [es_add, show es x y E * cos d + ec x y E * sin d - es x y E - ec x y E * d + es x y E * d ^ 2 / 2
    = es x y E * (cos d - (1 - d ^ 2 / 2)) + ec x y E * (sin d - d) by ring]
  have hd3 : 0 ≤ |d| ^ 3 := by positivity
  calc _ ≤ |es x y E * (cos d - (1 - d ^ 2 / 2))| + |ec x y E * (sin d - d)| := abs_add_le _ _
    _ = |es x y E| * |cos d - (1 - d ^ 2 / 2)| + |ec x y E| * |sin d - d| := by rw [abs_mul, abs_mul]
    _ ≤ e * (5 / 96 * |d| ^ 3) + e * (7 / 32 * |d| ^ 3) := by gcongr
    _ ≤ 7 / 25 * e * |d| ^ 3 := by nlinarith [mul_nonneg he hd3]

/-- A Newton step shortened to the fraction `t` does not increase the residual. -/
theorem short_step {x y l : ℝ} (h : x ^ 2 + y ^ 2 ≤ (2 / 5) ^ 2) {E t : ℝ} (hf : |keplerRes x y l E| ≤ 2 / 5) (ht : 0 ≤ t) (ht1 : t ≤ 1) :
    |keplerRes x y l (E + t * (keplerRes x y l E / (1 - ec x y E)))| ≤ 2 / 5 := by
  have hc := abs_le.mp (abs_ec (by norm_num) h E)
  set f := keplerRes x y l E with hf'
  set p := 1 - ec x y E with hp
  have hp0 : 3 / 5 ≤ p := by linarith [hc.2]
  have hpp : 0 < p := by linarith
  set d := t * (f / p) with hd
  have hfp : |f / p| ≤ 2 / 3 := by
    rw [abs_div, abs_of_pos hpp, div_le_iff₀ hpp]; linarith
  have hd1 : |d| ≤ t * |f / p| := by rw [hd, abs_mul, abs_of_nonneg ht]
  have hd2 : |d| ≤ 1 := by nlinarith [abs_nonneg (f / p)]
  have hr := rem2 (by norm_num) h E hd2
  have hnew : keplerRes x y l (E + d) = f - p * d + (es x y (E + d) - es x y E - ec x y E * d) := by
    rw [hf', res_eq, res_eq, hp]; ring
  have hlin : f - p * d = (1 - t) * f := by rw [hd]; field_simp
  rw [hnew, hlin]
  have hdsq : d ^ 2 ≤ t * (10 / 9 * |f|) := by
    have h1 : |d| ≤ t * (5 / 3 * |f|) := by
      refine le_trans hd1 (mul_le_mul_of_nonneg_left ?_ ht)
      rw [abs_div, abs_of_pos hpp, div_le_iff₀ hpp]
      nlinarith [abs_nonneg f]
    have h2 : |d| ≤ 2 / 3 := by nlinarith [abs_nonneg (f / p)]
    rw [← sq_abs]
    nlinarith [abs_nonneg d, abs_nonneg f, mul_nonneg ht (abs_nonneg f)]
  calc _ ≤ |(1 - t) * f| + |es x y (E + d) - es x y E - ec x y E * d| := abs_add_le _ _
    _ ≤ (1 - t) * |f| + 3 / 4 * (2 / 5) * d ^ 2 := by
        rw [abs_mul, abs_of_nonneg (by linarith : (0 : ℝ) ≤ 1 - t)]
        linarith
    _ ≤ (1 - t) * |f| + t * |f| := by nlinarith [mul_nonneg ht (abs_nonneg f)]
    _ ≤ 2 / 5 := by linarith

/-- The second-order step: the residual is cubed, up to a factor. -/
theorem full_step {x y l : ℝ} (h : x ^ 2 + y ^ 2 ≤ (2 / 5) ^ 2) {E : ℝ} (hf : |keplerRes x y l E| ≤ 2 / 5) :
    |keplerRes x y l (E + keplerRes x y l E / (1 - ec x y E + 1 / 2 * es x y E * (keplerRes x y l E / (1 - ec x y E))))|
      ≤ 17 / 10 * |keplerRes x y l E| ^ 3 := by
  have hc := abs_le.mp (abs_ec (by norm_num) h E)
  have hs := abs_es (by norm_num) h E
  set f := keplerRes x y l E with hf'
  set p := 1 - ec x y E with hp
  set s := es x y E with hs'
  have hp0 : 3 / 5 ≤ p := by linarith [hc.2]
  have hpp : 0 < p := by linarith
  have hfp : |f / p| ≤ 2 / 3 := by
    rw [abs_div, abs_of_pos hpp, div_le_iff₀ hpp]; linarith
  set D := p + 1 / 2 * s * (f / p) with hD
  have hD0 : 7 / 15 ≤ D := by
    have h1 : |1 / 2 * s * (f / p)| ≤ 2 / 15 := by
      rw [abs_mul, abs_mul, abs_of_pos (show (0 : ℝ) < 1 / 2 by norm_num)]
      nlinarith [abs_nonneg s, abs_nonneg (f / p)]
    have := (abs_le.mp h1).1
    linarith
  have hDp : 0 < D := by linarith
  set d := f / D with hd
  have hf3 := abs_nonneg f
  have hdb : |d| ≤ 15 / 7 * |f| := by
    rw [hd, abs_div, abs_of_pos hDp, div_le_iff₀ hDp]
    nlinarith
  have hd1 : |d| ≤ 1 := by linarith
  have hr := rem3 (by norm_num) h E hd1
  have hnew : keplerRes x y l (E + d) = f - p * d - s * d ^ 2 / 2
      + (es x y (E + d) - es x y E - ec x y E * d + es x y E * d ^ 2 / 2) := by
    rw [hf', res_eq, res_eq, hp, hs']; ring
  have hquad : f - p * d - s * d ^ 2 / 2 = 1 / 4 * (s / p) ^ 2 * (f * d ^ 2) := by
    have e1 : f = D * d := by rw [hd]; field_simp
    have e2 : D * p = p ^ 2 + 1 / 2 * s * f := by rw [hD]; field_simp
    have e3 : f - p * d = 1 / 2 * s * f / p * d := by
      rw [show f - p * d = (D * p - p ^ 2) / p * d by rw [e1]; field_simp, e2]; ring
    have e4 : f / p - d = 1 / 2 * (s / p ^ 2) * (f * d) := by
      have : f / p - d = (f - p * d) / p := by field_simp
      rw [this, e3]; field_simp
    have e5 : f - p * d - s * d ^ 2 / 2 = 1 / 2 * s * d * (f / p - d) := by rw [e3]; ring
    rw [e5, e4]; ring
  rw [hnew, hquad]
  have hsp : (s / p) ^ 2 ≤ 4 / 9 := by
    have : |s / p| ≤ 2 / 3 := by rw [abs_div, abs_of_pos hpp, div_le_iff₀ hpp]; linarith
    rw [← sq_abs]; nlinarith [abs_nonneg (s / p)]
  have hd2 : d ^ 2 ≤ 225 / 49 * |f| ^ 2 := by
    rw [← sq_abs d]; nlinarith [abs_nonneg d]
  have hd3 : |d| ^ 3 ≤ 3375 / 343 * |f| ^ 3 := by
    calc |d| ^ 3 ≤ (15 / 7 * |f|) ^ 3 := by gcongr
      _ = 3375 / 343 * |f| ^ 3 := by ring
  calc _ ≤ |1 / 4 * (s / p) ^ 2 * (f * d ^ 2)| + 7 / 25 * (2 / 5) * |d| ^ 3 := le_trans (abs_add_le _ _) (by linarith)
    _ = 1 / 4 * (s / p) ^ 2 * (|f| * d ^ 2) + 7 / 25 * (2 / 5) * |d| ^ 3 := by
        rw [abs_mul, abs_mul, abs_mul, abs_of_nonneg (sq_nonneg (s / p)), abs_of_nonneg (sq_nonneg d),
          abs_of_pos (show (0 : ℝ) < 1 / 4 by norm_num)]
    _ ≤ 1 / 4 * (4 / 9) * (|f| * (225 / 49 * |f| ^ 2)) + 7 / 25 * (2 / 5) * (3375 / 343 * |f| ^ 3) := by gcongr
    _ ≤ 17 / 10 * |f| ^ 3 := by nlinarith [pow_nonneg hf3 3]

end SatSky.Kep
