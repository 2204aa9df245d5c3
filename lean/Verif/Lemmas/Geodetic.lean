import Verif.Lemmas.Angles
import Mathlib.Analysis.SpecialFunctions.Trigonometric.Bounds
import Mathlib.Analysis.Real.Pi.Bounds
import Mathlib.Tactic.NormNum

namespace SatSky.Geo

open SatSky.Spec Real

theorem e2_val : 669 / 10 ^ 5 < e2 ∧ e2 < 670 / 10 ^ 5 := by unfold e2 F; constructor <;> norm_num

theorem sin_lip (a b : ℝ) : |sin a - sin b| ≤ |a - b| := by
  rw [sin_sub_sin]
  have h1 := abs_sin_le_abs (x := (a - b) / 2)
  have h2 := abs_cos_le_one ((a + b) / 2)
  rw [abs_mul, abs_mul, abs_two]
  have e : |a - b| = 2 * |(a - b) / 2| := by rw [abs_div, abs_two]; ring
  rw [e]
  nlinarith [abs_nonneg (sin ((a - b) / 2)), abs_nonneg (cos ((a + b) / 2))]

/-- The denominator of `curv`. -/
theorem root_bounds (s : ℝ) (hs : |s| ≤ 1) : 996 / 1000 ≤ sqrt (1 - e2 * s * s) ∧ sqrt (1 - e2 * s * s) ≤ 1 := by
  have ⟨a, b⟩ := e2_val
  have hs2 : s * s ≤ 1 := by rw [← abs_mul_abs_self s]; nlinarith [abs_nonneg s]
  constructor
  · apply le_sqrt_of_sq_le
    nlinarith [mul_self_nonneg s]
  · rw [sqrt_le_left (by norm_num)]
    nlinarith [mul_self_nonneg s]

theorem curv_bounds (a : ℝ) : 1 ≤ curv a ∧ curv a ≤ 1005 / 1000 := by
  have ⟨h1, h2⟩ := root_bounds (sin a) (abs_sin_le_one a)
  have hp : 0 < sqrt (1 - e2 * sin a * sin a) := by linarith
  unfold curv
  constructor
  · rw [le_div_iff₀ hp]; linarith
  · rw [div_le_iff₀ hp]; linarith

/-- `curv` changes slowly. -/
theorem curv_lip (a b : ℝ) : |curv a - curv b| ≤ 679 / 10 ^ 5 * |sin a - sin b| := by
  have ⟨e1, e3⟩ := e2_val
  have ha := root_bounds (sin a) (abs_sin_le_one a)
  have hb := root_bounds (sin b) (abs_sin_le_one b)
  have sa : sqrt (1 - e2 * sin a * sin a) * sqrt (1 - e2 * sin a * sin a) = 1 - e2 * sin a * sin a :=
    mul_self_sqrt (by nlinarith [sin_sq_le_one a, mul_self_nonneg (sin a)])
  have sb : sqrt (1 - e2 * sin b * sin b) * sqrt (1 - e2 * sin b * sin b) = 1 - e2 * sin b * sin b :=
    mul_self_sqrt (by nlinarith [sin_sq_le_one b, mul_self_nonneg (sin b)])
  unfold curv
  generalize sqrt (1 - e2 * sin a * sin a) = A at *
  generalize sqrt (1 - e2 * sin b * sin b) = B at *
  have hA : 0 < A := by linarith
  have hB : 0 < B := by linarith
  have key : (1 / A - 1 / B) * (A * B * (A + B)) = e2 * (sin a + sin b) * (sin a - sin b) := by
    field_simp
    nlinarith
  have hden : 1976 / 1000 ≤ A * B * (A + B) := by
    have h1 : (996 / 1000 : ℝ) * (996 / 1000) ≤ A * B := mul_le_mul ha.1 hb.1 (by norm_num) hA.le
    have h2 : (1992 / 1000 : ℝ) ≤ A + B := by linarith
    have := mul_le_mul h1 h2 (by norm_num) (by positivity)
    refine le_trans ?_ this
    norm_num
  have hk := congrArg abs key
  rw [abs_mul (1 / A - 1 / B), abs_mul (e2 * (sin a + sin b)), abs_mul e2, abs_of_pos (show 0 < e2 by linarith),
    abs_of_pos (show 0 < A * B * (A + B) by positivity)] at hk
  have hs : |sin a + sin b| ≤ 2 := by
    have := abs_add_le (sin a) (sin b)
    linarith [abs_sin_le_one a, abs_sin_le_one b]
  have h0 := abs_nonneg (1 / A - 1 / B)
  have h3 := abs_nonneg (sin a - sin b)
  have h4 : e2 * |sin a + sin b| * |sin a - sin b| ≤ 134 / 10 ^ 4 * |sin a - sin b| := by
    apply mul_le_mul_of_nonneg_right _ h3
    nlinarith [abs_nonneg (sin a + sin b)]
  nlinarith

/-- The term added to `z`. -/
noncomputable def shift (phi : ℝ) : ℝ := ERAD * curv phi * e2 * sin phi

theorem shift_abs (a : ℝ) : |shift a| ≤ 43 := by
  have ⟨e1, e3⟩ := e2_val
  have ⟨c1, c2⟩ := curv_bounds a
  unfold shift ERAD
  have h1 : 0 ≤ 63781366 / 10000 * curv a * e2 := by positivity
  rw [abs_mul, abs_of_nonneg h1]
  have h2 : 63781366 / 10000 * curv a * e2 ≤ 43 := by nlinarith
  nlinarith [abs_sin_le_one a, abs_nonneg (sin a)]

theorem shift_lip (a b : ℝ) : |shift a - shift b| ≤ 436 / 10 * |a - b| := by
  have ⟨e1, e3⟩ := e2_val
  have ⟨c1, c2⟩ := curv_bounds a
  have hc := curv_lip a b
  have hs := sin_lip a b
  have e : shift a - shift b = ERAD * e2 * (curv a * (sin a - sin b) + sin b * (curv a - curv b)) := by
    unfold shift; ring
  have hK : 0 ≤ ERAD * e2 ∧ ERAD * e2 ≤ 4274 / 100 := by
    unfold ERAD; constructor <;> nlinarith
  rw [e, abs_mul, abs_of_nonneg hK.1]
  have h1 : |curv a * (sin a - sin b) + sin b * (curv a - curv b)| ≤ 1012 / 1000 * |sin a - sin b| := by
    refine le_trans (abs_add_le _ _) ?_
    rw [abs_mul, abs_mul, abs_of_nonneg (by linarith : 0 ≤ curv a)]
    have h2 : |sin b| * |curv a - curv b| ≤ 1 * (679 / 10 ^ 5 * |sin a - sin b|) :=
      mul_le_mul (abs_sin_le_one b) hc (abs_nonneg _) (by norm_num)
    nlinarith [abs_nonneg (sin a - sin b)]
  have h0 := abs_nonneg (sin a - sin b)
  nlinarith [abs_nonneg (curv a * (sin a - sin b) + sin b * (curv a - curv b))]

/-- The angle between two points on a vertical line, at least `d` from the origin. -/
theorem atan2_lip {r y1 y2 d : ℝ} (hr : 0 ≤ r) (hd : 0 < d) (h1 : d * d ≤ r * r + y1 * y1) (h2 : 0 < r * r + y2 * y2)
    (hcos : 0 ≤ r * r + y1 * y2) : |atan2 y2 r - atan2 y1 r| ≤ π / 2 * (|y2 - y1| / d) := by
  have ⟨p1, p2⟩ := atan2_polar y1 r
  have ⟨q1, q2⟩ := atan2_polar y2 r
  have hR1 : d ≤ sqrt (r * r + y1 * y1) := le_sqrt_of_sq_le (by linarith [sq d])
  have hR2 : 0 < sqrt (r * r + y2 * y2) := sqrt_pos.mpr h2
  have hr2 : r ≤ sqrt (r * r + y2 * y2) := le_sqrt_of_sq_le (by nlinarith [mul_self_nonneg y2])
  have ra := (Complex.abs_arg_le_pi_div_two_iff (z := ⟨r, y1⟩)).mpr hr
  have rb := (Complex.abs_arg_le_pi_div_two_iff (z := ⟨r, y2⟩)).mpr hr
  have hra := abs_le.mp (show |atan2 y1 r| ≤ π / 2 from ra)
  have hrb := abs_le.mp (show |atan2 y2 r| ≤ π / 2 from rb)
  generalize atan2 y1 r = a at *
  generalize atan2 y2 r = b at *
  generalize sqrt (r * r + y1 * y1) = A at *
  generalize sqrt (r * r + y2 * y2) = B at *
  have hA : 0 < A := by linarith
  have hs : A * B * sin (b - a) = r * (y2 - y1) := by
    rw [sin_sub]
    linear_combination A * cos a * q2 + y2 * p1 - A * sin a * q1 - r * p2
  have hc : A * B * cos (b - a) = r * r + y1 * y2 := by
    rw [cos_sub]
    linear_combination A * cos a * q1 + r * p1 + A * sin a * q2 + y2 * p2
  have hc0 : 0 ≤ cos (b - a) := by
    by_contra hn
    push Not at hn
    have : A * B * cos (b - a) < 0 := mul_neg_of_pos_of_neg (by positivity) hn
    linarith
  have hp := pi_pos
  -- the difference is at most a quarter turn
  have hba : |b - a| ≤ π / 2 := by
    by_contra hn
    push Not at hn
    have hle : |b - a| ≤ π := by rw [abs_le]; constructor <;> linarith
    rw [← cos_abs] at hc0
    have := cos_neg_of_pi_div_two_lt_of_lt hn (by linarith)
    linarith
  have hj : 2 / π * |b - a| ≤ sin |b - a| := mul_le_sin (abs_nonneg _) hba
  have hsab : sin |b - a| ≤ |y2 - y1| / d := by
    have e : A * B * sin |b - a| = r * |y2 - y1| := by
      have h0 : 0 ≤ sin |b - a| := sin_nonneg_of_nonneg_of_le_pi (abs_nonneg _) (by linarith)
      have h3 := congrArg abs hs
      rw [abs_mul (A * B), abs_mul r, abs_of_pos (show 0 < A * B by positivity), abs_of_nonneg hr] at h3
      rw [← h3]
      congr 1
      rcases abs_cases (b - a) with ⟨h, _⟩ | ⟨h, _⟩
      · rw [h] at h0 ⊢; rw [abs_of_nonneg h0]
      · rw [h] at h0 ⊢
        rw [sin_neg] at h0 ⊢
        rw [abs_of_nonpos (by linarith)]
    rw [le_div_iff₀ hd]
    have h0 : 0 ≤ sin |b - a| := sin_nonneg_of_nonneg_of_le_pi (abs_nonneg _) (by linarith)
    have h5 : d * B * sin |b - a| ≤ B * |y2 - y1| := by
      calc d * B * sin |b - a| ≤ A * B * sin |b - a| := by gcongr
        _ = r * |y2 - y1| := e
        _ ≤ B * |y2 - y1| := by gcongr
    nlinarith
  have : |b - a| = π / 2 * (2 / π * |b - a|) := by field_simp
  rw [this]
  exact mul_le_mul_of_nonneg_left (le_trans hj hsab) (by positivity)

end SatSky.Geo
