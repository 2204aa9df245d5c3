import Verif.Model.SunDouble
import Verif.Spec.Sun
import Verif.Props.Topocentric
import Verif.Props.ShadowDouble
import Verif.Props.AzDouble

/-! The position of the Sun in `double` arithmetic, and the sunlit flag as a function of date and place. -/

namespace SatSky.Props

open SatSky Spec Geo Relative

/-! ### Longitude and obliquity -/

theorem linear_near (F : Fl64) {n a b : ℚ} {N : ℝ} (ha : |(a : ℝ)| ≤ 360) (hb : |(b : ℝ)| ≤ 1) (hn : |(n : ℝ) - N| ≤ 45 / 10 ^ 13) (hN : |N| ≤ 40000) :
    |(linearD F a b n : ℝ) - (a + b * N)| ≤ 19 / 10 ^ 12 ∧ |(a : ℝ) + b * N| ≤ 40360 := by
  have c1 := const_real F a (E := 41 / 10 ^ 15) (by norm_num; linarith)
  have c2 := const_real F b (E := 12 / 10 ^ 17) (by norm_num; linarith)
  have m := mul_real c2 hn hb hN
  have hm : |(b : ℝ) * N| ≤ 40000 := by
    rw [abs_mul]
    have := mul_le_mul hb hN (abs_nonneg _) (by norm_num)
    linarith
  have r : |(F.rnd (F.rnd b * n) : ℝ) - b * N| ≤ 14 / 10 ^ 12 := rnd_real F (by push_cast; exact m) hm (by norm_num)
  have hs : |(a : ℝ) + b * N| ≤ 40360 := (abs_add_le _ _).trans (by linarith)
  refine ⟨?_, hs⟩
  unfold linearD
  refine rnd_real F (e := 1405 / 10 ^ 14) ?_ hs (by norm_num)
  push_cast
  rw [abs_le] at c1 r ⊢
  constructor <;> linarith

/-- Degrees to radians. -/
theorem radians_near (F : Fl64) {x : ℚ} {X e A E : ℝ} (h : |(x : ℝ) - X| ≤ e) (hX : |X| ≤ A)
    (hE : e / 57 + A * (5 / 10 ^ 18) + (A + e) / 2 ^ 57 + 1 / 2 ^ 199 ≤ E) (he : e ≤ 1) : |(F.rnd (x * d2rD) : ℝ) - X * (Real.pi / 180)| ≤ E := by
  have hp := Real.pi_lt_d6
  have hp0 := Real.pi_pos
  have hd := d2r_near
  have e0 := (abs_nonneg _).trans h
  have A0 := (abs_nonneg _).trans hX
  have hb : |Real.pi / 180| ≤ 17454 / 10 ^ 6 := by rw [abs_of_pos (by positivity)]; linarith
  have m := mul_real h hd hX hb
  refine rnd_real F (by push_cast; exact m) (A := A * (17454 / 10 ^ 6)) ?_ ?_
  · rw [abs_mul]; exact mul_le_mul hX hb (abs_nonneg _) A0
  · norm_num at *
    linarith

/-- The mean anomaly. -/
theorem anomaly_near (F : Fl64) {n : ℚ} {N : ℝ} (hn : |(n : ℝ) - N| ≤ 45 / 10 ^ 13) (hN : |N| ≤ 40000) :
    |(anomalyD F n : ℝ) - almanacAnomaly N * (Real.pi / 180)| ≤ 9 / 10 ^ 13 ∧ |almanacAnomaly N * (Real.pi / 180)| ≤ 710 := by
  obtain ⟨l1, l2⟩ := linear_near F (a := 357528 / 1000) (b := 9856003 / 10000000) (by norm_num) (by norm_num) hn hN
  have e : ((357528 / 1000 : ℚ) : ℝ) + ((9856003 / 10000000 : ℚ) : ℝ) * N = almanacAnomaly N := by
    unfold almanacAnomaly; push_cast; norm_num
  rw [e] at l1 l2
  refine ⟨radians_near F l1 l2 (by norm_num) (by norm_num), ?_⟩
  have hp := Real.pi_lt_d6
  have hp0 := Real.pi_pos
  rw [abs_mul, abs_of_pos (by positivity : (0 : ℝ) < Real.pi / 180)]
  have := mul_le_mul l2 (show Real.pi / 180 ≤ 17454 / 10 ^ 6 by linarith) (by positivity) (by norm_num)
  norm_num at this ⊢
  linarith

/-- The longitude. -/
theorem lambda_near (F : Fl64) (M : Libm) {n : ℚ} {N : ℝ} (hn : |(n : ℝ) - N| ≤ 45 / 10 ^ 13) (hN : |N| ≤ 40000) :
    |(lambdaD F M n : ℝ) - almanacLongitude N * (Real.pi / 180)| ≤ 11 / 10 ^ 13 := by
  obtain ⟨l1, l2⟩ := linear_near F (a := 280460 / 1000) (b := 9856474 / 10000000) (by norm_num) (by norm_num) hn hN
  obtain ⟨g1, g2⟩ := anomaly_near F hn hN
  have s1 := sin_lib M g1
  have g3 : |(F.rnd (2 * anomalyD F n) : ℝ) - 2 * (almanacAnomaly N * (Real.pi / 180))| ≤ 2 / 10 ^ 12 := by
    refine rnd_real F (e := 18 / 10 ^ 13) (A := 1420) ?_ ?_ (by norm_num)
    · push_cast
      rw [← mul_sub, abs_mul, abs_two]
      linarith
    · rw [abs_mul, abs_two]; linarith
  have s2 := sin_lib M g3
  have b1 := Real.abs_sin_le_one (almanacAnomaly N * (Real.pi / 180))
  have b2 := Real.abs_sin_le_one (2 * (almanacAnomaly N * (Real.pi / 180)))
  unfold lambdaD almanacLongitude
  dsimp only
  have e : ((280460 / 1000 : ℚ) : ℝ) + ((9856474 / 10000000 : ℚ) : ℝ) * N = 280.460 + 0.9856474 * N := by push_cast; norm_num
  rw [e] at l1 l2
  generalize linearD F (280460 / 1000) (9856474 / 10000000) n = l at *
  generalize (280.460 : ℝ) + 0.9856474 * N = L at *
  generalize M.sin (anomalyD F n) = u at *
  generalize M.sin (F.rnd (2 * anomalyD F n)) = w at *
  generalize Real.sin (almanacAnomaly N * (Real.pi / 180)) = U at *
  generalize Real.sin (2 * (almanacAnomaly N * (Real.pi / 180))) = W at *
  have c1 := const_real F (1915 / 1000) (E := 3 / 10 ^ 16) (by norm_num)
  have c2 := const_real F (20 / 1000) (E := 3 / 10 ^ 16) (by norm_num)
  have m1 := mul_real c1 s1 (A := 2) (by norm_num) b1
  have m2 := mul_real c2 s2 (A := 1) (by norm_num) b2
  have k1 : |((1915 / 1000 : ℚ) : ℝ) * U| ≤ 2 := by
    rw [abs_mul]
    have := mul_le_mul (show |((1915 / 1000 : ℚ) : ℝ)| ≤ 2 by norm_num) b1 (abs_nonneg _) (by norm_num)
    linarith
  have k2 : |((20 / 1000 : ℚ) : ℝ) * W| ≤ 2 := by
    rw [abs_mul]
    have := mul_le_mul (show |((20 / 1000 : ℚ) : ℝ)| ≤ 2 by norm_num) b2 (abs_nonneg _) (by norm_num)
    linarith
  have r1 : |(F.rnd (F.rnd (1915 / 1000) * u) : ℝ) - ((1915 / 1000 : ℚ) : ℝ) * U| ≤ 2 / 10 ^ 12 := rnd_real F (by push_cast at m1 ⊢; exact m1) k1 (by norm_num)
  have r2 : |(F.rnd (F.rnd (20 / 1000) * w) : ℝ) - ((20 / 1000 : ℚ) : ℝ) * W| ≤ 3 / 10 ^ 12 := rnd_real F (by push_cast at m2 ⊢; exact m2) k2 (by norm_num)
  rw [show ((1915 / 1000 : ℚ) : ℝ) = 1.915 by norm_num] at r1 k1
  rw [show ((20 / 1000 : ℚ) : ℝ) = 0.020 by norm_num] at r2 k2
  generalize (1.915 : ℝ) * U = P at *
  generalize (0.020 : ℝ) * W = Q at *
  have r3 : |(F.rnd (l + F.rnd (F.rnd (1915 / 1000) * u)) : ℝ) - (L + P)| ≤ 26 / 10 ^ 12 := by
    refine rnd_real F (e := 21 / 10 ^ 12) (A := 40362) ?_ ((abs_add_le _ _).trans (by linarith)) (by norm_num)
    push_cast
    rw [abs_le] at l1 r1 ⊢
    constructor <;> linarith
  have hA : |L + P + Q| ≤ 40364 := (abs_add_le _ _).trans (by linarith [abs_add_le L P])
  refine radians_near F (e := 34 / 10 ^ 12) ?_ hA (by norm_num) (by norm_num)
  refine rnd_real F (e := 29 / 10 ^ 12) ?_ hA (by norm_num)
  push_cast
  rw [abs_le] at r2 r3 ⊢
  constructor <;> linarith

/-- The obliquity. -/
theorem epsilon_near (F : Fl64) {n : ℚ} {N : ℝ} (hn : |(n : ℝ) - N| ≤ 45 / 10 ^ 13) (hN : |N| ≤ 40000) :
    |(epsilonD F n : ℝ) - almanacObliquity N * (Real.pi / 180)| ≤ 1 / 10 ^ 15 ∧ |almanacObliquity N * (Real.pi / 180)| ≤ 41 / 100 := by
  unfold epsilonD almanacObliquity
  have c1 := const_real F (4 / 10000000) (E := 1 / 10 ^ 22) (by norm_num)
  have c2 := const_real F (23439 / 1000) (E := 27 / 10 ^ 16) (by norm_num)
  have m := mul_real c1 hn (A := 4 / 10 ^ 7) (by norm_num) hN
  have k : |((4 / 10000000 : ℚ) : ℝ) * N| ≤ 16 / 1000 := by
    rw [abs_mul]
    have := mul_le_mul (show |((4 / 10000000 : ℚ) : ℝ)| ≤ 4 / 10 ^ 7 by norm_num) hN (abs_nonneg _) (by norm_num)
    norm_num at this ⊢
    linarith
  have r : |(F.rnd (F.rnd (4 / 10000000) * n) : ℝ) - ((4 / 10000000 : ℚ) : ℝ) * N| ≤ 1 / 10 ^ 16 := rnd_real F (by push_cast at m ⊢; exact m) k (by norm_num)
  rw [show ((4 / 10000000 : ℚ) : ℝ) = 0.0000004 by norm_num] at r k
  rw [show ((23439 / 1000 : ℚ) : ℝ) = 23.439 by norm_num] at c2
  generalize (0.0000004 : ℝ) * N = P at *
  have hA : |23.439 - P| ≤ 2346 / 100 := by
    rw [abs_le] at k ⊢
    norm_num at k ⊢
    constructor <;> linarith
  constructor
  · refine radians_near F (e := 56 / 10 ^ 16) ?_ hA (by norm_num) (by norm_num)
    refine rnd_real F (e := 28 / 10 ^ 16) ?_ hA (by norm_num)
    push_cast
    rw [abs_le] at r c2 ⊢
    constructor <;> linarith
  · have hp := Real.pi_lt_d6
    have hp0 := Real.pi_pos
    rw [abs_mul, abs_of_pos (by positivity : (0 : ℝ) < Real.pi / 180)]
    have := mul_le_mul hA (show Real.pi / 180 ≤ 17454 / 10 ^ 6 by linarith) (by positivity) (by norm_num)
    norm_num at this ⊢
    linarith

/-! ### `atan_circ` -/

/-- An angle with the right sine and cosine is the argument, up to whole turns. -/
theorem same_angle {r θ a b : ℝ} (hr : 0 < r) (hc : r * Real.cos θ = a) (hs : r * Real.sin θ = b) : ∃ k : ℤ, θ = Complex.arg ⟨a, b⟩ + 2 * Real.pi * k := by
  have hz : (⟨a, b⟩ : ℂ) = (r : ℂ) * ⟨Real.cos θ, Real.sin θ⟩ := by
    apply Complex.ext <;> simp [hc, hs]
  have hn : ‖(⟨Real.cos θ, Real.sin θ⟩ : ℂ)‖ = 1 := by
    rw [Complex.norm_def, Complex.normSq_mk, show Real.cos θ * Real.cos θ + Real.sin θ * Real.sin θ = 1 by nlinarith [Real.sin_sq_add_cos_sq θ], Real.sqrt_one]
  rw [hz, Complex.arg_real_mul _ hr]
  have c := Complex.norm_mul_cos_arg (⟨Real.cos θ, Real.sin θ⟩ : ℂ)
  have s := Complex.norm_mul_sin_arg (⟨Real.cos θ, Real.sin θ⟩ : ℂ)
  rw [hn, one_mul] at c s
  have := Real.Angle.cos_sin_inj c s
  rw [Real.Angle.angle_eq_iff_two_pi_dvd_sub] at this
  obtain ⟨k, hk⟩ := this
  exact ⟨-k, by push_cast; linarith⟩

theorem pi_close : |(piD : ℝ) - Real.pi| ≤ 2 / 10 ^ 16 := by
  have := Real.pi_gt_d20
  have := Real.pi_lt_d20
  unfold piD
  push_cast
  rw [abs_le]
  constructor <;> linarith

/-- The quotient is as good as the point. -/
theorem quotient_near (F : Fl64) {x y : ℚ} (hx : x ≠ 0) :
    ∃ k : ℤ, |Real.arctan (F.rnd (y / x)) + (if x < 0 then Real.pi else 0) - Complex.arg ⟨x, y⟩ - 2 * Real.pi * k| ≤ 2 / 10 ^ 16 := by
  have hx' : (x : ℝ) ≠ 0 := by exact_mod_cast hx
  have hq := err_real F (y / x)
  push_cast at hq
  generalize F.rnd (y / x) = q at *
  have hxp := abs_pos.2 hx'
  have hmul : |(x : ℝ) * q - y| ≤ 1 / 2 ^ 53 * |(y : ℝ)| + 1 / 2 ^ 200 * |(x : ℝ)| := by
    rw [show (x : ℝ) * q - y = x * (q - y / x) by field_simp, abs_mul]
    refine (mul_le_mul_of_nonneg_left hq hxp.le).trans (le_of_eq ?_)
    rw [abs_div]
    field_simp
  have hZ : (⟨x, y⟩ : ℂ) ≠ 0 := by
    intro h
    exact hx' (congrArg Complex.re h)
  have n1 := Complex.abs_re_le_norm (⟨x, y⟩ : ℂ)
  have n2 := Complex.abs_im_le_norm (⟨x, y⟩ : ℂ)
  dsimp only at n1 n2
  obtain ⟨l, hl⟩ := arg_shift (z := ⟨x, x * q⟩) (Z := ⟨x, y⟩) (e := 12 / 10 ^ 17) hZ (by
    refine (Complex.norm_le_abs_re_add_abs_im _).trans ?_
    simp only [Complex.sub_re, Complex.sub_im, sub_self, abs_zero, zero_add]
    have n3 := norm_nonneg (⟨x, y⟩ : ℂ)
    norm_num at n1 n2 n3 hmul ⊢
    linarith) (by norm_num)
  have hroot : 0 < √(1 + (q : ℝ) ^ 2) := Real.sqrt_pos.2 (by positivity)
  have hang : ∃ k : ℤ, Real.arctan q + (if x < 0 then Real.pi else 0) = Complex.arg ⟨x, x * q⟩ + 2 * Real.pi * k := by
    apply same_angle (r := |(x : ℝ)| * √(1 + (q : ℝ) ^ 2)) (mul_pos hxp hroot)
    · by_cases h : x < 0
      · have h' : (x : ℝ) < 0 := by exact_mod_cast h
        rw [if_pos h, Real.cos_add_pi, Real.cos_arctan, abs_of_neg h']
        field_simp
      · have h' : (0 : ℝ) ≤ x := by exact_mod_cast not_lt.1 h
        rw [if_neg h, add_zero, Real.cos_arctan, abs_of_nonneg h']
        field_simp
    · by_cases h : x < 0
      · have h' : (x : ℝ) < 0 := by exact_mod_cast h
        rw [if_pos h, Real.sin_add_pi, Real.sin_arctan, abs_of_neg h']
        field_simp
      · have h' : (0 : ℝ) ≤ x := by exact_mod_cast not_lt.1 h
        rw [if_neg h, add_zero, Real.sin_arctan, abs_of_nonneg h']
        field_simp
  obtain ⟨k, hk⟩ := hang
  refine ⟨k + l, ?_⟩
  rw [hk]
  push_cast
  rw [abs_le] at hl ⊢
  norm_num at hl ⊢
  constructor <;> linarith

/-- The last step: a negative angle gets a turn. -/
theorem turn_near (F : Fl64) {t : ℚ} {B e : ℝ} {k : ℤ} (h1 : -4 ≤ t) (h2 : t ≤ 6) (h : |(t : ℝ) - B - 2 * Real.pi * k| ≤ e) :
    0 ≤ (if t < 0 then F.rnd (t + twopiD) else t) ∧ (if t < 0 then F.rnd (t + twopiD) else t) ≤ twopiD ∧
      ∃ j : ℤ, |((if t < 0 then F.rnd (t + twopiD) else t : ℚ) : ℝ) - B - 2 * Real.pi * j| ≤ e + 18 / 10 ^ 16 := by
  have ht := twopi_near
  have h6 : 628 / 100 ≤ twopiD ∧ twopiD ≤ 629 / 100 := by unfold twopiD; constructor <;> norm_num
  have ex : F.rnd twopiD = twopiD := by
    have := F.exact 884279719003555 47 (by norm_num) (by norm_num)
    unfold twopiD
    push_cast at this
    exact this
  by_cases hn : t < 0
  · rw [if_pos hn]
    refine ⟨F.nonneg (by linarith [h6.1]), ?_, k + 1, ?_⟩
    · have := F.mono (t + twopiD) twopiD (by linarith)
      rwa [ex] at this
    · have r : |(F.rnd (t + twopiD) : ℝ) - (t + twopiD)| ≤ 7 / 10 ^ 16 + 1 / 10 ^ 16 := by
        refine rnd_real F (e := 0) (A := 7) (by push_cast; simp) ?_ (by norm_num)
        have a1 : (-4 : ℝ) ≤ t := by exact_mod_cast h1
        have a2 : (t : ℝ) < 0 := by exact_mod_cast hn
        have a3 : (628 / 100 : ℝ) ≤ twopiD := by have : ((628 / 100 : ℚ) : ℝ) ≤ twopiD := by exact_mod_cast h6.1
                                                 push_cast at this; exact this
        have a4 : (twopiD : ℝ) ≤ 629 / 100 := by have : (twopiD : ℝ) ≤ ((629 / 100 : ℚ) : ℝ) := by exact_mod_cast h6.2
                                                 push_cast at this; exact this
        rw [abs_le]
        constructor <;> linarith
      push_cast
      rw [abs_le] at h r ht ⊢
      constructor <;> linarith
  · rw [if_neg hn]
    refine ⟨not_lt.1 hn, by linarith [h6.1], k, ?_⟩
    exact h.trans (by norm_num)

theorem atanCirc_near (F : Fl64) (M : SunLib) {x y : ℚ} (h0 : ¬(x = 0 ∧ y = 0)) :
    0 ≤ atanCircD F M x y ∧ atanCircD F M x y ≤ twopiD ∧ ∃ k : ℤ, |(atanCircD F M x y : ℝ) - Complex.arg ⟨x, y⟩ - 2 * Real.pi * k| ≤ 4 / 10 ^ 15 := by
  have hpi := pi_close
  have hp := Real.pi_gt_d6
  have hp' := Real.pi_lt_d6
  have h3 : 314 / 100 ≤ piD ∧ piD ≤ 315 / 100 := by unfold piD; constructor <;> norm_num
  have p3 : (piD : ℝ) ≤ 315 / 100 := by have : (piD : ℝ) ≤ ((315 / 100 : ℚ) : ℝ) := by exact_mod_cast h3.2
                                        push_cast at this; exact this
  have p4 : (314 / 100 : ℝ) ≤ piD := by have : ((314 / 100 : ℚ) : ℝ) ≤ piD := by exact_mod_cast h3.1
                                        push_cast at this; exact this
  have fin : ∀ {t : ℚ} {k : ℤ}, |(t : ℝ)| ≤ 6 → -4 ≤ (t : ℝ) → |(t : ℝ) - Complex.arg ⟨x, y⟩ - 2 * Real.pi * k| ≤ 22 / 10 ^ 16 →
      0 ≤ (if t < 0 then F.rnd (t + twopiD) else t) ∧ (if t < 0 then F.rnd (t + twopiD) else t) ≤ twopiD ∧
      ∃ j : ℤ, |((if t < 0 then F.rnd (t + twopiD) else t : ℚ) : ℝ) - Complex.arg ⟨x, y⟩ - 2 * Real.pi * j| ≤ 4 / 10 ^ 15 := by
    intro t k g1 g2 g3
    have g1' : t ≤ 6 := by exact_mod_cast (abs_le.1 g1).2
    have g2' : -4 ≤ t := by exact_mod_cast g2
    obtain ⟨a, b, j, c⟩ := turn_near F g2' g1' g3
    exact ⟨a, b, j, c.trans (by norm_num)⟩
  unfold atanCircD
  dsimp only
  by_cases hx : x = 0
  · rw [if_pos hx, if_neg (show ¬ x < 0 by rw [hx]; exact lt_irrefl 0)]
    have hy : y ≠ 0 := fun h => h0 ⟨hx, h⟩
    have hz : (⟨(x : ℝ), (y : ℝ)⟩ : ℂ) = ((y : ℝ) : ℂ) * Complex.I := by
      apply Complex.ext <;> simp [hx]
    by_cases hy0 : y > 0
    · rw [if_pos hy0]
      have hy' : (0 : ℝ) < y := by exact_mod_cast hy0
      refine fin (k := 0) ?_ ?_ ?_
      · push_cast; rw [abs_le]; constructor <;> linarith
      · push_cast; linarith
      · rw [hz, Complex.arg_real_mul _ hy', Complex.arg_I]
        push_cast
        rw [abs_le] at hpi ⊢
        constructor <;> linarith
    · have hy1 : y < 0 := lt_of_le_of_ne (not_lt.1 hy0) hy
      rw [if_neg hy0, if_pos hy1]
      have hy' : (y : ℝ) < 0 := by exact_mod_cast hy1
      have r : |(F.rnd (3 * (piD / 2)) : ℝ) - 3 * (Real.pi / 2)| ≤ 10 / 10 ^ 16 := by
        refine rnd_real F (e := 3 / 10 ^ 16) (A := 5) ?_ ?_ (by norm_num)
        · push_cast
          rw [abs_le] at hpi ⊢
          constructor <;> linarith
        · rw [abs_le]; constructor <;> linarith
      obtain ⟨r1, r2⟩ := abs_le.1 r
      norm_num at r1 r2
      refine fin (k := 1) ?_ ?_ ?_
      · rw [abs_le]; constructor <;> linarith
      · linarith
      · rw [hz, show ((y : ℝ) : ℂ) * Complex.I = ((-y : ℝ) : ℂ) * (-Complex.I) by push_cast; ring, Complex.arg_real_mul _ (by linarith), Complex.arg_neg_I]
        push_cast
        rw [abs_le]
        constructor <;> linarith
  · rw [if_neg hx]
    obtain ⟨k, hk⟩ := quotient_near F (y := y) hx
    have ha := M.atan_err (F.rnd (y / x))
    have b1 := Real.neg_pi_div_two_lt_arctan (F.rnd (y / x) : ℝ)
    have b2 := Real.arctan_lt_pi_div_two (F.rnd (y / x) : ℝ)
    generalize M.atan (F.rnd (y / x)) = a at *
    generalize Real.arctan (F.rnd (y / x) : ℝ) = A at *
    have hA : |A| ≤ 16 / 10 := by rw [abs_le]; constructor <;> linarith
    have ha1 : |(a : ℝ) - A| ≤ 4 / 10 ^ 16 := ha.trans (by norm_num; linarith)
    obtain ⟨a1, a2⟩ := abs_le.1 ha1
    by_cases hn : x < 0
    · rw [if_pos hn]
      rw [if_pos hn] at hk
      have r : |(F.rnd (a + piD) : ℝ) - (A + Real.pi)| ≤ 12 / 10 ^ 16 := by
        refine rnd_real F (e := 6 / 10 ^ 16) (A := 5) ?_ ?_ (by norm_num)
        · push_cast
          rw [abs_le] at hpi ⊢
          constructor <;> linarith
        · rw [abs_le]; constructor <;> linarith
      have r' := r
      obtain ⟨r1, r2⟩ := abs_le.1 r'
      norm_num at r1 r2
      refine fin (k := k) ?_ ?_ ?_
      · rw [abs_le]; constructor <;> linarith
      · linarith
      · rw [abs_le] at r hk ⊢
        constructor <;> linarith
    · rw [if_neg hn]
      rw [if_neg hn] at hk
      norm_num at a1 a2
      refine fin (k := k) ?_ ?_ ?_
      · rw [abs_le]; constructor <;> linarith
      · linarith
      · rw [abs_le] at ha1 hk ⊢
        constructor <;> linarith

/-! ### The direction of the Sun -/

/-- The components of the direction. -/
theorem sun_components (F : Fl64) (M : Libm) {n : ℚ} {N : ℝ} {v : V3} (hv : v = eclipticDir (almanacLongitude N) (almanacObliquity N))
    (hn : |(n : ℝ) - N| ≤ 45 / 10 ^ 13) (hN : |N| ≤ 40000) :
    |(M.cos (lambdaD F M n) : ℝ) - v.x| ≤ 12 / 10 ^ 13 ∧ |(F.rnd (M.cos (epsilonD F n) * M.sin (lambdaD F M n)) : ℝ) - v.y| ≤ 12 / 10 ^ 13 ∧
      |(F.rnd (M.sin (epsilonD F n) * M.sin (lambdaD F M n)) : ℝ) - v.z| ≤ 12 / 10 ^ 13 ∧ |v.z| ≤ 41 / 100 := by
  have l := lambda_near F M hn hN
  obtain ⟨e, e'⟩ := epsilon_near F hn hN
  rw [hv]
  unfold eclipticDir
  dsimp only
  generalize lambdaD F M n = la at *
  generalize epsilonD F n = ep at *
  generalize almanacLongitude N * (Real.pi / 180) = L at *
  generalize almanacObliquity N * (Real.pi / 180) = E at *
  have c1 := cos_lib M l
  have c2 := sin_lib M l
  have c3 := cos_lib M e
  have c4 := sin_lib M e
  have b1 := Real.abs_sin_le_one L
  have b2 := Real.abs_cos_le_one E
  have b3 := Real.abs_sin_le_one E
  have b4 : |Real.sin E| ≤ 41 / 100 := Real.abs_sin_le_abs.trans e'
  refine ⟨c1.trans (by norm_num), ?_, ?_, ?_⟩
  · have m := prod_real c3 c2 b2 b1
    have q : |Real.cos E * Real.sin L| ≤ 1 := by rw [abs_mul]; exact mul_le_one₀ b2 (abs_nonneg _) b1
    exact rnd_real F (by push_cast; exact m) q (by norm_num)
  · have m := prod_real c4 c2 b3 b1
    have q : |Real.sin E * Real.sin L| ≤ 1 := by rw [abs_mul]; exact mul_le_one₀ b3 (abs_nonneg _) b1
    exact rnd_real F (by push_cast; exact m) q (by norm_num)
  · rw [abs_mul]
    have := mul_le_mul b4 b1 (abs_nonneg _) (by norm_num)
    linarith

/-- Right ascension and declination of the Sun. -/
theorem C191_sun (F : Fl64) (M : SunLib) {jd : ℚ} {RA DEC : ℝ} (hj : |jd - 2451545| ≤ 40000) (hd : dir RA DEC = sunDir jd) (hD : |DEC| ≤ Real.pi / 2) :
    ∃ ra dec, sunD F M jd = some (ra, dec) ∧ 0 ≤ ra ∧ ra ≤ twopiD ∧ (∃ k : ℤ, |(ra : ℝ) - RA - 2 * Real.pi * k| ≤ 5 / 10 ^ 12) ∧
      |(dec : ℝ) - DEC| ≤ 2 / 10 ^ 12 := by
  have hN : |(jd : ℝ) - 2451545| ≤ 40000 := by simpa using abs_real hj
  have hn : |(F.rnd (jd - 2451545) : ℝ) - (jd - 2451545)| ≤ 45 / 10 ^ 13 := rnd_real F (e := 0) (by push_cast; simp) hN (by norm_num)
  obtain ⟨hx, hy, hz, hz1⟩ := sun_components F M.toLibm (v := dir RA DEC) hd hn hN
  unfold sunD
  dsimp only
  generalize M.cos (lambdaD F M.toLibm (F.rnd (jd - 2451545))) = x at *
  generalize F.rnd (M.cos (epsilonD F (F.rnd (jd - 2451545))) * M.sin (lambdaD F M.toLibm (F.rnd (jd - 2451545)))) = y at *
  generalize F.rnd (M.sin (epsilonD F (F.rnd (jd - 2451545))) * M.sin (lambdaD F M.toLibm (F.rnd (jd - 2451545)))) = z at *
  unfold dir at hx hy hz hz1
  dsimp only at hx hy hz hz1
  obtain ⟨D1, D2⟩ := abs_le.1 hD
  have hc0 : 0 ≤ Real.cos DEC := Real.cos_nonneg_of_mem_Icc ⟨by linarith, D2⟩
  have hc : 9 / 10 ≤ Real.cos DEC := by
    have := Real.sin_sq_add_cos_sq DEC
    obtain ⟨s1, s2⟩ := abs_le.1 hz1
    nlinarith
  have hzr : |(z : ℝ)| ≤ 42 / 100 := by
    rw [abs_le] at hz hz1 ⊢
    norm_num at hz ⊢
    constructor <;> linarith
  have hz' : |z| ≤ 1 := by
    have : |(z : ℝ)| ≤ 1 := by linarith
    exact_mod_cast this
  rw [if_pos hz']
  refine ⟨_, _, rfl, ?_⟩
  have hne : ¬(x = 0 ∧ y = 0) := by
    rintro ⟨rfl, rfl⟩
    push_cast at hx hy
    have := Real.sin_sq_add_cos_sq RA
    rw [zero_sub, abs_neg] at hx hy
    have t1 : |Real.cos RA| ≤ 1 / 10 := by
      rw [abs_mul, abs_of_nonneg hc0] at hx
      have := abs_nonneg (Real.cos RA)
      norm_num at hx
      nlinarith
    have t2 : |Real.sin RA| ≤ 1 / 10 := by
      rw [abs_mul, abs_of_nonneg hc0] at hy
      have := abs_nonneg (Real.sin RA)
      norm_num at hy
      nlinarith
    obtain ⟨a1, a2⟩ := abs_le.1 t1
    obtain ⟨a3, a4⟩ := abs_le.1 t2
    nlinarith
  obtain ⟨r0, r1, k, hk⟩ := atanCirc_near F M hne
  obtain ⟨m, hm⟩ := same_angle (θ := RA) (lt_of_lt_of_le (by norm_num) hc) rfl rfl
  have hnorm : ‖(⟨Real.cos DEC * Real.cos RA, Real.cos DEC * Real.sin RA⟩ : ℂ)‖ = Real.cos DEC := by
    rw [Complex.norm_def, Complex.normSq_mk,
      show Real.cos DEC * Real.cos RA * (Real.cos DEC * Real.cos RA) + Real.cos DEC * Real.sin RA * (Real.cos DEC * Real.sin RA) = Real.cos DEC ^ 2 by
        linear_combination (Real.cos DEC) ^ 2 * Real.sin_sq_add_cos_sq RA, Real.sqrt_sq hc0]
  obtain ⟨l, hl⟩ := arg_shift (z := ⟨x, y⟩) (Z := ⟨Real.cos DEC * Real.cos RA, Real.cos DEC * Real.sin RA⟩) (e := 27 / 10 ^ 13)
    (by rw [← norm_pos_iff, hnorm]; linarith) (by
    rw [hnorm]
    refine (Complex.norm_le_abs_re_add_abs_im _).trans ?_
    simp only [Complex.sub_re, Complex.sub_im]
    refine (add_le_add hx hy).trans ?_
    norm_num
    linarith) (by norm_num)
  refine ⟨r0, r1, ⟨k + l - m, ?_⟩, ?_⟩
  · generalize Complex.arg (⟨Real.cos DEC * Real.cos RA, Real.cos DEC * Real.sin RA⟩ : ℂ) = B at *
    push_cast
    rw [abs_le] at hk hl ⊢
    norm_num at hk hl ⊢
    constructor <;> linarith
  · have h1 := M.asin_err z hz'
    have h2 := arcsin_mid (x := z) (y := Real.sin DEC) (m := 42 / 100) (k := 111 / 100) hzr (by linarith) (by norm_num) (by norm_num) (by norm_num)
    rw [Real.arcsin_sin D1 D2] at h2
    have h3 : |Real.arcsin (z : ℝ)| ≤ 2 := by
      have := Real.pi_lt_d6
      have a := Real.neg_pi_div_two_le_arcsin (z : ℝ)
      have b := Real.arcsin_le_pi_div_two (z : ℝ)
      rw [abs_le]
      constructor <;> linarith
    have h4 := abs_sub_le (M.asin z : ℝ) (Real.arcsin z) DEC
    norm_num at *
    linarith

/-! ### The place of the Sun, and the shadow -/

/-- The place of the Sun in km. -/
theorem C191_place (F : Fl64) (M : SunLib) {jd : ℚ} (hj : |jd - 2451545| ≤ 40000) :
    ∃ ra dec, sunD F M jd = some (ra, dec) ∧ |((sunKmD F M.toLibm ra dec).1 : ℝ) - AU_KM * (sunDir jd).x| ≤ 11 / 10 ^ 4 ∧
      |((sunKmD F M.toLibm ra dec).2.1 : ℝ) - AU_KM * (sunDir jd).y| ≤ 11 / 10 ^ 4 ∧ |((sunKmD F M.toLibm ra dec).2.2 : ℝ) - AU_KM * (sunDir jd).z| ≤ 11 / 10 ^ 4 := by
  obtain ⟨_, ⟨d1, d2⟩, hdir⟩ := C72_sun_direction jd (ra := (lpsun_radec jd).1) (dec := (lpsun_radec jd).2) rfl
  generalize (lpsun_radec jd).1 = RA at *
  generalize (lpsun_radec jd).2 = DEC at *
  obtain ⟨ra, dec, e, _, _, ⟨k, hk⟩, hd⟩ := C191_sun F M hj hdir (abs_le.2 ⟨d1, d2⟩)
  refine ⟨ra, dec, e, ?_⟩
  rw [← hdir]
  have hk' : |(ra : ℝ) - (RA + k * (2 * Real.pi))| ≤ 5 / 10 ^ 12 := by
    rw [show (ra : ℝ) - (RA + k * (2 * Real.pi)) = ra - RA - 2 * Real.pi * k by ring]; exact hk
  have c1 := cos_lib M.toLibm hk'
  have s1 := sin_lib M.toLibm hk'
  rw [Real.cos_add_int_mul_two_pi] at c1
  rw [Real.sin_add_int_mul_two_pi] at s1
  have c2 := cos_lib M.toLibm hd
  have s2 := sin_lib M.toLibm hd
  have b1 := Real.abs_cos_le_one RA
  have b2 := Real.abs_sin_le_one RA
  have b3 := Real.abs_cos_le_one DEC
  have b4 := Real.abs_sin_le_one DEC
  have au := const_real F (1495978707 / 10) (E := 17 / 10 ^ 9) (by norm_num)
  have ea : ((1495978707 / 10 : ℚ) : ℝ) = AU_KM := by unfold AU_KM; norm_num
  rw [ea] at au
  have hau : |AU_KM| ≤ 1496 * 10 ^ 5 := by unfold AU_KM; norm_num
  have fin : ∀ {x : ℚ} {X : ℝ}, |(x : ℝ) - X| ≤ 71 / 10 ^ 13 → |X| ≤ 1 → |(F.rnd (x * F.rnd (1495978707 / 10)) : ℝ) - AU_KM * X| ≤ 11 / 10 ^ 4 := by
    intro x X h hX
    have m := mul_real h au hX hau
    rw [mul_comm AU_KM]
    refine rnd_real F (by push_cast at m ⊢; exact m) (A := 1496 * 10 ^ 5) ?_ (by norm_num)
    rw [abs_mul]
    have := mul_le_mul hX hau (abs_nonneg _) (by norm_num)
    linarith
  unfold sunKmD dir
  dsimp only
  refine ⟨fin ?_ (by rw [abs_mul]; exact mul_le_one₀ b3 (abs_nonneg _) b1), fin ?_ (by rw [abs_mul]; exact mul_le_one₀ b3 (abs_nonneg _) b2),
    fin (s2.trans (by norm_num)) b4⟩
  · rw [mul_comm (Real.cos DEC)]
    have q : |Real.cos RA * Real.cos DEC| ≤ 1 := by rw [abs_mul]; exact mul_le_one₀ b1 (abs_nonneg _) b3
    exact rnd_real F (by push_cast; exact prod_real c1 c2 b1 b3) q (by norm_num)
  · rw [mul_comm (Real.cos DEC)]
    have q : |Real.sin RA * Real.cos DEC| ≤ 1 := by rw [abs_mul]; exact mul_le_one₀ b2 (abs_nonneg _) b3
    exact rnd_real F (by push_cast; exact prod_real s1 c2 b2 b3) q (by norm_num)

/-- A ray is little changed when its far end is moved a little. -/
theorem ray_moves {R δ ε : ℝ} {p q q' : V3} (h : RayMeets R p q) (hp : p.len ≤ 87000) (hR : R ≤ 6400) (hq : 149 * 10 ^ 6 ≤ (q.sub p).len)
    (hd : (q'.sub q).len ≤ δ) (hε : 627 / 10 ^ 6 * δ ≤ ε) : RayMeets (R + ε) p q' := by
  obtain ⟨t, ht, hm⟩ := h
  refine ⟨t, ht, ?_⟩
  have hsm : ∀ v : V3, (V3.smul t v).len = t * v.len := by
    intro v
    unfold V3.len
    rw [show (V3.smul t v).dot (V3.smul t v) = t ^ 2 * v.dot v by unfold V3.smul V3.dot; dsimp only; ring, Real.sqrt_mul (sq_nonneg t), Real.sqrt_sq ht]
  have e : p.add (V3.smul t (q'.sub p)) = (p.add (V3.smul t (q.sub p))).add (V3.smul t (q'.sub q)) := by
    unfold V3.add V3.smul V3.sub
    ext <;> dsimp only <;> ring
  have e2 : V3.smul t (q.sub p) = (p.add (V3.smul t (q.sub p))).add (V3.smul (-1) p) := by
    unfold V3.add V3.smul V3.sub
    ext <;> dsimp only <;> ring
  have hneg : (V3.smul (-1) p).len = p.len := by
    unfold V3.len V3.smul V3.dot
    dsimp only
    congr 1
    ring
  have h1 : t * (q.sub p).len ≤ 93400 := by
    rw [← hsm, e2]
    refine (len_add_le _ _).trans ?_
    rw [hneg]
    linarith
  have ht1 : t ≤ 627 / 10 ^ 6 := by
    by_contra hc
    push Not at hc
    have := mul_le_mul hc.le hq (by norm_num) ht
    norm_num at this
    linarith
  have hδ : 0 ≤ (q'.sub q).len := Real.sqrt_nonneg _
  rw [e]
  refine (len_add_le _ _).trans ?_
  rw [hsm]
  have : t * (q'.sub q).len ≤ 627 / 10 ^ 6 * δ := mul_le_mul ht1 hd hδ (by norm_num)
  linarith

/-- The sunlit flag from date and place: right except within 2 mm of grazing. -/
theorem C192_sunlit (F : Fl64) (M : SunLib) {jd s0 s1 s2 : ℚ} (hj : |jd - 2451545| ≤ 40000) (h0 : |(s0 : ℝ)| ≤ 50000) (h1 : |(s1 : ℝ)| ≤ 50000)
    (h2 : |(s2 : ℝ)| ≤ 50000) (hs : ERAD + 1 ≤ (⟨s0, s1, s2⟩ : V3).len) :
    ∃ f, eclipsedD F M jd s0 s1 s2 = some f ∧ (RayMeets (ERAD - 2 / 10 ^ 6) ⟨s0, s1, s2⟩ (V3.smul AU_KM (sunDir jd)) → f = 1) ∧
      (¬ RayMeets (ERAD + 2 / 10 ^ 6) ⟨s0, s1, s2⟩ (V3.smul AU_KM (sunDir jd)) → f = 0) := by
  obtain ⟨ra, dec, e, q0, q1, q2⟩ := C191_place F M hj
  have hlen : (V3.smul AU_KM (sunDir jd)).len = AU_KM := by
    obtain ⟨_, _, hdir⟩ := C72_sun_direction jd (ra := (lpsun_radec jd).1) (dec := (lpsun_radec jd).2) rfl
    have := (C72_sun_vector (lpsun_radec jd).1 (lpsun_radec jd).2).2
    rw [(C72_sun_vector (lpsun_radec jd).1 (lpsun_radec jd).2).1, hdir] at this
    exact this
  unfold eclipsedD
  rw [e, Option.map_some]
  refine ⟨_, rfl, ?_⟩
  dsimp only
  generalize sunKmD F M.toLibm ra dec = q at *
  generalize hS : V3.smul AU_KM (sunDir jd) = S at *
  have hx : AU_KM * (sunDir jd).x = S.x := by rw [← hS]; rfl
  have hy : AU_KM * (sunDir jd).y = S.y := by rw [← hS]; rfl
  have hz : AU_KM * (sunDir jd).z = S.z := by rw [← hS]; rfl
  rw [hx] at q0
  rw [hy] at q1
  rw [hz] at q2
  have hau : AU_KM = 1495978707 / 10 := rfl
  have hE1 : ERAD = 63781366 / 10000 := rfl
  have sq : ∀ {a b : ℝ}, |a| ≤ b → a * a ≤ b * b := fun {a b} h => by
    rw [← abs_mul_abs_self]; exact mul_le_mul h h (abs_nonneg _) ((abs_nonneg _).trans h)
  have hp : (⟨s0, s1, s2⟩ : V3).len ≤ 87000 := by
    refine Real.sqrt_le_iff.2 ⟨by norm_num, ?_⟩
    unfold V3.dot
    dsimp only
    have := sq h0
    have := sq h1
    have := sq h2
    linarith
  have hd : ((⟨q.1, q.2.1, q.2.2⟩ : V3).sub S).len ≤ 2 / 10 ^ 3 := by
    refine Real.sqrt_le_iff.2 ⟨by norm_num, ?_⟩
    unfold V3.dot V3.sub
    dsimp only
    have := sq q0
    have := sq q1
    have := sq q2
    norm_num at *
    linarith
  have hd' : (S.sub ⟨q.1, q.2.1, q.2.2⟩).len ≤ 2 / 10 ^ 3 := by
    refine le_trans (le_of_eq ?_) hd
    unfold V3.len V3.dot V3.sub
    dsimp only
    congr 1
    ring
  have far : ∀ {u p : V3}, u.len ≤ (u.sub p).len + p.len := by
    intro u p
    have : u = (u.sub p).add p := by unfold V3.sub V3.add; ext <;> dsimp only <;> ring
    calc u.len = ((u.sub p).add p).len := by rw [← this]
      _ ≤ _ := len_add_le _ _
  have f1 : 149 * 10 ^ 6 ≤ (S.sub ⟨s0, s1, s2⟩).len := by
    have := far (u := S) (p := ⟨s0, s1, s2⟩)
    rw [hlen, hau] at this
    norm_num at *
    linarith
  have f2 : 149 * 10 ^ 6 ≤ ((⟨q.1, q.2.1, q.2.2⟩ : V3).sub ⟨s0, s1, s2⟩).len := by
    have a := far (u := S) (p := ⟨q.1, q.2.1, q.2.2⟩)
    have b := far (u := ⟨q.1, q.2.1, q.2.2⟩) (p := ⟨s0, s1, s2⟩)
    rw [hlen, hau] at a
    norm_num at *
    linarith
  have bound : ∀ {a b : ℝ}, |a - b| ≤ 11 / 10 ^ 4 → b * b ≤ AU_KM * AU_KM → |a| ≤ 153 * 10 ^ 6 := by
    intro a b h hb
    have : |b| ≤ AU_KM := abs_le_of_sq_le_sq (by linarith) (by rw [hau]; norm_num)
    rw [hau] at this
    have := abs_sub_abs_le_abs_sub a b
    norm_num at *
    linarith
  have hnn : S.x * S.x + S.y * S.y + S.z * S.z = AU_KM * AU_KM := by
    have : √(S.x * S.x + S.y * S.y + S.z * S.z) = AU_KM := hlen
    rw [← this, Real.mul_self_sqrt (add_nonneg (add_nonneg (mul_self_nonneg _) (mul_self_nonneg _)) (mul_self_nonneg _))]
  have n0 := mul_self_nonneg S.x
  have n1 := mul_self_nonneg S.y
  have n2 := mul_self_nonneg S.z
  obtain ⟨g1, g2⟩ := C188_shadow F M.toLibm h0 h1 h2 (bound q0 (by linarith)) (bound q1 (by linarith)) (bound q2 (by linarith)) hs
    (by norm_num at f2 ⊢; linarith)
  constructor
  · intro h
    apply g1
    have := ray_moves (q' := ⟨q.1, q.2.1, q.2.2⟩) (ε := 1254 / 10 ^ 9) h hp (by rw [hE1]; norm_num) f1 hd (by norm_num)
    obtain ⟨t, t0, t1⟩ := this
    exact ⟨t, t0, t1.trans (by norm_num; linarith)⟩
  · intro h
    apply g2
    intro hm
    apply h
    have := ray_moves (q' := S) (ε := 1254 / 10 ^ 9) hm hp (by rw [hE1]; norm_num) f2 hd' (by norm_num)
    obtain ⟨t, t0, t1⟩ := this
    exact ⟨t, t0, t1.trans (by norm_num; linarith)⟩

/-! ### Examples -/

/-- There are such libraries. -/
noncomputable def sunLib : SunLib where
  toLibm := bestLib
  atan x := rounded (Real.arctan x)
  atan_err x := rounded_err _ (by norm_num)

/-- High above the north pole the Sun never sets. -/
example {jd : ℚ} (hj : |jd - 2451545| ≤ 40000) : eclipsedD Fl64.ieee sunLib jd 0 0 42000 = some 0 := by
  have hE1 : ERAD = 63781366 / 10000 := rfl
  have hau : AU_KM = 1495978707 / 10 := rfl
  obtain ⟨f, e, _, h⟩ := C192_sunlit Fl64.ieee sunLib hj (s0 := 0) (s1 := 0) (s2 := 42000) (by norm_num) (by norm_num) (by norm_num) (by
    refine Real.le_sqrt_of_sq_le ?_
    rw [hE1]
    unfold V3.dot
    norm_num)
  rw [e, h]
  rintro ⟨t, t0, hm⟩
  rw [len_le_iff (by rw [hE1]; norm_num), hE1] at hm
  have hN : |(jd : ℝ) - 2451545| ≤ 40000 := by simpa using abs_real hj
  have hz := (sun_components Fl64.ieee bestLib (v := sunDir jd) (n := jd - 2451545) rfl (by push_cast; rw [sub_self, abs_zero]; norm_num) hN).2.2.2
  obtain ⟨_, _, hdir⟩ := C72_sun_direction jd (ra := (lpsun_radec jd).1) (dec := (lpsun_radec jd).2) rfl
  have hu := dot_dir_self (lpsun_radec jd).1 (lpsun_radec jd).2
  rw [hdir] at hu
  unfold V3.add V3.smul V3.sub V3.dot at hm
  unfold V3.dot at hu
  dsimp only at hm
  rw [hau] at hm
  push_cast at hm
  obtain ⟨z1, z2⟩ := abs_le.1 hz
  generalize (sunDir jd).x = x at *
  generalize (sunDir jd).y = y at *
  generalize (sunDir jd).z = z at *
  have hw : 0 ≤ t * (1495978707 / 10) := by positivity
  have e1 : (t * (1495978707 / 10 * x)) ^ 2 + (t * (1495978707 / 10 * y)) ^ 2 = (t * (1495978707 / 10)) ^ 2 * (1 - z ^ 2) := by
    linear_combination (t * (1495978707 / 10)) ^ 2 * hu
  by_cases ht : t ≤ 1 / 10000
  · generalize hW : t * (1495978707 / 10) = w at *
    have e2 : (42000 + t * (1495978707 / 10 * z - 42000)) = 42000 * (1 - t) + w * z := by rw [← hW]; ring
    have e3 : (42000 * (1 - t) + w * z) ^ 2 + w ^ 2 * (1 - z ^ 2) ≤ (63781366 / 10000 + 2 / 10 ^ 6) * (63781366 / 10000 + 2 / 10 ^ 6) := by
      rw [← e1, ← e2]
      refine le_trans (le_of_eq ?_) hm
      ring
    nlinarith [sq_nonneg (w + 42000 * (1 - t) * z), mul_self_nonneg z]
  · push Not at ht
    have hw2 : 14959 ≤ t * (1495978707 / 10) := by nlinarith
    have e3 : (t * (1495978707 / 10)) ^ 2 * (1 - z ^ 2) ≤ (63781366 / 10000 + 2 / 10 ^ 6) * (63781366 / 10000 + 2 / 10 ^ 6) := by
      rw [← e1]
      nlinarith [mul_self_nonneg (42000 + t * (1495978707 / 10 * z - 42000))]
    generalize t * (1495978707 / 10) = w at *
    have : z ^ 2 ≤ 17 / 100 := by nlinarith
    nlinarith

/-- Behind the Earth as the Sun stands at noon of January 1st, 2000. -/
theorem opposite_close {S C P Q : ℝ} (s2 : 0 ≤ S) (s1 : S ≤ 22 / 100) (k1 : 97 / 100 ≤ C) (s4 : C ≤ 1) (k2 : 91 / 100 ≤ P) (t4 : P ≤ 1)
    (k3 : 38 / 100 ≤ Q) (k4 : Q ≤ 41 / 100) :
    (0 + 1 / 20000 * (1495978707 / 10 * S - 0)) * (0 + 1 / 20000 * (1495978707 / 10 * S - 0)) +
        (7000 + 1 / 20000 * (1495978707 / 10 * (P * -C) - 7000)) * (7000 + 1 / 20000 * (1495978707 / 10 * (P * -C) - 7000)) +
      (3000 + 1 / 20000 * (1495978707 / 10 * (Q * -C) - 3000)) * (3000 + 1 / 20000 * (1495978707 / 10 * (Q * -C) - 3000)) ≤
    (63781366 / 10000 - 2 / 10 ^ 6) * (63781366 / 10000 - 2 / 10 ^ 6) := by
  have y1 : 88 / 100 ≤ P * C := le_trans (by norm_num) (mul_le_mul k2 k1 (by norm_num) (by linarith))
  have y2 : P * C ≤ 1 := mul_le_one₀ t4 (by linarith) s4
  have z1 : 36 / 100 ≤ Q * C := le_trans (by norm_num) (mul_le_mul k3 k1 (by norm_num) (by linarith))
  have z2 : Q * C ≤ 41 / 100 := le_trans (mul_le_mul k4 s4 (by linarith) (by norm_num)) (by norm_num)
  rw [show P * -C = -(P * C) by ring, show Q * -C = -(Q * C) by ring]
  generalize P * C = Y at *
  generalize Q * C = Z at *
  have q1 : |0 + 1 / 20000 * (1495978707 / 10 * S - 0)| ≤ 1700 := abs_le.2 ⟨by linarith, by linarith⟩
  have q2 : |7000 + 1 / 20000 * (1495978707 / 10 * -Y - 7000)| ≤ 1700 := abs_le.2 ⟨by linarith, by linarith⟩
  have q3 : |3000 + 1 / 20000 * (1495978707 / 10 * -Z - 3000)| ≤ 1700 := abs_le.2 ⟨by linarith, by linarith⟩
  have r1 := abs_le_iff_mul_self_le.1 (q1.trans_eq (abs_of_pos (by norm_num : (0 : ℝ) < 1700)).symm)
  have r2 := abs_le_iff_mul_self_le.1 (q2.trans_eq (abs_of_pos (by norm_num : (0 : ℝ) < 1700)).symm)
  have r3 := abs_le_iff_mul_self_le.1 (q3.trans_eq (abs_of_pos (by norm_num : (0 : ℝ) < 1700)).symm)
  linarith

/-- At noon of January 1st, 2000, the Sun stands below the equator, and a satellite opposite to it is in the shadow. -/
example : eclipsedD Fl64.ieee sunLib 2451545 0 7000 3000 = some 1 := by
  have hE1 : ERAD = 63781366 / 10000 := rfl
  have hau : AU_KM = 1495978707 / 10 := rfl
  obtain ⟨f, e, h, _⟩ := C192_sunlit Fl64.ieee sunLib (jd := 2451545) (by norm_num) (s0 := 0) (s1 := 7000) (s2 := 3000) (by norm_num) (by norm_num) (by norm_num) (by
    refine Real.le_sqrt_of_sq_le ?_
    rw [hE1]
    unfold V3.dot
    norm_num)
  rw [e, h]
  refine ⟨1 / 20000, by norm_num, ?_⟩
  rw [len_le_iff (by rw [hE1]; norm_num), hE1]
  unfold V3.add V3.smul V3.sub V3.dot sunDir eclipticDir almanacLongitude almanacObliquity
  dsimp only
  rw [hau]
  push_cast
  have hp := Real.pi_gt_d6
  have hp' := Real.pi_lt_d6
  have b1 := Real.abs_sin_le_one (almanacAnomaly (2451545 - 2451545) * (Real.pi / 180))
  have b2 := Real.abs_sin_le_one (2 * (almanacAnomaly (2451545 - 2451545) * (Real.pi / 180)))
  generalize Real.sin (almanacAnomaly (2451545 - 2451545) * (Real.pi / 180)) = a at *
  generalize Real.sin (2 * (almanacAnomaly (2451545 - 2451545) * (Real.pi / 180))) = b at *
  obtain ⟨a1, a2⟩ := abs_le.1 b1
  obtain ⟨a3, a4⟩ := abs_le.1 b2
  have eL : (280.460 + 0.9856474 * (2451545 - 2451545) + 1.915 * a + 0.020 * b) * (Real.pi / 180) =
      (10.46 + 1.915 * a + 0.020 * b) * (Real.pi / 180) - Real.pi / 2 + 2 * Real.pi := by ring
  have eE : (23.439 - 0.0000004 * (2451545 - 2451545)) * (Real.pi / 180) = 23.439 * (Real.pi / 180) := by ring
  rw [eL, eE, Real.cos_add_two_pi, Real.sin_add_two_pi, Real.cos_sub_pi_div_two, Real.sin_sub_pi_div_two]
  have hd1 : (10.46 + 1.915 * a + 0.020 * b) * (Real.pi / 180) ≤ 22 / 100 := by nlinarith
  have hd0 : 0 ≤ (10.46 + 1.915 * a + 0.020 * b) * (Real.pi / 180) := by
    apply mul_nonneg <;> linarith
  generalize (10.46 + 1.915 * a + 0.020 * b) * (Real.pi / 180) = d at *
  have s1 := Real.sin_le hd0
  have s2 := Real.sin_nonneg_of_nonneg_of_le_pi hd0 (by linarith)
  have s3 := Real.one_sub_sq_div_two_le_cos (x := d)
  have s4 := Real.cos_le_one d
  have he1 : 23.439 * (Real.pi / 180) ≤ 41 / 100 := by linarith
  have he0 : 40 / 100 ≤ 23.439 * (Real.pi / 180) := by linarith
  generalize 23.439 * (Real.pi / 180) = ε at *
  have t1 := Real.sin_le (show 0 ≤ ε by linarith)
  have t2 := Real.sin_gt_sub_cube (x := ε) (by linarith)
  have t3 := Real.one_sub_sq_div_two_le_cos (x := ε)
  have t4 := Real.cos_le_one ε
  have k1 : 97 / 100 ≤ Real.cos d := by nlinarith
  have k2 : 91 / 100 ≤ Real.cos ε := by nlinarith
  have k3 : 38 / 100 ≤ Real.sin ε := by nlinarith [sq_nonneg ε]
  have k4 : Real.sin ε ≤ 41 / 100 := by linarith
  generalize Real.cos d = C at *
  generalize Real.sin d = S at *
  generalize Real.cos ε = P at *
  generalize Real.sin ε = Q at *
  exact opposite_close s2 (s1.trans hd1) k1 s4 k2 t4 k3 k4

end SatSky.Props
