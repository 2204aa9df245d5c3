import Verif.Lemmas.Relative
import Verif.Lemmas.TrigNum
import Verif.Model.AltDouble
import Verif.Props.SepDouble
import Verif.Props.SiderealDouble
import Verif.Props.TopoDouble

/-! C180: the altitude in `double` arithmetic. -/

namespace SatSky.Props

open SatSky.Spec SatSky.Geo SatSky.Relative

theorem prod_real {x X y Y e f : ℝ} (hx : |x - X| ≤ e) (hy : |y - Y| ≤ f) (hX : |X| ≤ 1) (hY : |Y| ≤ 1) : |x * y - X * Y| ≤ e + f + e * f := by
  rw [show x * y - X * Y = (x - X) * Y + X * (y - Y) + (x - X) * (y - Y) by ring]
  have he := (abs_nonneg _).trans hx
  have hf := (abs_nonneg _).trans hy
  have h1 : |(x - X) * Y| ≤ e * 1 := by rw [abs_mul]; exact mul_le_mul hx hY (abs_nonneg _) he
  have h2 : |X * (y - Y)| ≤ 1 * f := by rw [abs_mul]; exact mul_le_mul hX hy (abs_nonneg _) (by norm_num)
  have h3 : |(x - X) * (y - Y)| ≤ e * f := by rw [abs_mul]; exact mul_le_mul hx hy (abs_nonneg _) he
  have h4 := abs_add_le ((x - X) * Y + X * (y - Y)) ((x - X) * (y - Y))
  have h5 := abs_add_le ((x - X) * Y) (X * (y - Y))
  linarith

theorem rnd_real (F : Fl64) {z : ℚ} {Z e A E : ℝ} (h : |(z : ℝ) - Z| ≤ e) (hZ : |Z| ≤ A) (hE : e + (A + e) / 2 ^ 53 + 1 / 2 ^ 200 ≤ E) : |(F.rnd z : ℝ) - Z| ≤ E := by
  have h1 := err_real F z
  have h2 := abs_sub_abs_le_abs_sub (z : ℝ) Z
  have h3 := abs_sub_le (F.rnd z : ℝ) z Z
  have h4 : |(z : ℝ)| / 2 ^ 53 ≤ (A + e) / 2 ^ 53 := div_le_div_of_nonneg_right (by linarith) (by positivity)
  linarith

theorem d2r_near : |(d2rD : ℝ) - Real.pi / 180| ≤ 3 / 10 ^ 19 * 10 := by
  have := Real.pi_gt_d20
  have := Real.pi_lt_d20
  unfold d2rD
  push_cast
  rw [abs_le]
  constructor <;> linarith

/-- The latitude in radians. -/
theorem lat_near (F : Fl64) {l : ℚ} (h : |l| ≤ 90) : |(F.rnd (l * d2rD) : ℝ) - l * (Real.pi / 180)| ≤ 5 / 10 ^ 16 := by
  have hd := d2r_near
  have h' : |(l : ℝ)| ≤ 90 := by exact_mod_cast h
  have hp := Real.pi_lt_d2
  have hp0 := Real.pi_pos
  refine rnd_real F (e := 90 * (3 / 10 ^ 19 * 10)) (A := 158 / 100) ?_ ?_ (by norm_num)
  · push_cast
    rw [← mul_sub, abs_mul]
    exact mul_le_mul h' hd (abs_nonneg _) (by norm_num)
  · rw [abs_mul, abs_of_pos (by positivity : (0 : ℝ) < Real.pi / 180)]
    nlinarith

/-- The hour angle in radians. -/
theorem ha_near (F : Fl64) {t : ℚ} (h : |t| ≤ 24) : |(F.rnd (F.rnd (t * 15) * d2rD) : ℝ) - t * (Real.pi / 12)| ≤ 3 / 10 ^ 15 := by
  have hd := d2r_near
  have h' : |(t : ℝ)| ≤ 24 := by exact_mod_cast h
  have hp := Real.pi_lt_d2
  have hp0 := Real.pi_pos
  have h1 : |(F.rnd (t * 15) : ℝ) - t * 15| ≤ 41 / 10 ^ 15 := by
    refine rnd_real F (e := 0) (A := 360) (by push_cast; simp) ?_ (by norm_num)
    rw [abs_mul]; norm_num; linarith
  refine rnd_real F (e := 22 / 10 ^ 16) (A := 63 / 10) ?_ ?_ (by norm_num)
  · push_cast
    generalize (F.rnd (t * 15) : ℝ) = s at *
    generalize (d2rD : ℝ) = c at *
    rw [show s * c - t * (Real.pi / 12) = (s - t * 15) * (Real.pi / 180) + s * (c - Real.pi / 180) by ring]
    have hs : |s| ≤ 361 := by
      have := abs_sub_abs_le_abs_sub s (t * 15)
      rw [abs_mul, abs_of_pos (by norm_num : (0 : ℝ) < 15)] at this
      linarith
    have a1 : |(s - t * 15) * (Real.pi / 180)| ≤ 41 / 10 ^ 15 * (315 / 100 / 180) := by
      rw [abs_mul, abs_of_pos (by positivity : (0 : ℝ) < Real.pi / 180)]
      exact mul_le_mul h1 (by linarith) (by positivity) (by norm_num)
    have a2 : |s * (c - Real.pi / 180)| ≤ 361 * (3 / 10 ^ 19 * 10) := by
      rw [abs_mul]; exact mul_le_mul hs hd (abs_nonneg _) (by norm_num)
    have := abs_add_le ((s - t * 15) * (Real.pi / 180)) (s * (c - Real.pi / 180))
    linarith
  · rw [abs_mul, abs_of_pos (by positivity : (0 : ℝ) < Real.pi / 12)]
    nlinarith

theorem cos_lib (M : Libm) {x : ℚ} {X e : ℝ} (h : |(x : ℝ) - X| ≤ e) : |(M.cos x : ℝ) - Real.cos X| ≤ e + 23 / 10 ^ 17 := by
  have h1 := M.cos_err x
  have h2 := Real.abs_cos_le_one (x : ℝ)
  have h3 := Real.abs_cos_sub_cos_le (x : ℝ) X
  have h4 := abs_sub_le (M.cos x : ℝ) (Real.cos x) (Real.cos X)
  linarith

theorem sin_lib (M : Libm) {x : ℚ} {X e : ℝ} (h : |(x : ℝ) - X| ≤ e) : |(M.sin x : ℝ) - Real.sin X| ≤ e + 23 / 10 ^ 17 := by
  have h1 := M.sin_err x
  have h2 := Real.abs_sin_le_one (x : ℝ)
  have h3 := Real.abs_sin_sub_sin_le (x : ℝ) X
  have h4 := abs_sub_le (M.sin x : ℝ) (Real.sin x) (Real.sin X)
  linarith

/-- The sine of the altitude. -/
noncomputable def sinAlt (dec h lat : ℝ) : ℝ := Real.cos dec * Real.cos h * Real.cos lat + Real.sin dec * Real.sin lat

theorem sinAlt_le (dec h lat : ℝ) : |sinAlt dec h lat| ≤ 1 := by
  unfold sinAlt
  have h1 := Real.sin_sq_add_cos_sq dec
  have h2 := Real.sin_sq_add_cos_sq lat
  have h3 := Real.sin_sq_add_cos_sq h
  generalize Real.cos dec = a at *
  generalize Real.sin dec = b at *
  generalize Real.cos lat = c at *
  generalize Real.sin lat = d at *
  generalize Real.cos h = k at *
  have hk : k ^ 2 ≤ 1 := by nlinarith [sq_nonneg (Real.sin h)]
  refine abs_le_of_sq_le_sq ?_ (by norm_num)
  have : (a * k * c + b * d) ^ 2 ≤ ((a * k) ^ 2 + b ^ 2) * (c ^ 2 + d ^ 2) := by nlinarith [sq_nonneg (a * k * d - b * c)]
  have : (a * k) ^ 2 + b ^ 2 ≤ 1 := by nlinarith [sq_nonneg a]
  nlinarith

/-- The argument of `asin` away from the poles. -/
theorem sinAltD_near (F : Fl64) (M : Libm) {dec ha l : ℚ} (hl : |l| ≤ 8999 / 100) (hh : |ha| ≤ 24) :
    |(sinAltD F M dec ha (F.rnd (l * d2rD)) : ℝ) - sinAlt dec (ha * (Real.pi / 12)) (l * (Real.pi / 180))| ≤ 6 / 10 ^ 15 := by
  have e1 := lat_near F (l := l) (by linarith)
  have e2 := ha_near F hh
  unfold sinAltD sinAlt
  dsimp only
  generalize F.rnd (l * d2rD) = lat at *
  have cl := cos_lib M e1
  have sl := sin_lib M e1
  have cd := cos_lib M (show |(dec : ℝ) - dec| ≤ 0 by simp)
  have sd := sin_lib M (show |(dec : ℝ) - dec| ≤ 0 by simp)
  have ch := cos_lib M e2
  have hcos : 1 / 10 ^ 5 ≤ Real.cos (l * (Real.pi / 180)) := by
    have hp := Real.pi_gt_three
    have hl' : |(l : ℝ)| ≤ 8999 / 100 := by simpa using abs_real hl
    rw [← Real.cos_abs, abs_mul, abs_of_pos (by positivity : (0 : ℝ) < Real.pi / 180)]
    have hx : |(l : ℝ)| * (Real.pi / 180) ≤ Real.pi / 2 - 1 / 10000 := by nlinarith
    have hx0 : 0 ≤ |(l : ℝ)| * (Real.pi / 180) := by positivity
    have := Real.one_sub_mul_le_cos hx0 (by linarith)
    have h5 : 2 / Real.pi * (|(l : ℝ)| * (Real.pi / 180)) = |(l : ℝ)| / 90 := by field_simp; ring
    rw [h5] at this
    linarith
  have hfac : |((altFactorsD F M ha lat).1 : ℝ) - Real.cos (ha * (Real.pi / 12))| ≤ 3 / 10 ^ 15 + 23 / 10 ^ 17 ∧
      (altFactorsD F M ha lat).2.1 = M.cos lat ∧ (altFactorsD F M ha lat).2.2 = M.sin lat := by
    unfold altFactorsD
    by_cases h0 : ha = 0
    · rw [if_pos h0, h0]
      refine ⟨?_, rfl, rfl⟩
      push_cast
      rw [zero_mul, Real.cos_zero]; norm_num
    · have hc : ¬ M.cos lat < F.rnd (1 / 10 ^ 6) := by
        intro hlt
        have h1 : (M.cos lat : ℝ) < F.rnd (1 / 10 ^ 6) := by exact_mod_cast hlt
        have h2 := err_real F (1 / 10 ^ 6)
        push_cast at h2
        rw [abs_of_pos (by norm_num : (0 : ℝ) < 1 / 10 ^ 6)] at h2
        linarith [(abs_le.1 h2).2, (abs_le.1 cl).1]
      rw [if_neg h0]
      dsimp only
      rw [if_neg hc]
      exact ⟨ch, rfl, rfl⟩
  obtain ⟨f1, f2, f3⟩ := hfac
  rw [f2, f3]
  generalize (altFactorsD F M ha lat).1 = k at *
  have bd := Real.abs_cos_le_one (dec : ℝ)
  have bsd := Real.abs_sin_le_one (dec : ℝ)
  have bl := Real.abs_cos_le_one ((l : ℝ) * (Real.pi / 180))
  have bsl := Real.abs_sin_le_one ((l : ℝ) * (Real.pi / 180))
  have bh := Real.abs_cos_le_one ((ha : ℝ) * (Real.pi / 12))
  have bX := sinAlt_le dec (ha * (Real.pi / 12)) (l * (Real.pi / 180))
  unfold sinAlt at bX
  generalize Real.cos (dec : ℝ) = CD at *
  generalize Real.sin (dec : ℝ) = SD at *
  generalize Real.cos ((l : ℝ) * (Real.pi / 180)) = CL at *
  generalize Real.sin ((l : ℝ) * (Real.pi / 180)) = SL at *
  generalize Real.cos ((ha : ℝ) * (Real.pi / 12)) = CH at *
  have p1 := prod_real cd f1 bd bh
  have q1 : |CD * CH| ≤ 1 := by rw [abs_mul]; exact mul_le_one₀ bd (abs_nonneg _) bh
  have r1 : |(F.rnd (M.cos dec * k) : ℝ) - CD * CH| ≤ 36 / 10 ^ 16 := rnd_real F (by push_cast; exact p1) q1 (by norm_num)
  have p2 := prod_real r1 cl q1 bl
  have q2 : |CD * CH * CL| ≤ 1 := by rw [abs_mul]; exact mul_le_one₀ q1 (abs_nonneg _) bl
  have r2 : |(F.rnd (F.rnd (M.cos dec * k) * M.cos lat) : ℝ) - CD * CH * CL| ≤ 45 / 10 ^ 16 := rnd_real F (by push_cast; exact p2) q2 (by norm_num)
  have p3 := prod_real sd sl bsd bsl
  have q3 : |SD * SL| ≤ 1 := by rw [abs_mul]; exact mul_le_one₀ bsd (abs_nonneg _) bsl
  have r3 : |(F.rnd (M.sin dec * M.sin lat) : ℝ) - SD * SL| ≤ 11 / 10 ^ 16 := rnd_real F (by push_cast; exact p3) q3 (by norm_num)
  refine rnd_real F (e := 56 / 10 ^ 16) (A := 1) ?_ bX (by norm_num)
  push_cast
  rw [abs_le] at *
  constructor <;> linarith [r2.1, r2.2, r3.1, r3.2]

theorem arcsin_mid {x y m k : ℝ} (hx : |x| ≤ m) (hy : |y| ≤ m) (hm : m < 1) (hk : 1 ≤ k * k * (1 - m * m)) (hk0 : 0 < k) :
    |Real.arcsin x - Real.arcsin y| ≤ k * |x - y| := by
  have key : ∀ z ∈ Set.Icc (-m) m, HasDerivWithinAt Real.arcsin (1 / √(1 - z ^ 2)) (Set.Icc (-m) m) z := fun z hz =>
    (Real.hasDerivAt_arcsin (by linarith [hz.1]) (by linarith [hz.2])).hasDerivWithinAt
  have bound : ∀ z ∈ Set.Icc (-m) m, ‖1 / √(1 - z ^ 2)‖ ≤ k := by
    intro z hz
    have h1 : 1 / k ≤ √(1 - z ^ 2) := by
      refine Real.le_sqrt_of_sq_le ?_
      rw [div_pow, one_pow, div_le_iff₀ (by positivity)]
      have : z ^ 2 ≤ m * m := by nlinarith [hz.1, hz.2]
      nlinarith [mul_pos hk0 hk0]
    have h2 : 0 < 1 / k := by positivity
    rw [Real.norm_of_nonneg (by positivity), div_le_iff₀ (by linarith)]
    rw [div_le_iff₀ hk0] at h1
    linarith
  have := (convex_Icc (-m) m).norm_image_sub_le_of_norm_hasDerivWithin_le key bound (abs_le.1 hy) (abs_le.1 hx)
  simpa [Real.norm_eq_abs] using this

/-- From radians to degrees. -/
theorem degrees_near (F : Fl64) {q : ℚ} {A e : ℝ} (h : |(q : ℝ) - A| ≤ e) (hA : |A| ≤ Real.pi / 2) (he : e ≤ 1 / 10 ^ 3) :
    |(F.rnd (r2dD * q) : ℝ) - 180 / Real.pi * A| ≤ 573 / 10 * e + 4 / 10 ^ 14 := by
  have hp := Real.pi_gt_d6
  have hr := pi_near
  have hpr : 180 / Real.pi * (Real.pi / 2) = 90 := by field_simp; norm_num
  have h57 : 180 / Real.pi ≤ 5729580 / 10 ^ 5 := by
    rw [div_le_div_iff₀ (by positivity) (by norm_num)]; linarith
  have hpos : 0 < 180 / Real.pi := by positivity
  have e0 := (abs_nonneg _).trans h
  have hB : |180 / Real.pi * A| ≤ 90 := by
    rw [abs_mul, abs_of_pos hpos, ← hpr]; exact mul_le_mul_of_nonneg_left hA hpos.le
  have hc : |(r2dD : ℝ)| ≤ 5729581 / 10 ^ 5 := by
    have := abs_sub_abs_le_abs_sub (r2dD : ℝ) (180 / Real.pi)
    rw [abs_of_pos hpos] at this
    linarith
  have hm : |((r2dD * q : ℚ) : ℝ) - 180 / Real.pi * A| ≤ 5729581 / 10 ^ 5 * e + 11 / 10 ^ 15 := by
    push_cast
    rw [show (r2dD : ℝ) * q - 180 / Real.pi * A = r2dD * (q - A) + (r2dD - 180 / Real.pi) * A by ring]
    have a1 : |(r2dD : ℝ) * (q - A)| ≤ 5729581 / 10 ^ 5 * e := by
      rw [abs_mul]; exact mul_le_mul hc h (abs_nonneg _) (by norm_num)
    have a2 : |((r2dD : ℝ) - 180 / Real.pi) * A| ≤ 1 / 2 ^ 53 * 90 := by
      rw [abs_mul, ← hpr, ← mul_assoc]
      exact mul_le_mul hr hA (abs_nonneg _) (by positivity)
    have := abs_add_le ((r2dD : ℝ) * (q - A)) ((r2dD - 180 / Real.pi) * A)
    linarith
  refine rnd_real F hm hB ?_
  linarith

/-- The altitude is the one of the exact formula to `10 ^ -5` degrees, and to `2 * 10 ^ -12` degrees where its sine is between `-0.98` and `0.98`; it
is not NaN.  Not near the poles, the zenith and the nadir. -/
theorem C180_altitude (F : Fl64) (M : Libm) {dec ha l : ℚ} {X : ℝ} (hX : X = sinAlt dec (ha * (Real.pi / 12)) (l * (Real.pi / 180)))
    (hl : |l| ≤ 8999 / 100) (hh : |ha| ≤ 24) (hd : |(dec : ℝ)| ≤ Real.pi / 2) (hz : 2 / 10 ^ 6 ≤ |(dec : ℝ) - l * (Real.pi / 180)|)
    (hn : -1 + 1 / 10 ^ 14 ≤ X) :
    ∃ a, altD F M dec ha l = some a ∧ |(a : ℝ) - 180 / Real.pi * Real.arcsin X| ≤ 1 / 10 ^ 5 ∧
      (|X| ≤ 98 / 100 → |(a : ℝ) - 180 / Real.pi * Real.arcsin X| ≤ 2 / 10 ^ 12) := by
  have hp := Real.pi_gt_d6
  have hp' := Real.pi_lt_d6
  have e1 := lat_near F (l := l) (by linarith)
  have hs := sinAltD_near F M (dec := dec) hl hh
  rw [← hX] at hs
  have hl' : |(l : ℝ) * (Real.pi / 180)| ≤ Real.pi / 2 := by
    have : |(l : ℝ)| ≤ 8999 / 100 := by simpa using abs_real hl
    rw [abs_mul, abs_of_pos (by positivity : (0 : ℝ) < Real.pi / 180)]
    nlinarith
  have hX1 : |X| ≤ 1 := hX ▸ sinAlt_le _ _ _
  have hup : X ≤ 1 - 8 / 10 ^ 13 := by
    have c1 : 0 ≤ Real.cos (dec : ℝ) := Real.cos_nonneg_of_neg_pi_div_two_le_of_le (abs_le.1 hd).1 (abs_le.1 hd).2
    have c2 : 0 ≤ Real.cos ((l : ℝ) * (Real.pi / 180)) := Real.cos_nonneg_of_neg_pi_div_two_le_of_le (abs_le.1 hl').1 (abs_le.1 hl').2
    have c3 := Real.cos_le_one ((ha : ℝ) * (Real.pi / 12))
    have c4 : X ≤ Real.cos ((dec : ℝ) - l * (Real.pi / 180)) := by
      rw [hX, Real.cos_sub]
      unfold sinAlt
      have := mul_nonneg c1 c2
      nlinarith
    have c5 : |(dec : ℝ) - l * (Real.pi / 180)| ≤ Real.pi := by
      have := abs_sub (dec : ℝ) (l * (Real.pi / 180))
      linarith
    have c6 := Real.cos_le_one_sub_mul_cos_sq c5
    have c7 : (2 / 10 ^ 6 : ℝ) ^ 2 ≤ ((dec : ℝ) - l * (Real.pi / 180)) ^ 2 := by
      rw [← sq_abs ((dec : ℝ) - _)]; exact pow_le_pow_left₀ (by norm_num) hz 2
    have c8 : 2 / (987 / 100) ≤ 2 / Real.pi ^ 2 := by
      refine div_le_div_of_nonneg_left (by norm_num) (by positivity) (by nlinarith)
    have c9 : 2 / (987 / 100) * (2 / 10 ^ 6 : ℝ) ^ 2 ≤ 2 / Real.pi ^ 2 * ((dec : ℝ) - l * (Real.pi / 180)) ^ 2 :=
      mul_le_mul c8 c7 (by norm_num) (by positivity)
    have c10 : (8 / 10 ^ 13 : ℝ) ≤ 2 / (987 / 100) * (2 / 10 ^ 6) ^ 2 := by norm_num
    linarith
  unfold altD
  dsimp only
  have hb : ¬ |F.rnd (dec - F.rnd (l * d2rD))| < F.rnd (1 / 10 ^ 6) := by
    intro hlt
    have h1 : |(F.rnd (dec - F.rnd (l * d2rD)) : ℝ)| < F.rnd (1 / 10 ^ 6) := by exact_mod_cast hlt
    have h2 := err_real F (1 / 10 ^ 6)
    have h3 := err_real F (dec - F.rnd (l * d2rD))
    push_cast at h2 h3
    rw [abs_of_pos (by norm_num : (0 : ℝ) < 1 / 10 ^ 6)] at h2
    generalize (F.rnd (dec - F.rnd (l * d2rD)) : ℝ) = r at *
    generalize (F.rnd (l * d2rD) : ℝ) = lat at *
    have h4 := abs_sub_abs_le_abs_sub ((dec : ℝ) - lat) r
    rw [abs_sub_comm _ r] at h4
    have h5 := abs_sub_le (dec : ℝ) lat (l * (Real.pi / 180))
    have h6 : |(dec : ℝ) - lat| / 2 ^ 53 ≤ |(dec : ℝ) - lat| / 10 := div_le_div_of_nonneg_left (abs_nonneg _) (by norm_num) (by norm_num)
    linarith [(abs_le.1 h2).2]
  rw [if_neg hb]
  generalize sinAltD F M dec ha (F.rnd (l * d2rD)) = x at *
  have hx1 : |(x : ℝ)| ≤ 1 := by
    rw [abs_le] at hs ⊢
    constructor <;> linarith [hs.1, hs.2]
  have hx1' : |x| ≤ 1 := by exact_mod_cast hx1
  rw [if_pos hx1']
  have hA : |Real.arcsin X| ≤ Real.pi / 2 := abs_le.2 ⟨Real.neg_pi_div_two_le_arcsin X, Real.arcsin_le_pi_div_two X⟩
  have hx2 : |Real.arcsin (x : ℝ)| ≤ Real.pi / 2 := abs_le.2 ⟨Real.neg_pi_div_two_le_arcsin _, Real.arcsin_le_pi_div_two _⟩
  have a1 : |(M.asin x : ℝ) - Real.arcsin x| ≤ 4 / 10 ^ 16 := by
    have := M.asin_err x hx1'
    linarith
  refine ⟨_, rfl, ?_, fun h98 => ?_⟩
  · have a2 := arcsin_any hx1 hX1
    have a3 : √(|(x : ℝ) - X| / 2) ≤ 548 / 10 ^ 10 := by
      rw [Real.sqrt_le_left (by norm_num)]
      linarith
    have a4 : Real.pi * √(|(x : ℝ) - X| / 2) ≤ 3141593 / 10 ^ 6 * (548 / 10 ^ 10) :=
      mul_le_mul (by linarith) a3 (Real.sqrt_nonneg _) (by norm_num)
    have a5 : |(M.asin x : ℝ) - Real.arcsin X| ≤ 1722 / 10 ^ 10 := by
      have := abs_sub_le (M.asin x : ℝ) (Real.arcsin x) (Real.arcsin X)
      linarith
    have := degrees_near F a5 hA (by norm_num)
    linarith
  · have a2 : |Real.arcsin (x : ℝ) - Real.arcsin X| ≤ 51 / 10 * |(x : ℝ) - X| := by
      refine arcsin_mid (m := 9801 / 10 ^ 4) ?_ (by linarith) (by norm_num) (by norm_num) (by norm_num)
      have := abs_sub_abs_le_abs_sub (x : ℝ) X
      linarith
    have a5 : |(M.asin x : ℝ) - Real.arcsin X| ≤ 311 / 10 ^ 16 := by
      have := abs_sub_le (M.asin x : ℝ) (Real.arcsin x) (Real.arcsin X)
      linarith
    have := degrees_near F a5 hA (by norm_num)
    linarith

/-- `f` is the function `g` rounded correctly. -/
def Rounded (F : Fl64) (f : ℚ → ℚ) (g : ℝ → ℝ) : Prop := ∀ x q : ℚ, ((q : ℝ) ≤ g x → F.rnd q ≤ f x) ∧ (g x ≤ q → f x ≤ F.rnd q)

theorem Rounded.eq {F : Fl64} {f : ℚ → ℚ} {g : ℝ → ℝ} (h : Rounded F f g) {x a b : ℚ} {r : ℚ} (h1 : (a : ℝ) ≤ g x) (h2 : g x ≤ b) (e1 : F.rnd a = r)
    (e2 : F.rnd b = r) : f x = r :=
  le_antisymm (e2 ▸ (h x b).2 h2) (e1 ▸ (h x a).1 h1)

/-- The declination opposite to a latitude of 8 degrees. -/
def nadirDec : ℚ := -(5030569068109113 / 2 ^ 55)

theorem nadir_values {M : Libm} (hs : Rounded Fl64.ieee M.sin Real.sin) (hc : Rounded Fl64.ieee M.cos Real.cos) :
    M.sin (-nadirDec) = 5014239404989977 / 2 ^ 55 ∧ M.sin nadirDec = -(5014239404989977 / 2 ^ 55) ∧ M.cos (-nadirDec) = 4459770905381437 / 2 ^ 52 ∧
      M.cos nadirDec = 4459770905381437 / 2 ^ 52 ∧ M.cos piD = -1 := by
  have t := Trig.taylor_sharp ((-nadirDec : ℚ) : ℝ) (by unfold nadirDec; push_cast; rw [abs_of_pos] <;> norm_num)
  have hb : |((-nadirDec : ℚ) : ℝ)| ^ 16 / 10 ^ 13 ≤ 1 / 10 ^ 26 := by
    unfold nadirDec; push_cast; rw [abs_of_pos (by norm_num)]; norm_num
  have t1 := abs_le.1 (t.1.trans hb)
  have t2 := abs_le.1 (t.2.trans hb)
  have s1 : ((Trig.sinP (-nadirDec) - 1 / 10 ^ 26 : ℚ) : ℝ) ≤ Real.sin ((-nadirDec : ℚ) : ℝ) := by unfold Trig.sinP; push_cast at *; linarith [t2.1]
  have s2 : Real.sin ((-nadirDec : ℚ) : ℝ) ≤ ((Trig.sinP (-nadirDec) + 1 / 10 ^ 26 : ℚ) : ℝ) := by unfold Trig.sinP; push_cast at *; linarith [t2.2]
  have c1 : ((Trig.cosP (-nadirDec) - 1 / 10 ^ 26 : ℚ) : ℝ) ≤ Real.cos ((-nadirDec : ℚ) : ℝ) := by unfold Trig.cosP; push_cast at *; linarith [t1.1]
  have c2 : Real.cos ((-nadirDec : ℚ) : ℝ) ≤ ((Trig.cosP (-nadirDec) + 1 / 10 ^ 26 : ℚ) : ℝ) := by unfold Trig.cosP; push_cast at *; linarith [t1.2]
  refine ⟨hs.eq s1 s2 (by decide +kernel) (by decide +kernel), ?_, hc.eq c1 c2 (by decide +kernel) (by decide +kernel), ?_, ?_⟩
  · refine hs.eq (a := -(Trig.sinP (-nadirDec) + 1 / 10 ^ 26)) (b := -(Trig.sinP (-nadirDec) - 1 / 10 ^ 26)) ?_ ?_ (by decide +kernel) (by decide +kernel)
    · rw [Rat.cast_neg]; rw [Rat.cast_neg, Real.sin_neg] at s2; linarith
    · rw [Rat.cast_neg]; rw [Rat.cast_neg, Real.sin_neg] at s1; linarith
  · rw [Rat.cast_neg, Real.cos_neg] at c1 c2
    exact hc.eq c1 c2 (by decide +kernel) (by decide +kernel)
  · obtain ⟨p1, p2, _⟩ := piD_near
    refine hc.eq (a := -1) (b := -1 + 1 / 2 ^ 100) ?_ ?_ (by decide +kernel) (by decide +kernel)
    · push_cast; exact Real.neg_one_le_cos _
    · have h1 := Real.one_sub_sq_div_two_le_cos (x := Real.pi - piD)
      rw [Real.cos_pi_sub] at h1
      push_cast
      nlinarith

/-- At the nadir the argument of `asin` may be less than `-1`, and the altitude NaN, with correctly rounded functions. -/
theorem C180_nadir_excluded {M : Libm} (hs : Rounded Fl64.ieee M.sin Real.sin) (hc : Rounded Fl64.ieee M.cos Real.cos) :
    altD Fl64.ieee M nadirDec 12 8 = none := by
  obtain ⟨h1, h2, h3, h4, h5⟩ := nadir_values hs hc
  have e1 : Fl64.ieee.rnd (8 * d2rD) = -nadirDec := by decide +kernel
  have e2 : Fl64.ieee.rnd (Fl64.ieee.rnd (12 * 15) * d2rD) = piD := by decide +kernel
  have e3 : ¬ (4459770905381437 / 2 ^ 52 : ℚ) < Fl64.ieee.rnd (1 / 10 ^ 6) := by decide +kernel
  have e4 : ¬ |Fl64.ieee.rnd (nadirDec - -nadirDec)| < Fl64.ieee.rnd (1 / 10 ^ 6) := by decide +kernel
  have hx : sinAltD Fl64.ieee M nadirDec 12 (-nadirDec) = -1 - 1 / 2 ^ 52 := by
    unfold sinAltD altFactorsD
    dsimp only
    rw [if_neg (by norm_num), h1, h2, h3, h4, e2, h5, if_neg e3]
    decide +kernel
  unfold altD
  dsimp only
  rw [e1, if_neg e4, hx, if_neg (by norm_num)]

/-! ### Examples -/

theorem rounded_of_grid {v : ℝ} {q0 : ℚ} {j : ℕ} (h0 : (q0 : ℝ) ≤ v) (grid : ∀ q : ℚ, q0 ≤ q → (q : ℝ) ≤ v → ∃ k : ℤ, rndBits 53 q = k / 2 ^ (52 + j)) :
    ∃ s, ∀ q : ℚ, ((q : ℝ) ≤ v → rndBits 53 q ≤ s) ∧ (v ≤ q → s ≤ rndBits 53 q) := by
  obtain ⟨b, hb, _⟩ := exists_rat_btwn (show v < v + 1 by linarith)
  obtain ⟨ub, ⟨q, hq1, hq2, hq3⟩, hub⟩ := Int.exists_greatest_of_bdd (P := fun n : ℤ => ∃ q : ℚ, q0 ≤ q ∧ (q : ℝ) ≤ v ∧ rndBits 53 q = n / 2 ^ (52 + j))
    ⟨⌊rndBits 53 b * 2 ^ (52 + j)⌋, by
      rintro n ⟨q, -, hq, e⟩
      rw [Int.le_floor]
      have hm := rndBits_mono 53 (by norm_num) q b (by exact_mod_cast hq.trans hb.le)
      rw [e, div_le_iff₀ (by positivity)] at hm
      exact hm⟩
    ⟨_, q0, le_refl _, h0, (grid q0 (le_refl _) h0).choose_spec⟩
  refine ⟨rndBits 53 q, fun p => ⟨fun hp => ?_, fun hp => rndBits_mono 53 (by norm_num) _ _ (by exact_mod_cast hq2.trans hp)⟩⟩
  rcases le_total p q0 with hc | hc
  · exact rndBits_mono 53 (by norm_num) _ _ (hc.trans hq1)
  · obtain ⟨k, hk⟩ := grid p hc hp
    have := hub k ⟨p, hc, hp, hk⟩
    rw [hk, hq3]
    exact div_le_div_of_nonneg_right (by exact_mod_cast this) (by positivity)

/-- Every real number has a correctly rounded value. -/
theorem rounded_exists (v : ℝ) : ∃ s, ∀ q : ℚ, ((q : ℝ) ≤ v → rndBits 53 q ≤ s) ∧ (v ≤ q → s ≤ rndBits 53 q) := by
  rcases lt_trichotomy v 0 with h | h | h
  · obtain ⟨r, hr1, hr2⟩ := exists_rat_btwn h
    obtain ⟨q0, _, hq0⟩ := exists_rat_btwn (show v - 1 < v by linarith)
    have hr0 : r < 0 := by exact_mod_cast hr2
    have hr : rndBits 53 r < 0 := by
      have := rndBits_err 53 r
      rw [abs_of_neg hr0] at this
      linarith [(abs_le.1 this).2]
    obtain ⟨j, hj⟩ := exists_pow_lt_of_lt_one (neg_pos.2 hr) (show (1 / 2 : ℚ) < 1 by norm_num)
    rw [div_pow, one_pow] at hj
    refine rounded_of_grid (j := j) hq0.le fun q _ hq => rndBits_grid 52 q j ?_
    have hm := rndBits_mono 53 (by norm_num) q r (by exact_mod_cast hq.trans hr1.le)
    show _ ≤ |rndBits 53 q|
    rw [abs_of_neg (by linarith)]
    linarith
  · subst h
    refine ⟨0, fun q => ⟨fun hq => ?_, fun hq => rndBits_nonneg (by exact_mod_cast hq)⟩⟩
    have := rndBits_mono 53 (by norm_num) q 0 (by exact_mod_cast hq)
    rwa [rndBits_zero] at this
  · obtain ⟨r, hr1, hr2⟩ := exists_rat_btwn h
    have hr0 : 0 < r := by exact_mod_cast hr1
    have hr : 0 < rndBits 53 r := by
      have := rndBits_err 53 r
      rw [abs_of_pos hr0] at this
      linarith [(abs_le.1 this).1]
    obtain ⟨j, hj⟩ := exists_pow_lt_of_lt_one hr (show (1 / 2 : ℚ) < 1 by norm_num)
    rw [div_pow, one_pow] at hj
    refine rounded_of_grid (j := j) hr2.le fun q hq _ => rndBits_grid 52 q j ?_
    have hm := rndBits_mono 53 (by norm_num) r q hq
    show _ ≤ |rndBits 53 q|
    rw [abs_of_pos (by linarith)]
    linarith

noncomputable def rounded (v : ℝ) : ℚ := (rounded_exists v).choose

theorem rounded_err (v : ℝ) {c : ℝ} (hc : 1 / 2 ^ 53 ≤ c) : |(rounded v : ℝ) - v| ≤ c * |v| + 1 / 2 ^ 200 := by
  have h := (rounded_exists v).choose_spec
  change ∀ q : ℚ, ((q : ℝ) ≤ v → rndBits 53 q ≤ rounded v) ∧ (v ≤ q → rounded v ≤ rndBits 53 q) at h
  obtain ⟨a, ha1, ha2⟩ := exists_rat_btwn (show v - 1 / 2 ^ 202 < v by linarith [show (0 : ℝ) < 1 / 2 ^ 202 by norm_num])
  obtain ⟨b, hb1, hb2⟩ := exists_rat_btwn (show v < v + 1 / 2 ^ 202 by linarith [show (0 : ℝ) < 1 / 2 ^ 202 by norm_num])
  have h1 : (rndBits 53 a : ℝ) ≤ rounded v := by exact_mod_cast (h a).1 ha2.le
  have h2 : (rounded v : ℝ) ≤ rndBits 53 b := by exact_mod_cast (h b).2 hb1.le
  have r1 := rndBits_real a
  have r2 := rndBits_real b
  have a1 : |(a : ℝ)| ≤ |v| + 1 / 2 ^ 202 := by
    have := abs_sub_abs_le_abs_sub (a : ℝ) v
    rw [abs_of_neg (show (a : ℝ) - v < 0 by linarith)] at this; linarith
  have b1 : |(b : ℝ)| ≤ |v| + 1 / 2 ^ 202 := by
    have := abs_sub_abs_le_abs_sub (b : ℝ) v
    rw [abs_of_pos (show 0 < (b : ℝ) - v by linarith)] at this; linarith
  have hcv : 1 / 2 ^ 53 * |v| ≤ c * |v| := mul_le_mul_of_nonneg_right hc (abs_nonneg _)
  rw [abs_le]
  constructor
  · linarith [(abs_le.1 r1).1]
  · linarith [(abs_le.1 r2).2]

theorem rounded_sign {v : ℝ} (h : 0 ≤ v) : 0 ≤ rounded v := by
  have := ((rounded_exists v).choose_spec 0).1 (by push_cast; exact h)
  rwa [rndBits_zero] at this

/-- The library that rounds correctly. -/
noncomputable def bestLib : Libm where
  sin x := rounded (Real.sin x)
  cos x := rounded (Real.cos x)
  asin x := rounded (Real.arcsin x)
  sqrt x := rounded √x
  sin_err x := rounded_err _ (by norm_num)
  cos_err x := rounded_err _ (by norm_num)
  cos_sign x h := rounded_sign h
  asin_err x _ := rounded_err _ (by norm_num)
  sqrt_err x _ := by
    have := rounded_err √(x : ℝ) (le_refl (1 / 2 ^ 53))
    rwa [abs_of_nonneg (Real.sqrt_nonneg _)] at this
  sqrt_sign x _ := rounded_sign (Real.sqrt_nonneg _)

/-- The best library does not help at the nadir. -/
example : altD Fl64.ieee bestLib nadirDec 12 8 = none :=
  C180_nadir_excluded (fun x q => (rounded_exists (Real.sin x)).choose_spec q) (fun x q => (rounded_exists (Real.cos x)).choose_spec q)

/-- At midnight the celestial equator is 60 degrees below the horizon at latitude 30. -/
example : ∃ a, altD Fl64.ieee bestLib 0 12 30 = some a ∧ |(a : ℝ) + 60| ≤ 2 / 10 ^ 12 := by
  have hp := Real.pi_gt_three
  have e : sinAlt ((0 : ℚ) : ℝ) ((12 : ℚ) * (Real.pi / 12)) ((30 : ℚ) * (Real.pi / 180)) = -(√3 / 2) := by
    unfold sinAlt
    push_cast
    rw [show (12 : ℝ) * (Real.pi / 12) = Real.pi by ring, show (30 : ℝ) * (Real.pi / 180) = Real.pi / 6 by ring, Real.cos_zero, Real.sin_zero,
      Real.cos_pi, Real.cos_pi_div_six]
    ring
  have h3 : √3 / 2 ≤ 9 / 10 := by
    have : √3 ≤ 18 / 10 := by rw [Real.sqrt_le_left (by norm_num)]; norm_num
    linarith
  have h0 := Real.sqrt_nonneg 3
  have ha : Real.arcsin (-(√3 / 2)) = -(Real.pi / 3) := by
    rw [Real.arcsin_neg, ← Real.sin_pi_div_three, Real.arcsin_sin (by linarith) (by linarith)]
  obtain ⟨a, h1, _, h2⟩ := C180_altitude Fl64.ieee bestLib (dec := 0) (ha := 12) (l := 30) e.symm (by norm_num) (by norm_num)
    (by push_cast; rw [abs_zero]; positivity)
    (by push_cast; rw [zero_sub, abs_neg, abs_of_pos (by positivity)]; linarith) (by linarith)
  refine ⟨a, h1, ?_⟩
  have := h2 (by rw [abs_neg, abs_of_nonneg (by positivity)]; linarith)
  rw [ha, show 180 / Real.pi * -(Real.pi / 3) = -60 by field_simp; norm_num, sub_neg_eq_add] at this
  exact this

end SatSky.Props
