import Verif.Model.DeepThetaDouble
import Verif.Props.ObserverDouble
import Verif.Props.TimeDouble

/-! C200: the sidereal angle of the deep-space propagator in `double` arithmetic. -/

namespace SatSky.Props

open SatSky.Spec SatSky.Geo SatSky.Relative SatSky.Dates SatSky.GetEl

theorem deepTurnD_near (F : Fl64) {jd : ℚ} {m : ℤ} (hm : jd = m / 2 ^ 31) (h : |jd - 2451545| ≤ 73050) :
    0 ≤ deepTurnD F jd ∧ deepTurnD F jd ≤ 1 ∧ ∃ k : ℤ, |deepTurnD F jd - (thetaQ jd / 86400 + k)| ≤ 18 / 10 ^ 14 := by
  obtain ⟨e1, u0, u1, e2⟩ := ut_exact F hm h
  obtain ⟨a, b⟩ := abs_le.1 h
  unfold deepTurnD thetaQ gmstSecD
  dsimp only
  rw [e1, e2]
  generalize fmodD (jd + 1 / 2) 1 = ut at *
  have hT : |(jd - ut - 2451545) / 36525| ≤ 20001 / 10 ^ 4 := by
    rw [abs_div, abs_of_pos (by norm_num : (0 : ℚ) < 36525), div_le_iff₀ (by norm_num), abs_le]
    constructor <;> linarith
  have ht := rnd_const F hT (E := 21 / 10 / 2 ^ 53) (by norm_num)
  obtain ⟨k6, b6⟩ := gmst_poly_near F hT ht
  generalize (jd - ut - 2451545) / 36525 = T at *
  generalize F.rnd T = t at *
  generalize F.rnd (F.rnd (2411054841 / 10 ^ 5) + F.rnd (t * F.rnd (F.rnd (8640184812866 / 10 ^ 6) +
        F.rnd (t * F.rnd (F.rnd (93104 / 10 ^ 6) - F.rnd (t * F.rnd (62 / 10 ^ 7))))))) = p at *
  generalize (2411054841 / 10 ^ 5 + T * (8640184812866 / 10 ^ 6 + T * (93104 / 10 ^ 6 - T * (62 / 10 ^ 7))) : ℚ) = P at *
  have c0 : |F.rnd (p / 86400) - P / 86400| ≤ 1505 / 10 ^ 16 := by
    refine rnd_err F (e := 11 / 10 ^ 9 / 86400) (A := 201) ?_ ?_ (by norm_num)
    · rw [← sub_div, abs_div, abs_of_pos (by norm_num : (0 : ℚ) < 86400)]
      exact div_le_div_of_nonneg_right k6 (by norm_num)
    · rw [abs_div, abs_of_pos (by norm_num : (0 : ℚ) < 86400), div_le_iff₀ (by norm_num)]
      linarith
  have c1 := rnd_const F (Z := 100273790934 / 10 ^ 11) (A := 101 / 100) (E := 113 / 10 ^ 18) (by norm_num [abs_le]) (by norm_num)
  have c3 : |F.rnd (F.rnd (100273790934 / 10 ^ 11) * ut) - 100273790934 / 10 ^ 11 * ut| ≤ 3 / 10 ^ 16 := by
    refine rnd_err F (e := 113 / 10 ^ 18) (A := 101 / 100) ?_ ?_ (by norm_num)
    · rw [← sub_mul, abs_mul, abs_of_nonneg u0]
      have := mul_le_mul c1 u1.le u0 (by norm_num)
      linarith
    · rw [abs_le]
      constructor <;> linarith
  have b7 : |P / 86400 + 100273790934 / 10 ^ 11 * ut| ≤ 202 := by
    rw [abs_le] at b6 ⊢
    constructor <;> linarith [b6.1, b6.2]
  have c4 := rnd_err F (add_err c0 c3) b7 (E := 1735 / 10 ^ 16) (by norm_num)
  rw [show (P + 86400 * (100273790934 / 10 ^ 11) * ut) / 86400 = P / 86400 + 100273790934 / 10 ^ 11 * ut by ring]
  generalize F.rnd (F.rnd (p / 86400) + F.rnd (F.rnd (100273790934 / 10 ^ 11) * ut)) = s at *
  generalize P / 86400 + 100273790934 / 10 ^ 11 * ut = S at *
  have hfr := abs_le.1 (frac_bound (s / 1))
  rw [div_one] at hfr
  have g1 : -1 ≤ fmodD s 1 := by unfold fmodD; rw [div_one]; linarith [hfr.1]
  have g2 : fmodD s 1 ≤ 1 := by unfold fmodD; rw [div_one]; linarith [hfr.2]
  have g3 : ∃ k : ℤ, fmodD s 1 = s + k := ⟨-truncQ (s / 1), by unfold fmodD; push_cast; ring⟩
  generalize fmodD s 1 = g at *
  obtain ⟨k, hk⟩ := g3
  by_cases hg : g < 0
  · rw [if_pos hg]
    have r0 : 0 ≤ F.rnd (g + 1) := F.nonneg (by linarith)
    have r1 : F.rnd (g + 1) ≤ 1 := by
      have := F.mono (g + 1) 1 (by linarith)
      have h4 := F.exact 1 0 (by norm_num) (by norm_num)
      norm_num at h4
      rwa [h4] at this
    have r2 := rnd_const F (Z := g + 1) (A := 1) (E := 12 / 10 ^ 17) (by rw [abs_le]; constructor <;> linarith) (by norm_num)
    refine ⟨r0, r1, k + 1, ?_⟩
    push_cast
    clear c0 c1 c3 b6 b7 k6 ht hT h
    rw [abs_le] at *
    constructor <;> linarith [r2.1, r2.2, c4.1, c4.2]
  · rw [if_neg hg]
    refine ⟨by linarith, g2, k, ?_⟩
    clear c0 c1 c3 b6 b7 k6 ht hT h
    rw [abs_le] at *
    constructor <;> linarith [c4.1, c4.2]

/-- **C200**: from 1800 to 2199 the sidereal angle of the deep-space propagator in `double` is between 0 and `twopi` and within
`1.2 * 10 ^ -12` of the one of exact arithmetic, up to whole turns. -/
theorem C200_theta (F : Fl64) {jd : ℚ} {m : ℤ} (hm : jd = m / 2 ^ 31) (h : |jd - 2451545| ≤ 73050) :
    0 ≤ deepThetaD F jd ∧ (deepThetaD F jd : ℝ) ≤ 629 / 100 ∧
      ∃ k : ℤ, |(deepThetaD F jd : ℝ) - Sxp.ThetaG jd - 2 * Real.pi * k| ≤ 12 / 10 ^ 13 := by
  obtain ⟨g0, g1, k, hk⟩ := deepTurnD_near F hm h
  obtain ⟨m', hm'⟩ := theta_turns jd
  have hp := Real.pi_gt_d6
  have hp' := Real.pi_lt_d6
  have ht := twopi_near
  have hk' : |(deepTurnD F jd : ℝ) - (thetaQ jd / 86400 + k)| ≤ 18 / 10 ^ 14 := by simpa using abs_real hk
  have g0' : (0 : ℝ) ≤ deepTurnD F jd := by exact_mod_cast g0
  have g1' : (deepTurnD F jd : ℝ) ≤ 1 := by exact_mod_cast g1
  have tw : 0 ≤ twopiD := by norm_num [twopiD]
  unfold deepThetaD
  generalize deepTurnD F jd = g at *
  have r1 : |(F.rnd (twopiD * g) : ℝ) - 2 * Real.pi * g| ≤ 2 / 10 ^ 15 := by
    refine rnd_real F (e := 1 / 10 ^ 15 * 1) (A := 6284 / 1000) ?_ ?_ (by norm_num)
    · push_cast
      rw [← sub_mul, abs_mul, abs_of_nonneg g0']
      exact mul_le_mul ht g1' g0' (by norm_num)
    · rw [abs_of_nonneg (by positivity)]
      nlinarith
  have r3 : |2 * Real.pi * (g : ℝ) - 2 * Real.pi * (thetaQ jd / 86400 + k)| ≤ 62832 / 10 ^ 4 * (18 / 10 ^ 14) := by
    rw [← mul_sub, abs_mul, abs_of_pos (by positivity : 0 < 2 * Real.pi)]
    exact mul_le_mul (by linarith) hk' (abs_nonneg _) (by norm_num)
  refine ⟨F.nonneg (mul_nonneg tw g0), ?_, k - m', ?_⟩
  · have : 2 * Real.pi * (g : ℝ) ≤ 6284 / 1000 := by nlinarith
    linarith [(abs_le.1 r1).2]
  · rw [C113_same, hm']
    push_cast
    have e : 2 * Real.pi * ((thetaQ jd : ℝ) + 86400 * m') / 86400 + 2 * Real.pi * (k - m') = 2 * Real.pi * (thetaQ jd / 86400 + k) := by ring
    rw [sub_sub, e]
    have := abs_sub_le (F.rnd (twopiD * g) : ℝ) (2 * Real.pi * g) (2 * Real.pi * (thetaQ jd / 86400 + k))
    linarith

/-- **C200**: the two sidereal angles of the program, of the observer (`observe.c`) and of the propagator (`deep.c`), agree in `double` to
`2.3 * 10 ^ -12`, up to whole turns. -/
theorem C200_agree (F : Fl64) {jd : ℚ} {m : ℤ} (hm : jd = m / 2 ^ 31) (h : |jd - 2451545| ≤ 73050) :
    ∃ k : ℤ, |(deepThetaD F jd : ℝ) - thetaGD F jd - 2 * Real.pi * k| ≤ 23 / 10 ^ 13 := by
  obtain ⟨_, _, k, hk⟩ := C200_theta F hm h
  obtain ⟨_, _, k', hk'⟩ := C181_theta F hm h
  rw [C113_same] at hk
  refine ⟨k - k', ?_⟩
  push_cast
  rw [abs_le] at *
  constructor <;> linarith [hk.1, hk.2, hk'.1, hk'.2]

/-- The sidereal polynomial turns 361 degrees a day. -/
theorem sidereal_lipschitz {x y : ℝ} (hx : |x - 2451545| ≤ 73050) (hy : |y - 2451545| ≤ 73050) :
    |siderealDeg x - siderealDeg y| ≤ 361 * |x - y| := by
  unfold siderealDeg
  dsimp only
  generalize hX : x - 2451545 = X at *
  generalize hY : y - 2451545 = Y at *
  rw [show x - y = X - Y by rw [← hX, ← hY]; ring]
  rw [show (280.46061837 + 360.98564736629 * X + 0.000387933 * (X / 36525) ^ 2 - (X / 36525) ^ 3 / 38710000 -
      (280.46061837 + 360.98564736629 * Y + 0.000387933 * (Y / 36525) ^ 2 - (Y / 36525) ^ 3 / 38710000) : ℝ) =
      (360.98564736629 + 0.000387933 / 36525 * (X / 36525 + Y / 36525)
        - ((X / 36525) ^ 2 + X / 36525 * (Y / 36525) + (Y / 36525) ^ 2) / (38710000 * 36525)) * (X - Y) by ring]
  rw [abs_mul]
  refine mul_le_mul_of_nonneg_right ?_ (abs_nonneg _)
  have h1 : |X / 36525| ≤ 2 := by rw [abs_div, abs_of_pos (by norm_num : (0 : ℝ) < 36525), div_le_iff₀ (by norm_num)]; linarith
  have h2 : |Y / 36525| ≤ 2 := by rw [abs_div, abs_of_pos (by norm_num : (0 : ℝ) < 36525), div_le_iff₀ (by norm_num)]; linarith
  generalize X / 36525 = u at *
  generalize Y / 36525 = v at *
  obtain ⟨a, b⟩ := abs_le.1 h1
  obtain ⟨c, d⟩ := abs_le.1 h2
  have q1 : u ^ 2 + u * v + v ^ 2 ≤ 12 := by nlinarith
  have q0 : 0 ≤ u ^ 2 + u * v + v ^ 2 := by nlinarith [sq_nonneg (u + v)]
  rw [abs_le]
  constructor <;> (norm_num; linarith)

/-- **C200**: for every epoch field of an element set, the sidereal angle from which the deep-space propagator starts is the sidereal time
of the epoch to `6.1 * 10 ^ -7` degrees, up to whole turns. -/
theorem C200_epoch (a b d f : Nat) (ha : a ≤ 9) (hb : b ≤ 9) (hd : d ≤ 999) (hf : f < 10 ^ 8) :
    ∃ k : ℤ, |(deepThetaD Fl64.ieee (epochD Fl64.ieee (48 + (a : Int)) (48 + (b : Int)) d f) : ℝ) * (180 / Real.pi)
      - siderealDeg ((twiceJd (fullYear (10 * a + b)) d : ℤ) / 2 + f / 10 ^ 8) - 360 * k| ≤ 61 / 10 ^ 8 := by
  obtain ⟨he, X0, X1⟩ := epoch_near Fl64.ieee a b d f ha hb hd hf
  obtain ⟨e0, e1⟩ := abs_le.1 he
  have hgrid : ∃ m : ℤ, epochD Fl64.ieee (48 + (a : Int)) (48 + (b : Int)) d f = m / 2 ^ 31 := by
    have h1 : (2 : ℚ) ^ 21 ≤ epochD Fl64.ieee (48 + (a : Int)) (48 + (b : Int)) d f := by linarith
    have h2 : epochD Fl64.ieee (48 + (a : Int)) (48 + (b : Int)) d f < 2 ^ 22 := by linarith
    unfold epochD at h1 h2 ⊢
    exact double_date h1 h2
  have heR : |((epochD Fl64.ieee (48 + (a : Int)) (48 + (b : Int)) d f : ℚ) : ℝ) - ((twiceJd (fullYear (10 * a + b)) d : ℤ) / 2 + f / 10 ^ 8)| ≤ 546 / 10 ^ 12 := by
    simpa using abs_real he
  have X0R : (2430000 : ℝ) ≤ ((twiceJd (fullYear (10 * a + b)) d : ℤ) : ℝ) / 2 + f / 10 ^ 8 := by
    have := (Rat.cast_le (K := ℝ)).2 X0
    push_cast at this
    exact this
  have X1R : ((twiceJd (fullYear (10 * a + b)) d : ℤ) : ℝ) / 2 + f / 10 ^ 8 ≤ (2475000 : ℝ) := by
    have := (Rat.cast_le (K := ℝ)).2 X1
    push_cast at this
    exact this
  clear he
  generalize epochD Fl64.ieee (48 + (a : Int)) (48 + (b : Int)) d f = E at *
  obtain ⟨m, hm⟩ := hgrid
  have hE : |E - 2451545| ≤ 73050 := by rw [abs_le]; constructor <;> linarith
  have hER : |(E : ℝ) - 2451545| ≤ 73050 := by exact_mod_cast hE
  obtain ⟨_, _, k, hk⟩ := C200_theta Fl64.ieee hm hE
  obtain ⟨n, hn⟩ := C113_sidereal E hER
  generalize ((twiceJd (fullYear (10 * a + b)) d : ℤ) : ℝ) / 2 + f / 10 ^ 8 = X at *
  have hl := sidereal_lipschitz hER (y := X) (by rw [abs_le]; constructor <;> linarith)
  have hp := Real.pi_gt_d6
  have hpos : 0 < 180 / Real.pi := by positivity
  have h57 : 180 / Real.pi ≤ 60 := by rw [div_le_iff₀ Real.pi_pos]; linarith
  refine ⟨n + k, ?_⟩
  have a1 : |((deepThetaD Fl64.ieee E : ℝ) - Sxp.ThetaG E - 2 * Real.pi * k) * (180 / Real.pi)| ≤ 12 / 10 ^ 13 * 60 := by
    rw [abs_mul, abs_of_pos hpos]
    exact mul_le_mul hk h57 hpos.le (by norm_num)
  have e : (deepThetaD Fl64.ieee E : ℝ) * (180 / Real.pi) - siderealDeg X - 360 * ((n + k : ℤ) : ℝ)
      = ((deepThetaD Fl64.ieee E : ℝ) - Sxp.ThetaG E - 2 * Real.pi * k) * (180 / Real.pi)
        + (Sxp.ThetaG E * (180 / Real.pi) - siderealDeg E - 360 * n) + (siderealDeg E - siderealDeg X) := by
    push_cast
    field_simp
    ring
  rw [e]
  refine (abs_add_three _ _ _).trans ?_
  have := hl.trans (mul_le_mul_of_nonneg_left heR (by norm_num))
  linarith

/-- Noon of 1 January 2000: 280.46 degrees; before 2000 the sum is negative. -/
example : ⌊deepThetaD Fl64.ieee 2451545 * 10 ^ 9⌋ = 4894961212 ∧ ⌊deepThetaD Fl64.ieee (2440000 + 3 / 4) * 10 ^ 9⌋ = 5792766093 := by decide +kernel

/-- The two computations are not the same function. -/
example : deepThetaD Fl64.ieee (2440000 + 3 / 4) ≠ thetaGD Fl64.ieee (2440000 + 3 / 4) := by decide +kernel

/-- Noon of 29 February 2024. -/
example : epochD Fl64.ieee 50 52 60 50000000 = 2460370 := by decide +kernel

end SatSky.Props
