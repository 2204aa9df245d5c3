import Verif.Model.ObserverDouble
import Verif.Props.AltDouble
import Verif.Props.Topocentric

/-! C181: the position of the observer in `double` arithmetic. -/

namespace SatSky.Props

open SatSky.Spec SatSky.Geo SatSky.Relative

/-! ### The angle of the Earth -/

/-- Between 2097152 and 4194304 every `double` is a multiple of `2 ^ -31`. -/
theorem double_date {J : ℚ} (h1 : 2 ^ 21 ≤ rndBits 53 J) (h2 : rndBits 53 J < 2 ^ 22) : ∃ m : ℤ, rndBits 53 J = m / 2 ^ 31 := by
  have hJ : J ≠ 0 := by
    rintro rfl
    rw [rndBits_zero] at h1
    norm_num at h1
  obtain ⟨m, k, hm1, hm2, e⟩ := significand hJ
  rw [abs_of_pos (by linarith)] at e
  have a : (2 : ℚ) ^ 52 ≤ m := by exact_mod_cast hm1
  have b : (m : ℚ) < 2 ^ 53 := by exact_mod_cast hm2
  have hk0 : (0 : ℚ) < 2 ^ k := zpow_pos (by norm_num) _
  have k1 : -32 < k := by
    by_contra hc
    have : (2 : ℚ) ^ k ≤ 2 ^ (-32 : ℤ) := zpow_le_zpow_right₀ (by norm_num) (by omega)
    have := mul_lt_mul'' b (lt_of_le_of_lt this (show (2 : ℚ) ^ (-32 : ℤ) < 2 ^ (-32 : ℤ) * (1 + 1 / 2 ^ 60) by norm_num)) (by linarith) hk0.le
    have h3 : (m : ℚ) * 2 ^ k ≤ (2 ^ 53 - 1) * 2 ^ (-32 : ℤ) := by
      refine mul_le_mul ?_ ‹_› hk0.le (by norm_num)
      have : m ≤ 2 ^ 53 - 1 := by omega
      exact_mod_cast this
    norm_num at h3
    linarith
  have k2 : k < -30 := by
    by_contra hc
    have h3 : (2 : ℚ) ^ (-30 : ℤ) ≤ 2 ^ k := zpow_le_zpow_right₀ (by norm_num) (by omega)
    have := mul_le_mul a h3 (by positivity) (by linarith)
    norm_num at this
    linarith
  have : k = -31 := by omega
  subst this
  exact ⟨m, by rw [e]; norm_num; ring⟩

theorem fmodD_real (x m : ℚ) : (fmodD x m : ℝ) = fmod (x : ℝ) (m : ℝ) := by
  unfold fmodD fmod
  push_cast
  rw [← trunc_cast]
  push_cast
  rfl

/-- Seconds of the exact formula, before whole days are taken off. -/
def thetaQ (jd : ℚ) : ℚ :=
  let ut := fmodD (jd + 1 / 2) 1
  let T := (jd - ut - 2451545) / 36525
  2411054841 / 10 ^ 5 + T * (8640184812866 / 10 ^ 6 + T * (93104 / 10 ^ 6 - T * (62 / 10 ^ 7))) + 86400 * (100273790934 / 10 ^ 11) * ut

theorem theta_turns (jd : ℚ) : ∃ m : ℤ, ThetaG jd = 2 * Real.pi * ((thetaQ jd : ℝ) + 86400 * m) / 86400 := by
  have e : gmst0 (((jd : ℝ) - fmod (jd + 1 / 2) 1 - JD2000) / 36525) + 86400 * (100273790934 / 10 ^ 11) * fmod (jd + 1 / 2) 1 = (thetaQ jd : ℝ) := by
    have h := fmodD_real (jd + 1 / 2) 1
    push_cast at h
    rw [← h]
    unfold thetaQ gmst0 JD2000
    push_cast
    norm_num
  obtain ⟨m, hm⟩ := fmod_turns (thetaQ jd : ℝ) 86400
  unfold ThetaG
  dsimp only
  rw [e]
  split_ifs with hc
  · exact ⟨m + 1, by rw [hm]; push_cast; ring⟩
  · exact ⟨m, by rw [hm]⟩

theorem ut_exact (F : Fl64) {jd : ℚ} {m : ℤ} (hm : jd = m / 2 ^ 31) (h : |jd - 2451545| ≤ 73050) :
    F.rnd (jd + 1 / 2) = jd + 1 / 2 ∧ 0 ≤ fmodD (jd + 1 / 2) 1 ∧ fmodD (jd + 1 / 2) 1 < 1 ∧
      F.rnd (F.rnd (jd - fmodD (jd + 1 / 2) 1) - 2451545) = jd - fmodD (jd + 1 / 2) 1 - 2451545 := by
  obtain ⟨a, b⟩ := abs_le.1 h
  have e1 : F.rnd (jd + 1 / 2) = jd + 1 / 2 := by
    have hx : jd + 1 / 2 = ((m + 2 ^ 30 : ℤ) : ℚ) / 2 ^ 31 := by rw [hm]; push_cast; ring
    have hb : |m + 2 ^ 30| ≤ 2 ^ 53 := by
      have : |((m + 2 ^ 30 : ℤ) : ℚ)| ≤ 2 ^ 53 := by
        have : ((m + 2 ^ 30 : ℤ) : ℚ) = (jd + 1 / 2) * 2 ^ 31 := by rw [hx]; ring
        rw [this, abs_le]
        constructor <;> linarith
      exact_mod_cast this
    rw [hx]
    exact F.exact _ 31 hb (by norm_num)
  have ht : truncQ (jd + 1 / 2) = ⌊jd + 1 / 2⌋ := if_pos (by linarith)
  have hf : fmodD (jd + 1 / 2) 1 = jd + 1 / 2 - ⌊jd + 1 / 2⌋ := by
    unfold fmodD
    rw [div_one, one_mul, ht]
  have f1 := Int.floor_le (jd + 1 / 2)
  have f2 := Int.lt_floor_add_one (jd + 1 / 2)
  have e2 : jd - fmodD (jd + 1 / 2) 1 = ((2 * ⌊jd + 1 / 2⌋ - 1 : ℤ) : ℚ) / 2 ^ 1 := by rw [hf]; push_cast; ring
  have hn : |⌊jd + 1 / 2⌋| ≤ 2524596 := by
    have : |((⌊jd + 1 / 2⌋ : ℤ) : ℚ)| ≤ 2524596 := by rw [abs_le]; constructor <;> linarith
    exact_mod_cast this
  obtain ⟨n1, n2⟩ := abs_le.1 hn
  refine ⟨e1, by rw [hf]; linarith, by rw [hf]; linarith, ?_⟩
  rw [e2, F.exact _ 1 (by rw [abs_le]; constructor <;> linarith) (by norm_num)]
  have e3 : ((2 * ⌊jd + 1 / 2⌋ - 1 : ℤ) : ℚ) / 2 ^ 1 - 2451545 = ((2 * ⌊jd + 1 / 2⌋ - 1 - 2 * 2451545 : ℤ) : ℚ) / 2 ^ 1 := by push_cast; ring
  rw [e3, F.exact _ 1 (by rw [abs_le]; constructor <;> linarith) (by norm_num)]

theorem thetaSecD_near (F : Fl64) {jd : ℚ} {m : ℤ} (hm : jd = m / 2 ^ 31) (h : |jd - 2451545| ≤ 73050) :
    0 ≤ thetaSecD F jd ∧ thetaSecD F jd ≤ 86400 ∧ ∃ k : ℤ, |thetaSecD F jd - (thetaQ jd + 86400 * k)| ≤ 14 / 10 ^ 9 := by
  obtain ⟨e1, u0, u1, e2⟩ := ut_exact F hm h
  obtain ⟨a, b⟩ := abs_le.1 h
  unfold thetaSecD thetaQ gmstSecD
  dsimp only
  rw [e1, e2]
  generalize fmodD (jd + 1 / 2) 1 = ut at *
  have hT : |(jd - ut - 2451545) / 36525| ≤ 20001 / 10 ^ 4 := by
    rw [abs_div, abs_of_pos (by norm_num : (0 : ℚ) < 36525), div_le_iff₀ (by norm_num), abs_le]
    constructor <;> linarith
  have ht := rnd_const F hT (E := 21 / 10 / 2 ^ 53) (by norm_num)
  obtain ⟨k6, b6⟩ := gmst_poly_near F hT ht
  generalize (jd - ut - 2451545) / 36525 = T at *
  generalize F.rnd T = t at *
  generalize F.rnd (F.rnd (2411054841 / 10 ^ 5) + F.rnd (t * F.rnd (F.rnd (8640184812866 / 10 ^ 6) +
        F.rnd (t * F.rnd (F.rnd (93104 / 10 ^ 6) - F.rnd (t * F.rnd (62 / 10 ^ 7))))))) = p at *
  generalize (2411054841 / 10 ^ 5 + T * (8640184812866 / 10 ^ 6 + T * (93104 / 10 ^ 6 - T * (62 / 10 ^ 7))) : ℚ) = P at *
  have c1 := rnd_const F (Z := 100273790934 / 10 ^ 11) (A := 101 / 100) (E := 113 / 10 ^ 18) (by norm_num [abs_le]) (by norm_num)
  have c2 : |F.rnd (86400 * F.rnd (100273790934 / 10 ^ 11)) - 86400 * (100273790934 / 10 ^ 11)| ≤ 2 / 10 ^ 11 := by
    refine rnd_err F (e := 86400 * (113 / 10 ^ 18)) (A := 86637) ?_ (by norm_num [abs_le]) (by norm_num)
    rw [← mul_sub, abs_mul, abs_of_pos (by norm_num : (0 : ℚ) < 86400)]
    exact mul_le_mul_of_nonneg_left c1 (by norm_num)
  have c3 : |F.rnd (F.rnd (86400 * F.rnd (100273790934 / 10 ^ 11)) * ut) - 86400 * (100273790934 / 10 ^ 11) * ut| ≤ 4 / 10 ^ 11 := by
    refine rnd_err F (e := 2 / 10 ^ 11) (A := 86637) ?_ ?_ (by norm_num)
    · rw [← sub_mul, abs_mul, abs_of_nonneg u0]
      have := mul_le_mul c2 u1.le u0 (by norm_num)
      linarith
    · rw [abs_le]
      constructor <;> linarith
  have b7 : |P + 86400 * (100273790934 / 10 ^ 11) * ut| ≤ 17391985 := by
    rw [abs_le] at b6 ⊢
    constructor <;> linarith [b6.1, b6.2]
  have c4 := rnd_err F (add_err k6 c3) b7 (E := 131 / 10 ^ 10) (by norm_num)
  generalize F.rnd (p + F.rnd (F.rnd (86400 * F.rnd (100273790934 / 10 ^ 11)) * ut)) = s at *
  generalize P + 86400 * (100273790934 / 10 ^ 11) * ut = S at *
  have hfr := abs_le.1 (frac_bound (s / 86400))
  have hs : s = 86400 * (s / 86400) := by ring
  have g1 : -86400 ≤ fmodD s 86400 := by unfold fmodD; linarith [hfr.1]
  have g2 : fmodD s 86400 ≤ 86400 := by unfold fmodD; linarith [hfr.2]
  have g3 : ∃ k : ℤ, fmodD s 86400 = s + 86400 * k := ⟨-truncQ (s / 86400), by unfold fmodD; push_cast; ring⟩
  generalize fmodD s 86400 = g at *
  obtain ⟨k, hk⟩ := g3
  by_cases hg : g < 0
  · rw [if_pos hg]
    have r0 : 0 ≤ F.rnd (g + 86400) := F.nonneg (by linarith)
    have r1 : F.rnd (g + 86400) ≤ 86400 := by
      have := F.mono (g + 86400) 86400 (by linarith)
      have h4 := F.exact 86400 0 (by norm_num) (by norm_num)
      norm_num at h4
      rwa [h4] at this
    have r2 := rnd_const F (Z := g + 86400) (A := 86400) (E := 1 / 10 ^ 11) (by rw [abs_le]; constructor <;> linarith) (by norm_num)
    refine ⟨r0, r1, k + 1, ?_⟩
    push_cast
    rw [abs_le] at *
    constructor <;> linarith [r2.1, r2.2, c4.1, c4.2]
  · rw [if_neg hg]
    refine ⟨by linarith, g2, k, ?_⟩
    rw [abs_le] at *
    constructor <;> linarith [c4.1, c4.2]

/-- C181: from 1800 to 2199 the angle of the Earth in `double` is within `1.1 * 10 ^ -12` of the one of exact arithmetic, up to whole turns. -/
theorem C181_theta (F : Fl64) {jd : ℚ} {m : ℤ} (hm : jd = m / 2 ^ 31) (h : |jd - 2451545| ≤ 73050) :
    0 ≤ thetaGD F jd ∧ (thetaGD F jd : ℝ) ≤ 629 / 100 ∧ ∃ k : ℤ, |(thetaGD F jd : ℝ) - ThetaG jd - 2 * Real.pi * k| ≤ 11 / 10 ^ 13 := by
  obtain ⟨g0, g1, k, hk⟩ := thetaSecD_near F hm h
  obtain ⟨m', hm'⟩ := theta_turns jd
  have hp := Real.pi_gt_d6
  have hp' := Real.pi_lt_d6
  have ht := twopi_near
  have hk' : |(thetaSecD F jd : ℝ) - (thetaQ jd + 86400 * k)| ≤ 14 / 10 ^ 9 := by simpa using abs_real hk
  have g0' : (0 : ℝ) ≤ thetaSecD F jd := by exact_mod_cast g0
  have g1' : (thetaSecD F jd : ℝ) ≤ 86400 := by exact_mod_cast g1
  have tw : 0 ≤ twopiD := by norm_num [twopiD]
  unfold thetaGD
  generalize thetaSecD F jd = g at *
  have r1 : |(F.rnd (twopiD * g) : ℝ) - 2 * Real.pi * g| ≤ 2 / 10 ^ 10 := by
    refine rnd_real F (e := 1 / 10 ^ 15 * 86400) (A := 542868) ?_ ?_ (by norm_num)
    · push_cast
      rw [← sub_mul, abs_mul, abs_of_nonneg g0']
      exact mul_le_mul ht g1' g0' (by norm_num)
    · rw [abs_of_nonneg (by positivity)]
      nlinarith
  have r2 : |(F.rnd (F.rnd (twopiD * g) / 86400) : ℝ) - 2 * Real.pi * g / 86400| ≤ 4 / 10 ^ 15 := by
    refine rnd_real F (e := 2 / 10 ^ 10 / 86400) (A := 6284 / 1000) ?_ ?_ (by norm_num)
    · push_cast
      rw [← sub_div, abs_div, abs_of_pos (by norm_num : (0 : ℝ) < 86400)]
      exact div_le_div_of_nonneg_right r1 (by norm_num)
    · rw [abs_of_nonneg (by positivity), div_le_iff₀ (by norm_num)]
      nlinarith
  have r3 : |2 * Real.pi * (g : ℝ) / 86400 - 2 * Real.pi * (thetaQ jd + 86400 * k) / 86400| ≤ 629 / 100 * (14 / 10 ^ 9) / 86400 := by
    rw [← sub_div, ← mul_sub, abs_div, abs_mul, abs_of_pos (by positivity : 0 < 2 * Real.pi), abs_of_pos (by norm_num : (0 : ℝ) < 86400)]
    exact div_le_div_of_nonneg_right (mul_le_mul (by linarith) hk' (abs_nonneg _) (by norm_num)) (by norm_num)
  refine ⟨F.nonneg (div_nonneg (F.nonneg (mul_nonneg tw g0)) (by norm_num)), ?_, k - m', ?_⟩
  · have : 2 * Real.pi * (g : ℝ) / 86400 ≤ 6284 / 1000 := by
      rw [div_le_iff₀ (by norm_num)]
      nlinarith
    linarith [(abs_le.1 r2).2]
  · rw [hm']
    push_cast
    have e : 2 * Real.pi * ((thetaQ jd : ℝ) + 86400 * m') / 86400 + 2 * Real.pi * (k - m') = 2 * Real.pi * (thetaQ jd + 86400 * k) / 86400 := by ring
    rw [sub_sub, e]
    have := abs_sub_le (F.rnd (F.rnd (twopiD * g) / 86400) : ℝ) (2 * Real.pi * g / 86400) (2 * Real.pi * (thetaQ jd + 86400 * k) / 86400)
    linarith

/-- C181: and within `4.1 * 10 ^ -7` degrees of the polynomial for any instant. -/
theorem C181_clock (F : Fl64) {jd : ℚ} {m : ℤ} (hm : jd = m / 2 ^ 31) (h : |jd - 2451545| ≤ 73050) :
    ∃ k : ℤ, |(thetaGD F jd : ℝ) * (180 / Real.pi) - siderealDeg jd - 360 * k| ≤ 41 / 10 ^ 8 := by
  obtain ⟨_, _, k, hk⟩ := C181_theta F hm h
  have h' : |(jd : ℝ) - 2451545| ≤ 73050 := by exact_mod_cast h
  obtain ⟨n, hn⟩ := C113_sidereal jd h'
  rw [C113_same] at hn
  have hp := Real.pi_gt_d6
  have hpos : 0 < 180 / Real.pi := by positivity
  have h57 : 180 / Real.pi ≤ 60 := by rw [div_le_iff₀ Real.pi_pos]; linarith
  refine ⟨n + k, ?_⟩
  have e : (thetaGD F jd : ℝ) * (180 / Real.pi) - siderealDeg jd - 360 * ((n + k : ℤ) : ℝ)
      = ((thetaGD F jd : ℝ) - ThetaG jd - 2 * Real.pi * k) * (180 / Real.pi) + (ThetaG jd * (180 / Real.pi) - siderealDeg jd - 360 * n) := by
    push_cast
    field_simp
    ring
  rw [e]
  have a1 : |((thetaGD F jd : ℝ) - ThetaG jd - 2 * Real.pi * k) * (180 / Real.pi)| ≤ 11 / 10 ^ 13 * 60 := by
    rw [abs_mul, abs_of_pos hpos]
    exact mul_le_mul hk h57 hpos.le (by norm_num)
  have := abs_add_le (((thetaGD F jd : ℝ) - ThetaG jd - 2 * Real.pi * k) * (180 / Real.pi)) (ThetaG jd * (180 / Real.pi) - siderealDeg jd - 360 * n)
  linarith

/-- C181: the two sidereal times of the program, both in `double`, agree within `2 * 10 ^ -10` degrees, up to whole turns. -/
theorem C181_agree (F : Fl64) {n : ℕ} {jd lon l g : ℚ} {m : ℤ} (hm : jd = m / 2 ^ 31) (h : |jd - 2451545| ≤ 73050) (hlon : |lon| ≤ 360)
    (hD : lmstD F n jd lon = some (l, g)) : ∃ k : ℤ, |15 * (l : ℝ) - (thetaGD F jd * (180 / Real.pi) + lon) - 360 * k| ≤ 2 / 10 ^ 10 := by
  obtain ⟨_, _, k, hk⟩ := C181_theta F hm h
  obtain ⟨a, b⟩ := abs_le.1 h
  have hr : jd = F.rnd jd := by
    have hb : |m| ≤ 2 ^ 53 := by
      have : |(m : ℚ)| ≤ 2 ^ 53 := by
        rw [show (m : ℚ) = jd * 2 ^ 31 by rw [hm]; ring, abs_le]
        constructor <;> linarith
      exact_mod_cast this
    rw [hm, F.exact m 31 hb (by norm_num)]
  obtain ⟨⟨l', g'⟩, hE⟩ := C39_ends 2 le_rfl (jd : ℝ) lon
  obtain ⟨⟨_, _, k1, hk1⟩, _⟩ := C178_numerical hr h hlon hD hE
  obtain ⟨_, _, k2, hk2⟩ := C39_local hE
  have hj0 : (0 : ℝ) ≤ jd := by
    have : (0 : ℚ) ≤ jd := by linarith
    exact_mod_cast this
  obtain ⟨k3, hk3⟩ := C75_agree hj0 hE
  have hp := Real.pi_gt_d6
  have hpos : 0 < 180 / Real.pi := by positivity
  have h57 : 180 / Real.pi ≤ 60 := by rw [div_le_iff₀ Real.pi_pos]; linarith
  have e1 : g' * 15 = ThetaG jd * (180 / Real.pi) + 360 * k3 := by
    have : g' * 15 = (g' * (Real.pi / 12)) * (180 / Real.pi) := by field_simp; ring
    rw [this, hk3]
    field_simp
    ring
  have a1 : |((thetaGD F jd : ℝ) - ThetaG jd - 2 * Real.pi * k) * (180 / Real.pi)| ≤ 11 / 10 ^ 13 * 60 := by
    rw [abs_mul, abs_of_pos hpos]
    exact mul_le_mul hk h57 hpos.le (by norm_num)
  have e2 : ((thetaGD F jd : ℝ) - ThetaG jd - 2 * Real.pi * k) * (180 / Real.pi)
      = thetaGD F jd * (180 / Real.pi) - ThetaG jd * (180 / Real.pi) - 360 * k := by field_simp; ring
  rw [e2] at a1
  refine ⟨k1 + k2 + k3 - k, ?_⟩
  push_cast
  generalize (thetaGD F jd : ℝ) * (180 / Real.pi) = A at *
  generalize ThetaG (jd : ℝ) * (180 / Real.pi) = B at *
  rw [hk2] at hk1
  rw [abs_le] at *
  constructor <;> linarith [hk1.1, hk1.2, a1.1, a1.2]

/-! ### The parallax constants -/

theorem arctan_abs_le (t : ℝ) : |Real.arctan t| ≤ |t| := by
  have key : ∀ t : ℝ, 0 ≤ t → Real.arctan t ≤ t := by
    intro t ht
    have := Real.le_tan (x := Real.arctan t) (by rwa [Real.arctan_nonneg]) (Real.arctan_lt_pi_div_two t)
    rwa [Real.tan_arctan] at this
  rcases le_total 0 t with h | h
  · rw [abs_of_nonneg h, abs_of_nonneg (Real.arctan_nonneg.2 h)]
    exact key t h
  · have := key (-t) (by linarith)
    rw [Real.arctan_neg] at this
    rw [abs_of_nonpos h, abs_of_nonpos (by linarith [Real.arctan_nonneg.2 (show 0 ≤ -t by linarith), Real.arctan_neg t])]
    exact this

/-- A relative error of the argument is an absolute error of the inverse tangent. -/
theorem arctan_rel {q x d e : ℝ} (h : |q - x| ≤ d * |x| + e) (hd : d ≤ 1 / 2) (hd0 : 0 ≤ d) (hen : 0 ≤ e) (he : e ≤ 1 / 4) : |Real.arctan q - Real.arctan x| ≤ d + 2 * e := by
  have he0 : 0 ≤ d * |x| + e := (abs_nonneg _).trans h
  have hqx : x * x - (d * |x| + e) * |x| ≤ q * x := by
    have h1 : |(q - x) * x| ≤ (d * |x| + e) * |x| := by rw [abs_mul]; exact mul_le_mul_of_nonneg_right h (abs_nonneg _)
    have := (abs_le.1 h1).1
    linarith
  have hxx : x * x = |x| * |x| := (abs_mul_abs_self x).symm
  have ha := abs_nonneg x
  generalize |x| = a at *
  have hden : 1 + a * a / 2 - a / 4 ≤ 1 + q * x := by nlinarith
  have hpos : 0 < 1 + a * a / 2 - a / 4 := by nlinarith [sq_nonneg (a - 1 / 4)]
  have e1 : Real.arctan q - Real.arctan x = Real.arctan ((q - x) / (1 + q * x)) := by
    have := Real.arctan_add (x := q) (y := -x) (by linarith)
    rw [Real.arctan_neg] at this
    rw [sub_eq_add_neg, this]
    congr 1
    ring
  rw [e1]
  refine (arctan_abs_le _).trans ?_
  rw [abs_div, abs_of_pos (by linarith : 0 < 1 + q * x), div_le_iff₀ (by linarith)]
  have h2 : a ≤ 1 + a * a / 2 - a / 4 := by nlinarith [sq_nonneg (a - 5 / 4)]
  have h3 : 1 / 2 ≤ 1 + a * a / 2 - a / 4 := by nlinarith [sq_nonneg (a - 1 / 4)]
  have h4 := mul_le_mul_of_nonneg_left (h2.trans hden) hd0
  have h5 := mul_le_mul_of_nonneg_left (h3.trans hden) hen
  linarith

theorem ratio_real (F : Fl64) : |(ratioD F : ℝ) - ratio| ≤ 12 / 10 ^ 17 ∧ |ratio| ≤ 1 ∧ 99 / 100 ≤ ratio := by
  refine ⟨?_, by unfold ratio; norm_num [abs_le], by unfold ratio; norm_num⟩
  unfold ratioD
  refine rnd_real F (e := 0) (A := 1) ?_ (by unfold ratio; norm_num [abs_le]) (by norm_num)
  unfold ratio
  push_cast
  simp

/-- The argument of `atan`. -/
theorem tangent_near (F : Fl64) (M : ObsLib) {lat : ℚ} (hc : 1 / 10 ^ 17 ≤ Real.cos lat) :
    |(F.rnd (F.rnd (M.sin lat * ratioD F) / M.cos lat) : ℝ) - Real.sin lat * ratio / Real.cos lat|
      ≤ 1 / 10 ^ 15 * |Real.sin lat * ratio / Real.cos lat| + 1 / 10 ^ 40 := by
  obtain ⟨r1, r2, r3⟩ := ratio_real F
  have s1 := M.sin_err lat
  have c1 := M.cos_err lat
  have hc0' : 0 < Real.cos (lat : ℝ) := lt_of_lt_of_le (by norm_num) hc
  rw [abs_of_pos hc0'] at c1
  have hs := Real.abs_sin_le_one (lat : ℝ)
  generalize Real.sin (lat : ℝ) = s at *
  generalize Real.cos (lat : ℝ) = c at *
  have hc0 : 0 < c := lt_of_lt_of_le (by norm_num) hc
  have r0 : 0 < ratio := by linarith
  have rr : |ratio| = ratio := abs_of_pos r0
  rw [rr] at r2
  -- the product
  have p1 : |((M.sin lat * ratioD F : ℚ) : ℝ) - s * ratio| ≤ 35 / 10 ^ 17 * (|s| * ratio) + 2 / 2 ^ 200 := by
    push_cast
    rw [show (M.sin lat : ℝ) * ratioD F - s * ratio = (M.sin lat - s) * ratioD F + s * (ratioD F - ratio) by ring]
    have hR : |(ratioD F : ℝ)| ≤ ratio + 12 / 10 ^ 17 := by
      have := abs_sub_abs_le_abs_sub (ratioD F : ℝ) ratio
      rw [rr] at this
      linarith
    have a1 : |((M.sin lat : ℝ) - s) * ratioD F| ≤ (2 / 2 ^ 53 * |s| + 1 / 2 ^ 200) * (ratio + 12 / 10 ^ 17) := by
      rw [abs_mul]; exact mul_le_mul s1 hR (abs_nonneg _) (by positivity)
    have a2 : |s * ((ratioD F : ℝ) - ratio)| ≤ |s| * (12 / 10 ^ 17) := by
      rw [abs_mul]; exact mul_le_mul_of_nonneg_left r1 (abs_nonneg _)
    have a3 := abs_add_le (((M.sin lat : ℝ) - s) * ratioD F) (s * (ratioD F - ratio))
    have hs0 := abs_nonneg s
    generalize |s| = t at *
    have a4 : t * (99 / 100) ≤ t * ratio := mul_le_mul_of_nonneg_left r3 hs0
    have a5 : (2 / 2 ^ 53 * t + 1 / 2 ^ 200) * (ratio + 12 / 10 ^ 17) ≤ 2 / 2 ^ 53 * (t * ratio) + 2 / 2 ^ 53 * t * (12 / 10 ^ 17) + 1 / 2 ^ 200 * 2 := by
      nlinarith
    linarith
  have hS : |s * ratio| = |s| * ratio := by rw [abs_mul, rr]
  have p2 : |(F.rnd (M.sin lat * ratioD F) : ℝ) - s * ratio| ≤ 47 / 10 ^ 17 * |s * ratio| + 4 / 2 ^ 200 := by
    have e1 := err_real F (M.sin lat * ratioD F)
    generalize ((M.sin lat * ratioD F : ℚ) : ℝ) = z at *
    rw [← hS] at p1
    have e2 := abs_sub_abs_le_abs_sub z (s * ratio)
    have e3 := abs_sub_le (F.rnd (M.sin lat * ratioD F) : ℝ) z (s * ratio)
    have := abs_nonneg (s * ratio)
    linarith
  generalize F.rnd (M.sin lat * ratioD F) = p at *
  have hS1 : |s * ratio| ≤ 1 := by rw [hS]; exact mul_le_one₀ hs r0.le r2
  generalize s * ratio = S at *
  -- the quotient
  have c2 : |(M.cos lat : ℝ) - c| ≤ 23 / 10 ^ 17 * c := by
    have : (1 : ℝ) / 2 ^ 200 ≤ 1 / 10 ^ 18 * (1 / 10 ^ 17) := by norm_num
    nlinarith
  generalize M.cos lat = k at *
  have hk : c * (1 - 23 / 10 ^ 17) ≤ (k : ℝ) := by linarith [(abs_le.1 c2).1]
  have hk0 : 0 < (k : ℝ) := lt_of_lt_of_le (by nlinarith) hk
  have q1 : |(p : ℝ) / k - S / c| ≤ 71 / 10 ^ 17 * |S / c| + 1 / 10 ^ 42 := by
    rw [div_sub_div _ _ hk0.ne' hc0.ne', abs_div, abs_of_pos (mul_pos hk0 hc0), abs_div, abs_of_pos hc0, div_le_iff₀ (mul_pos hk0 hc0)]
    have b1 : |(p : ℝ) * c - k * S| ≤ (47 / 10 ^ 17 * |S| + 4 / 2 ^ 200) * c + 23 / 10 ^ 17 * c * |S| := by
      rw [show (p : ℝ) * c - k * S = (p - S) * c + -((k - c) * S) by ring]
      have b2 : |((p : ℝ) - S) * c| ≤ (47 / 10 ^ 17 * |S| + 4 / 2 ^ 200) * c := by
        rw [abs_mul, abs_of_pos hc0]; exact mul_le_mul_of_nonneg_right p2 hc0.le
      have b3 : |-(((k : ℝ) - c) * S)| ≤ 23 / 10 ^ 17 * c * |S| := by
        rw [abs_neg, abs_mul]; exact mul_le_mul_of_nonneg_right c2 (abs_nonneg _)
      exact (abs_add_le _ _).trans (add_le_add b2 b3)
    refine b1.trans ?_
    have hSn := abs_nonneg S
    generalize |S| = t at *
    have b4 : (71 / 10 ^ 17 * (t / c) + 1 / 10 ^ 42) * (k * c) = 71 / 10 ^ 17 * t * k + 1 / 10 ^ 42 * k * c := by field_simp
    rw [b4]
    have b5 := mul_le_mul_of_nonneg_left hk (show 0 ≤ 71 / 10 ^ 17 * t by positivity)
    have b6 : 1 / 10 ^ 42 * (1 / 10 ^ 17 * (1 / 2)) * c ≤ 1 / 10 ^ 42 * k * c := by
      refine mul_le_mul_of_nonneg_right (mul_le_mul_of_nonneg_left ?_ (by norm_num)) hc0.le
      nlinarith
    have b7 : 4 / 2 ^ 200 * c ≤ 1 / 10 ^ 42 * (1 / 10 ^ 17 * (1 / 2)) * c := mul_le_mul_of_nonneg_right (by norm_num) hc0.le
    have b8 : 0 ≤ c * t := by positivity
    nlinarith
  have e1 := err_real F (p / k)
  push_cast at e1
  generalize (F.rnd (p / k) : ℝ) = q at *
  generalize (p : ℝ) / k = z at *
  generalize S / c = x at *
  have e2 := abs_sub_abs_le_abs_sub z x
  have e3 := abs_sub_le q z x
  have := abs_nonneg x
  linarith

/-- The constants of the observer, to `4 * 10 ^ -15`, up to 637 km of height and up to the poles (as near as a `double` gets). -/
theorem parallax_near (F : Fl64) (M : ObsLib) {lat ht : ℚ} (hc : 1 / 10 ^ 17 ≤ Real.cos lat) (hh : |ht| ≤ 637814) :
    |((parallaxD F M lat ht).1 : ℝ) - (earth_lat_alt_to_parallax lat ht).1| ≤ 4 / 10 ^ 15 ∧
      |((parallaxD F M lat ht).2 : ℝ) - (earth_lat_alt_to_parallax lat ht).2| ≤ 4 / 10 ^ 15 ∧
      |(earth_lat_alt_to_parallax lat ht).1| ≤ 11 / 10 ∧ |(earth_lat_alt_to_parallax lat ht).2| ≤ 11 / 10 := by
  have htan := arctan_rel (tangent_near F M hc) (by norm_num) (by norm_num) (by norm_num) (by norm_num)
  obtain ⟨r1, r2, r3⟩ := ratio_real F
  unfold parallaxD earth_lat_alt_to_parallax axis
  dsimp only
  have a1 := M.atan_err (F.rnd (F.rnd (M.sin lat * ratioD F) / M.cos lat))
  have hp := Real.pi_lt_d6
  have a2 : |Real.arctan (F.rnd (F.rnd (M.sin lat * ratioD F) / M.cos lat))| ≤ 16 / 10 := by
    rw [abs_le]
    constructor <;> linarith [Real.arctan_lt_pi_div_two (F.rnd (F.rnd (M.sin lat * ratioD F) / M.cos lat) : ℝ),
      Real.neg_pi_div_two_lt_arctan (F.rnd (F.rnd (M.sin lat * ratioD F) / M.cos lat) : ℝ)]
  generalize M.atan (F.rnd (F.rnd (M.sin lat * ratioD F) / M.cos lat)) = u at *
  generalize Real.arctan (F.rnd (F.rnd (M.sin lat * ratioD F) / M.cos lat) : ℝ) = v at *
  generalize Real.arctan (Real.sin lat * ratio / Real.cos lat) = U at *
  have hu : |(u : ℝ) - U| ≤ 14 / 10 ^ 16 := by
    have := abs_sub_le (u : ℝ) v U
    linarith
  have cu := cos_lib M.toLibm hu
  have su := sin_lib M.toLibm hu
  have cl := cos_lib M.toLibm (show |(lat : ℝ) - lat| ≤ 0 by simp)
  have sl := sin_lib M.toLibm (show |(lat : ℝ) - lat| ≤ 0 by simp)
  have bc := Real.abs_cos_le_one U
  have bs := Real.abs_sin_le_one U
  have bcl := Real.abs_cos_le_one (lat : ℝ)
  have bsl := Real.abs_sin_le_one (lat : ℝ)
  have hh' : |(ht : ℝ)| ≤ 637814 := by exact_mod_cast hh
  have hH : |(ht : ℝ) / 6378140| ≤ 1 / 10 := by
    rw [abs_div, abs_of_pos (by norm_num : (0 : ℝ) < 6378140), div_le_iff₀ (by norm_num)]
    linarith
  have h1 : |(F.rnd (ht / 6378140) : ℝ) - ht / 6378140| ≤ 12 / 10 ^ 18 := rnd_real F (e := 0) (by push_cast; simp) hH (by norm_num)
  generalize F.rnd (ht / 6378140) = h at *
  generalize (ht : ℝ) / 6378140 = H at *
  generalize Real.cos U = CU at *
  generalize Real.sin U = SU at *
  generalize Real.cos (lat : ℝ) = CL at *
  generalize Real.sin (lat : ℝ) = SL at *
  have m1 : |H * CL| ≤ 1 / 10 := by
    rw [abs_mul]; have := mul_le_mul hH bcl (abs_nonneg _) (by norm_num); linarith
  have m2 : |H * SL| ≤ 1 / 10 := by
    rw [abs_mul]; have := mul_le_mul hH bsl (abs_nonneg _) (by norm_num); linarith
  have m3 : |ratio * SU| ≤ 1 := by rw [abs_mul]; exact mul_le_one₀ r2 (abs_nonneg _) bs
  have p1 := rnd_real F (z := h * M.cos lat) (by push_cast; exact prod_real h1 cl (by linarith) bcl) m1 (E := 4 / 10 ^ 16) (by norm_num)
  have p2 := rnd_real F (z := h * M.sin lat) (by push_cast; exact prod_real h1 sl (by linarith) bsl) m2 (E := 4 / 10 ^ 16) (by norm_num)
  have p3 := rnd_real F (z := ratioD F * M.sin u) (by push_cast; exact prod_real r1 su r2 bs) m3 (E := 19 / 10 ^ 16) (by norm_num)
  have b1 : |CU + H * CL| ≤ 11 / 10 := by have := abs_add_le CU (H * CL); linarith
  have b2 : |ratio * SU + H * SL| ≤ 11 / 10 := by have := abs_add_le (ratio * SU) (H * SL); linarith
  refine ⟨?_, ?_, b1, b2⟩
  · refine rnd_real F (e := 21 / 10 ^ 16) ?_ b1 (by norm_num)
    push_cast
    rw [abs_le] at *
    constructor <;> linarith [cu.1, cu.2, p1.1, p1.2]
  · refine rnd_real F (e := 23 / 10 ^ 16) ?_ b2 (by norm_num)
    push_cast
    rw [abs_le] at *
    constructor <;> linarith [p3.1, p3.2, p2.1, p2.2]

/-! ### The position -/

theorem kilometres (F : Fl64) {q : ℚ} {X e : ℝ} (h : |(q : ℝ) - X| ≤ e) (hX : |X| ≤ 11 / 10) :
    |(F.rnd (F.rnd (q * 6378140) / 1000) : ℝ) - X * axis / 1000| ≤ 6379 * e + 2 / 10 ^ 12 := by
  unfold axis
  have h1 : |(F.rnd (q * 6378140) : ℝ) - X * 6378140| ≤ 6378141 * e + 8 / 10 ^ 10 := by
    refine rnd_real F (e := 6378140 * e) (A := 7015954) ?_ ?_ ?_
    · push_cast
      rw [← sub_mul, abs_mul, abs_of_pos (by norm_num : (0 : ℝ) < 6378140)]
      linarith
    · rw [abs_mul, abs_of_pos (by norm_num : (0 : ℝ) < 6378140)]
      linarith
    · have := (abs_nonneg _).trans h
      linarith
  refine rnd_real F (e := (6378141 * e + 8 / 10 ^ 10) / 1000) (A := 7016) ?_ ?_ ?_
  · push_cast
    rw [← sub_div, abs_div, abs_of_pos (by norm_num : (0 : ℝ) < 1000)]
    exact div_le_div_of_nonneg_right h1 (by norm_num)
  · rw [abs_div, abs_mul, abs_of_pos (by norm_num : (0 : ℝ) < 1000), abs_of_pos (by norm_num : (0 : ℝ) < 6378140), div_le_iff₀ (by norm_num)]
    linarith
  · have := (abs_nonneg _).trans h
    linarith

/-- C181: every component of the position of the observer is within `10 ^ -8` km of the one of exact arithmetic. -/
theorem C181_observer (F : Fl64) (M : ObsLib) {jd lon lat ht : ℚ} {m : ℤ} (hm : jd = m / 2 ^ 31) (h : |jd - 2451545| ≤ 73050) (hlon : |lon| ≤ 7)
    (hc : 1 / 10 ^ 17 ≤ Real.cos lat) (hh : |ht| ≤ 637814) {x y z : ℚ} {V : V3}
    (hD : observerD F M jd lon (parallaxD F M lat ht).1 (parallaxD F M lat ht).2 = (x, y, z))
    (hV : V = observer_cartesian_coords jd lon (earth_lat_alt_to_parallax lat ht).1 (earth_lat_alt_to_parallax lat ht).2) :
    |(x : ℝ) - V.x| ≤ 1 / 10 ^ 8 ∧ |(y : ℝ) - V.y| ≤ 1 / 10 ^ 8 ∧ |(z : ℝ) - V.z| ≤ 1 / 10 ^ 8 := by
  obtain ⟨p1, p2, p3, p4⟩ := parallax_near F M hc hh
  obtain ⟨t0, t1, k, hk⟩ := C181_theta F hm h
  generalize (parallaxD F M lat ht).1 = rc at *
  generalize (parallaxD F M lat ht).2 = rs at *
  generalize (earth_lat_alt_to_parallax lat ht).1 = RC at *
  generalize (earth_lat_alt_to_parallax lat ht).2 = RS at *
  unfold observerD at hD
  unfold observer_cartesian_coords at hV
  dsimp only at hD hV
  simp only [Prod.mk.injEq] at hD
  obtain ⟨rfl, rfl, rfl⟩ := hD
  subst hV
  dsimp only
  have hlon' : |(lon : ℝ)| ≤ 7 := by exact_mod_cast hlon
  have t0' : (0 : ℝ) ≤ thetaGD F jd := by exact_mod_cast t0
  have hL : |(F.rnd (lon + thetaGD F jd) : ℝ) - (lon + ThetaG jd + k * (2 * Real.pi))| ≤ 111 / 10 ^ 14 := by
    have e1 := rnd_real F (z := lon + thetaGD F jd) (Z := lon + thetaGD F jd) (e := 0) (A := 1329 / 100) (E := 3 / 10 ^ 15) (by push_cast; simp) (by
      rw [abs_le] at hlon' ⊢
      constructor <;> linarith [hlon'.1, hlon'.2]) (by norm_num)
    rw [abs_le] at *
    constructor <;> linarith [e1.1, e1.2, hk.1, hk.2]
  have c1 := cos_lib M.toLibm hL
  have s1 := sin_lib M.toLibm hL
  rw [Real.cos_add_int_mul_two_pi] at c1
  rw [Real.sin_add_int_mul_two_pi] at s1
  have bc := Real.abs_cos_le_one ((lon : ℝ) + ThetaG jd)
  have bs := Real.abs_sin_le_one ((lon : ℝ) + ThetaG jd)
  generalize F.rnd (lon + thetaGD F jd) = L at *
  generalize Real.cos ((lon : ℝ) + ThetaG jd) = C at *
  generalize Real.sin ((lon : ℝ) + ThetaG jd) = S at *
  have key : ∀ {a : ℚ} {A : ℝ}, |(a : ℝ) - A| ≤ 111 / 10 ^ 14 + 23 / 10 ^ 17 → |A| ≤ 1 →
      |(F.rnd (F.rnd (F.rnd (a * rc) * 6378140) / 1000) : ℝ) - A * RC * axis / 1000| ≤ 1 / 10 ^ 8 := by
    intro a A ha hA
    have hX : |A * RC| ≤ 11 / 10 := by rw [abs_mul]; have := mul_le_mul hA p3 (abs_nonneg _) (by norm_num); linarith
    have e1 : |((a * rc : ℚ) : ℝ) - A * RC| ≤ 1227 / 10 ^ 15 := by
      push_cast
      rw [show (a : ℝ) * rc - A * RC = (a - A) * RC + A * (rc - RC) + (a - A) * (rc - RC) by ring]
      have h1 : |((a : ℝ) - A) * RC| ≤ (111 / 10 ^ 14 + 23 / 10 ^ 17) * (11 / 10) := by rw [abs_mul]; exact mul_le_mul ha p3 (abs_nonneg _) (by norm_num)
      have h2 : |A * ((rc : ℝ) - RC)| ≤ 1 * (4 / 10 ^ 15) := by rw [abs_mul]; exact mul_le_mul hA p1 (abs_nonneg _) (by norm_num)
      have h3 : |((a : ℝ) - A) * (rc - RC)| ≤ (111 / 10 ^ 14 + 23 / 10 ^ 17) * (4 / 10 ^ 15) := by
        rw [abs_mul]; exact mul_le_mul ha p1 (abs_nonneg _) (by norm_num)
      have h4 := abs_add_le (((a : ℝ) - A) * RC + A * (rc - RC)) ((a - A) * (rc - RC))
      have h5 := abs_add_le (((a : ℝ) - A) * RC) (A * (rc - RC))
      linarith
    have e2 := rnd_real F e1 hX (E := 1228 / 10 ^ 15) (by norm_num)
    have := kilometres F e2 hX
    linarith
  refine ⟨key c1 bc, key s1 bs, ?_⟩
  have := kilometres F p2 p4
  linarith

/-! ### Examples -/

/-- There are such libraries. -/
noncomputable def obsLib : ObsLib where
  toLibm := bestLib
  atan x := rounded (Real.arctan x)
  atan_err x := rounded_err _ (by norm_num)

/-- Noon of 1 January 2000: 280.46 degrees. -/
example : ⌊thetaGD Fl64.ieee 2451545 * 10 ^ 9⌋ = 4894961212 := by decide +kernel

/-- Before 2000 the sum is negative. -/
example : ⌊thetaGD Fl64.ieee (2460000 + 3 / 4) * 10 ^ 9⌋ = 4273409991 ∧ ⌊thetaGD Fl64.ieee (2440000 + 3 / 4) * 10 ^ 9⌋ = 5792766093 := by decide +kernel

example : (2440000 + 3 / 4 : ℚ) = (5239861711732736 : ℤ) / 2 ^ 31 := by norm_num

/-- An observer on the equator is on the plane of the equator, and at the distance of the axis. -/
example {x y z : ℚ} (h : observerD Fl64.ieee obsLib 2451545 1 (parallaxD Fl64.ieee obsLib 0 0).1 (parallaxD Fl64.ieee obsLib 0 0).2 = (x, y, z)) :
    |(z : ℝ)| ≤ 1 / 10 ^ 8 ∧ |(x : ℝ) - Real.cos (1 + ThetaG 2451545) * 6378.14| ≤ 1 / 10 ^ 8 := by
  obtain ⟨h1, _, h3⟩ := C181_observer Fl64.ieee obsLib (jd := 2451545) (m := 2451545 * 2 ^ 31) (lon := 1) (lat := 0) (ht := 0) (by norm_num) (by norm_num)
    (by norm_num) (by push_cast; rw [Real.cos_zero]; norm_num) (by norm_num) h rfl
  have e : earth_lat_alt_to_parallax ((0 : ℚ) : ℝ) ((0 : ℚ) : ℝ) = (1, 0) := by
    unfold earth_lat_alt_to_parallax
    push_cast
    simp
  rw [e] at h1 h3
  unfold observer_cartesian_coords axis at h1 h3
  dsimp only at h1 h3
  push_cast at h1 h3
  refine ⟨by simpa using h3, ?_⟩
  rw [show Real.cos (1 + ThetaG 2451545) * 6378.14 = Real.cos (1 + ThetaG 2451545) * 1 * 6378140 / 1000 by ring]
  exact h1

end SatSky.Props
