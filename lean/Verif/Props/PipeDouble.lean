import Mathlib.Tactic.Linarith
import Mathlib.Tactic.Ring
import Mathlib.Tactic.NormNum
import Mathlib.Tactic.FieldSimp
import Verif.Model.PipeDouble
import Verif.Props.ObserverDouble
import Verif.Props.PrecDouble
import Verif.Props.DataText

/-! C184: the printed direction of a satellite. -/

namespace SatSky.Props

open SatSky Spec Geo Relative Spec.Decimal Opts

theorem arg_one_small {w : ℂ} {e : ℝ} (h : ‖w‖ ≤ e) (he : e ≤ 1 / 1000) : |Complex.arg (1 + w)| ≤ 16 / 10 * e := by
  have h1 : |w.re| ≤ e := (Complex.abs_re_le_norm w).trans h
  have h2 : |w.im| ≤ e := (Complex.abs_im_le_norm w).trans h
  have he0 := (abs_nonneg _).trans h1
  have hre : (1 + w).re = 1 + w.re := by simp
  have him : (1 + w).im = w.im := by simp
  have h3 : 999 / 1000 ≤ ‖1 + w‖ := by
    have := Complex.abs_re_le_norm (1 + w)
    rw [hre] at this
    have := le_abs_self (1 + w.re)
    linarith [(abs_le.1 h1).1]
  have hp : (0 : ℝ) < ‖1 + w‖ := by linarith
  rw [Complex.arg_of_re_nonneg (by rw [hre]; linarith [(abs_le.1 h1).1]), him]
  have ht : |w.im / ‖1 + w‖| ≤ 1002 / 1000 * e := by
    rw [abs_div, abs_of_pos hp, div_le_iff₀ hp]
    nlinarith
  generalize w.im / ‖1 + w‖ = t at ht
  have hk : Real.arcsin |t| ≤ Real.pi / 2 * |t| := arcsin_small (abs_nonneg _) (ht.trans (by linarith))
  have : |Real.arcsin t| ≤ Real.arcsin |t| := by
    rcases le_total 0 t with h | h
    · rw [abs_of_nonneg h, abs_of_nonneg (Real.arcsin_nonneg.2 h)]
    · rw [abs_of_nonpos h, abs_of_nonpos (Real.arcsin_nonpos.2 h), Real.arcsin_neg]
  have hπ := Real.pi_pos
  have := Real.pi_lt_d2
  have h5 : Real.pi / 2 * |t| ≤ 3.15 / 2 * (1002 / 1000 * e) := mul_le_mul (by linarith) ht (abs_nonneg _) (by norm_num)
  norm_num at h5
  linarith

/-- The angle of a point that is moved a little. -/
theorem arg_shift {z Z : ℂ} {e : ℝ} (h0 : Z ≠ 0) (hz : ‖z - Z‖ ≤ e * ‖Z‖) (he : e ≤ 1 / 1000) :
    ∃ k : ℤ, |z.arg - Z.arg - 2 * Real.pi * k| ≤ 16 / 10 * e := by
  have hn : 0 < ‖Z‖ := norm_pos_iff.2 h0
  have hw : ‖(z - Z) / Z‖ ≤ e := by
    rw [norm_div, div_le_iff₀ hn]; exact hz
  have hne : 1 + (z - Z) / Z ≠ 0 := by
    intro h
    have : (z - Z) / Z = -1 := by linear_combination h
    rw [this] at hw
    norm_num at hw
    linarith
  have e1 : z = Z * (1 + (z - Z) / Z) := by field_simp; ring
  have hang := Complex.arg_mul_coe_angle h0 hne
  rw [← e1, ← Real.Angle.coe_add, Real.Angle.angle_eq_iff_two_pi_dvd_sub] at hang
  obtain ⟨k, hk⟩ := hang
  refine ⟨k, ?_⟩
  have := arg_one_small hw he
  rw [show z.arg - Z.arg - 2 * Real.pi * k = (1 + (z - Z) / Z).arg by linarith]
  exact this

/-- The distance when the three differences are wrong by `e`. -/
theorem dist_shift {x y z X Y Z e : ℝ} (hx : |x - X| ≤ e) (hy : |y - Y| ≤ e) (hz : |z - Z| ≤ e) (h0 : 0 < √(X * X + Y * Y + Z * Z)) :
    |√(x * x + y * y + z * z) - √(X * X + Y * Y + Z * Z)| ≤ 3 * e := by
  have he := (abs_nonneg _).trans hx
  have key : ∀ a b c : ℝ, |a| ≤ √(a * a + b * b + c * c) ∧ |b| ≤ √(a * a + b * b + c * c) ∧ |c| ≤ √(a * a + b * b + c * c) := by
    intro a b c
    refine ⟨Real.abs_le_sqrt ?_, Real.abs_le_sqrt ?_, Real.abs_le_sqrt ?_⟩ <;> nlinarith [mul_self_nonneg a, mul_self_nonneg b, mul_self_nonneg c]
  obtain ⟨a1, a2, a3⟩ := key x y z
  obtain ⟨b1, b2, b3⟩ := key X Y Z
  have s1 := Real.mul_self_sqrt (show 0 ≤ x * x + y * y + z * z by nlinarith [mul_self_nonneg x, mul_self_nonneg y, mul_self_nonneg z])
  have s2 := Real.mul_self_sqrt (show 0 ≤ X * X + Y * Y + Z * Z by nlinarith [mul_self_nonneg X, mul_self_nonneg Y, mul_self_nonneg Z])
  have n1 := Real.sqrt_nonneg (x * x + y * y + z * z)
  generalize √(x * x + y * y + z * z) = d at *
  generalize √(X * X + Y * Y + Z * Z) = D at *
  have hs : 0 < d + D := by linarith
  have t : ∀ {a A : ℝ}, |a - A| ≤ e → |a| ≤ d → |A| ≤ D → |(a - A) * (a + A)| ≤ e * (d + D) := by
    intro a A h1 h2 h3
    rw [abs_mul]
    exact mul_le_mul h1 ((abs_add_le a A).trans (by linarith)) (abs_nonneg _) he
  have t1 := t hx a1 b1
  have t2 := t hy a2 b2
  have t3 := t hz a3 b3
  have e1 : (d - D) * (d + D) = (x - X) * (x + X) + (y - Y) * (y + Y) + (z - Z) * (z + Z) := by linear_combination s1 - s2
  have e2 : |d - D| * (d + D) ≤ 3 * e * (d + D) := by
    rw [← abs_of_pos hs, ← abs_mul, abs_of_pos hs, e1]
    have u1 := abs_add_le ((x - X) * (x + X) + (y - Y) * (y + Y)) ((z - Z) * (z + Z))
    have u2 := abs_add_le ((x - X) * (x + X)) ((y - Y) * (y + Y))
    linarith
  exact le_of_mul_le_mul_right e2 hs

/-- The right ascension when the position of the observer is wrong by 10 micrometres. -/
theorem ra_shift {x y X Y ra RA : ℝ} (wx : |x - X| ≤ 1 / 10 ^ 8) (wy : |y - Y| ≤ 1 / 10 ^ 8) (h : 400 ≤ X * X + Y * Y)
    (a1 : (if atan2 y x < 0 then atan2 y x + 2 * Real.pi else atan2 y x) = ra) (b1 : (if atan2 Y X < 0 then atan2 Y X + 2 * Real.pi else atan2 Y X) = RA) :
    ∃ k : ℤ, |ra - RA - 2 * Real.pi * k| ≤ 16 / 10 ^ 10 := by
  have hn : 20 ≤ ‖(⟨X, Y⟩ : ℂ)‖ := by
    refine abs_le_of_sq_le_sq' ?_ (norm_nonneg _) |>.2
    rw [Complex.sq_norm, Complex.normSq_apply]
    norm_num at h ⊢
    linarith
  have hm : ‖(⟨x, y⟩ : ℂ) - ⟨X, Y⟩‖ ≤ 1 / 10 ^ 9 * ‖(⟨X, Y⟩ : ℂ)‖ := by
    have h1 : ‖(⟨x, y⟩ : ℂ) - ⟨X, Y⟩‖ ≤ 2 / 10 ^ 8 := by
      refine abs_le_of_sq_le_sq' ?_ (by positivity) |>.2
      rw [Complex.sq_norm, Complex.normSq_apply]
      simp only [Complex.sub_re, Complex.sub_im]
      have e1 := mul_self_le_mul_self (abs_nonneg _) wx
      have e2 := mul_self_le_mul_self (abs_nonneg _) wy
      rw [abs_mul_abs_self] at e1 e2
      norm_num at e1 e2 ⊢
      linarith
    norm_num at h1 ⊢
    linarith
  have hne : (⟨X, Y⟩ : ℂ) ≠ 0 := by rw [← norm_pos_iff]; linarith
  obtain ⟨k, hk⟩ := arg_shift hne hm (by norm_num)
  have wrap : ∀ a : ℝ, ∃ i : ℤ, (if a < 0 then a + 2 * Real.pi else a) = a + 2 * Real.pi * i := by
    intro a
    split
    · exact ⟨1, by push_cast; ring⟩
    · exact ⟨0, by push_cast; ring⟩
  unfold atan2 at a1 b1
  obtain ⟨i, hi⟩ := wrap (Complex.arg ⟨x, y⟩)
  obtain ⟨j, hj⟩ := wrap (Complex.arg ⟨X, Y⟩)
  rw [hi] at a1
  rw [hj] at b1
  refine ⟨k + i - j, ?_⟩
  rw [← a1, ← b1]
  push_cast
  rw [show ∀ p q : ℝ, p + 2 * Real.pi * i - (q + 2 * Real.pi * j) - 2 * Real.pi * (k + i - j) = p - q - 2 * Real.pi * k from fun p q => by ring]
  norm_num at hk ⊢; linarith

/-- The direction when the position of the observer is wrong by 10 micrometres in each component, the satellite is at least 100 km away and not
near a pole. -/
theorem direction_shift {o O s : V3} (hx : |o.x - O.x| ≤ 1 / 10 ^ 8) (hy : |o.y - O.y| ≤ 1 / 10 ^ 8) (hz : |o.z - O.z| ≤ 1 / 10 ^ 8) {ra dec d RA DEC D : ℝ}
    (he : get_satellite_ra_dec_delta o s = (ra, dec, d)) (hE : get_satellite_ra_dec_delta O s = (RA, DEC, D)) (hD : 100 ≤ D)
    (hs : |Real.sin DEC| ≤ 97 / 100) :
    (∃ k : ℤ, |ra - RA - 2 * Real.pi * k| ≤ 16 / 10 ^ 10) ∧ |dec - DEC| ≤ 22 / 10 ^ 10 ∧ |d - D| ≤ 3 / 10 ^ 8 ∧ |Real.sin dec| ≤ 98 / 100 ∧
      198 / 1000 ≤ Real.cos DEC ∧ |DEC| ≤ Real.pi / 2 := by
  unfold get_satellite_ra_dec_delta V3.sub V3.dot at he hE
  simp only [Prod.mk.injEq] at he hE
  obtain ⟨a1, a2, a3⟩ := he
  obtain ⟨b1, b2, b3⟩ := hE
  have wx : |(s.x - o.x) - (s.x - O.x)| ≤ 1 / 10 ^ 8 := by rw [show (s.x - o.x) - (s.x - O.x) = -(o.x - O.x) by ring, abs_neg]; exact hx
  have wy : |(s.y - o.y) - (s.y - O.y)| ≤ 1 / 10 ^ 8 := by rw [show (s.y - o.y) - (s.y - O.y) = -(o.y - O.y) by ring, abs_neg]; exact hy
  have wz : |(s.z - o.z) - (s.z - O.z)| ≤ 1 / 10 ^ 8 := by rw [show (s.z - o.z) - (s.z - O.z) = -(o.z - O.z) by ring, abs_neg]; exact hz
  generalize s.x - o.x = x at *
  generalize s.y - o.y = y at *
  generalize s.z - o.z = z at *
  generalize s.x - O.x = X at *
  generalize s.y - O.y = Y at *
  generalize s.z - O.z = Z at *
  have hd := dist_shift wx wy wz (by rw [b3]; linarith)
  have q1 := Real.mul_self_sqrt (show 0 ≤ X * X + Y * Y + Z * Z by nlinarith [mul_self_nonneg X, mul_self_nonneg Y, mul_self_nonneg Z])
  have q2 := Real.mul_self_sqrt (show 0 ≤ x * x + y * y + z * z by nlinarith [mul_self_nonneg x, mul_self_nonneg y, mul_self_nonneg z])
  rw [a3] at a2 hd q2
  rw [b3] at b2 hd q1
  have hd' : |d - D| ≤ 3 / 10 ^ 8 := by linarith
  have hD0 : 0 < D := by linarith
  obtain ⟨d1, d2⟩ := abs_le.1 hd'
  have hd0 : 99 < d := by norm_num at d1; linarith
  have hZ : |Z| ≤ D := abs_le_of_sq_le_sq' (by nlinarith [mul_self_nonneg X, mul_self_nonneg Y]) hD0.le |> abs_le.2
  have hz1 : |z| ≤ d := abs_le_of_sq_le_sq' (by nlinarith [mul_self_nonneg x, mul_self_nonneg y]) (by linarith) |> abs_le.2
  have hR : |Z / D| ≤ 1 := by rw [abs_div, abs_of_pos hD0, div_le_one hD0]; exact hZ
  have hr : |z / d| ≤ 1 := by rw [abs_div, abs_of_pos (by linarith : 0 < d), div_le_one (by linarith)]; exact hz1
  have hsD : Real.sin DEC = Z / D := by rw [← b2]; exact Real.sin_arcsin (abs_le.1 hR).1 (abs_le.1 hR).2
  have hsd : Real.sin dec = z / d := by rw [← a2]; exact Real.sin_arcsin (abs_le.1 hr).1 (abs_le.1 hr).2
  rw [hsD] at hs
  have hq : |z / d - Z / D| ≤ 41 / 10 ^ 11 := by
    rw [show z / d - Z / D = ((z - Z) * D - Z * (d - D)) / (d * D) by field_simp; ring, abs_div, abs_of_pos (mul_pos (by linarith) hD0 : 0 < d * D),
      div_le_iff₀ (mul_pos (by linarith) hD0)]
    have u1 := abs_sub ((z - Z) * D) (Z * (d - D))
    have u2 : |(z - Z) * D| ≤ 1 / 10 ^ 8 * D := by rw [abs_mul, abs_of_pos hD0]; exact mul_le_mul_of_nonneg_right wz hD0.le
    have u3 : |Z * (d - D)| ≤ D * (3 / 10 ^ 8) := by rw [abs_mul]; exact mul_le_mul hZ hd' (abs_nonneg _) hD0.le
    have u4 : 99 * D ≤ d * D := mul_le_mul_of_nonneg_right hd0.le hD0.le
    linarith
  have hs2 : |z / d| ≤ 98 / 100 := by
    have := abs_sub_abs_le_abs_sub (z / d) (Z / D)
    norm_num at hq hs ⊢; linarith
  have hcos : 198 / 1000 ≤ Real.cos DEC := by
    have h1 := Real.sin_sq_add_cos_sq DEC
    have h2 : 0 ≤ Real.cos DEC := by rw [← b2]; exact Real.cos_arcsin_nonneg _
    rw [hsD] at h1
    have h3 := mul_self_le_mul_self (abs_nonneg _) hs
    rw [abs_mul_abs_self] at h3
    by_contra hcon
    push Not at hcon
    nlinarith
  refine ⟨?_, ?_, hd', by rw [hsd]; exact hs2, hcos, ?_⟩
  · have hZ2 : Z * Z ≤ (97 / 100) ^ 2 * (D * D) := by
      have h1 : |Z| ≤ 97 / 100 * D := by rw [abs_div, abs_of_pos hD0, div_le_iff₀ hD0] at hs; exact hs
      have h2 := mul_self_le_mul_self (abs_nonneg _) h1
      rw [abs_mul_abs_self] at h2
      linarith
    refine ra_shift wx wy ?_ a1 b1
    have : 100 * 100 ≤ D * D := mul_self_le_mul_self (by norm_num) hD
    norm_num at hZ2 ⊢
    linarith
  · rw [← a2, ← b2]
    have := arcsin_mid (m := 98 / 100) (k := 51 / 10) hs2 (hs.trans (by norm_num)) (by norm_num) (by norm_num) (by norm_num)
    linarith
  · rw [← b2, abs_le]; exact ⟨Real.neg_pi_div_two_le_arcsin _, Real.arcsin_le_pi_div_two _⟩

/-- For every position of a satellite at least 100 km from the observer and not within 14 degrees of a pole, the direction and the distance
computed in `double` from the place of the observer and the date are those of the exact formulas to `5 * 10 ^ -9` radians and `4 * 10 ^ -8` km. -/
theorem C184_position (MO : ObsLib) (MD : DirLib Fl64.ieee) (MP : PrecLib) {jdo jd lon lat ht s0 s1 s2 : ℚ} {m : ℤ} (hm : jdo = m / 2 ^ 31)
    (ho : |jdo - 2451545| ≤ 73050) (hj : |jd - 2451545| ≤ 73050) (hlon : |lon| ≤ 7) (hlat : 1 / 10 ^ 17 ≤ Real.cos lat) (hh : |ht| ≤ 637814)
    {RA DEC D RA' DEC' : ℝ}
    (hE : get_satellite_ra_dec_delta
      (observer_cartesian_coords jdo lon (earth_lat_alt_to_parallax lat ht).1 (earth_lat_alt_to_parallax lat ht).2) ⟨s0, s1, s2⟩ = (RA, DEC, D))
    (hP : epoch_of_date_to_j2000 jd RA DEC = (RA', DEC')) (hD : 100 ≤ D) (hs : |Real.sin DEC| ≤ 97 / 100) :
    ∃ ra dec d, positionD MO MD MP jdo jd lon lat ht s0 s1 s2 = some (ra, dec, d) ∧ 0 ≤ ra ∧ ra ≤ twopiD ∧ |dec| ≤ piD / 2 ∧
      (∃ k : ℤ, |(ra : ℝ) - RA' - 2 * Real.pi * k| ≤ 5 / 10 ^ 9) ∧ |(dec : ℝ) - DEC'| ≤ 5 / 10 ^ 9 ∧ |(d : ℝ) - D| ≤ 4 / 10 ^ 8 + 1 / 10 ^ 15 * D := by
  unfold positionD
  dsimp only
  generalize ho' : observerD Fl64.ieee MO jdo lon (parallaxD Fl64.ieee MO lat ht).1 (parallaxD Fl64.ieee MO lat ht).2 = o
  obtain ⟨o0, o1, o2⟩ := o
  obtain ⟨x1, x2, x3⟩ := C181_observer Fl64.ieee MO hm ho hlon hlat hh ho' rfl
  generalize observer_cartesian_coords jdo lon (earth_lat_alt_to_parallax lat ht).1 (earth_lat_alt_to_parallax lat ht).2 = O at *
  obtain ⟨ra1, dec1, d1, he⟩ : ∃ ra1 dec1 d1 : ℝ, get_satellite_ra_dec_delta ⟨o0, o1, o2⟩ ⟨s0, s1, s2⟩ = (ra1, dec1, d1) := ⟨_, _, _, rfl⟩
  obtain ⟨⟨k, hk⟩, y2, y3, y4, y5, y6⟩ := direction_shift (o := ⟨o0, o1, o2⟩) x1 x2 x3 he hE hD hs
  have hne : ¬(o0 = s0 ∧ o1 = s1 ∧ o2 = s2) := by
    rintro ⟨rfl, rfl, rfl⟩
    have hz : d1 = 0 := by
      unfold get_satellite_ra_dec_delta V3.sub V3.dot at he
      simp only [Prod.mk.injEq, sub_self, mul_zero, add_zero, Real.sqrt_zero] at he
      exact he.2.2.symm
    rw [hz] at y3
    have := (abs_le.1 y3).1
    norm_num at this
    linarith
  obtain ⟨ra, dec, d, e1, e2, e3, e4, ⟨j, e5⟩, _, e7⟩ := C179_direction MD hne he
  have e7 := e7 y4
  have hra : ∃ k : ℤ, |(ra : ℝ) - RA - 2 * Real.pi * k| ≤ 23 / 10 ^ 10 := by
    refine ⟨k + j, ?_⟩
    push_cast
    rw [show (ra : ℝ) - RA - 2 * Real.pi * (k + j) = (ra - ra1 - 2 * Real.pi * j) + (ra1 - RA - 2 * Real.pi * k) by ring]
    have := abs_add_le ((ra : ℝ) - ra1 - 2 * Real.pi * j) (ra1 - RA - 2 * Real.pi * k)
    norm_num at e5 hk ⊢; linarith
  have hdec : |(dec : ℝ) - DEC| ≤ 23 / 10 ^ 10 := by
    have := abs_sub_le (dec : ℝ) dec1 DEC
    norm_num at e7 y2 ⊢; linarith
  obtain ⟨p1, p2, p3, ⟨i, p4⟩, p5⟩ := C183_precession Fl64.ieee MP hj e3 e4 hra hdec (by norm_num) y6 y5 (ra' := (precD Fl64.ieee MP jd ra dec).1)
    (dec' := (precD Fl64.ieee MP jd ra dec).2) rfl hP
  refine ⟨_, _, d, by rw [e1]; rfl, p1, p2, p3, ⟨i, ?_⟩, ?_, ?_⟩
  · norm_num at p4 ⊢; linarith
  · norm_num at p5 ⊢; linarith
  · have h1 := abs_sub_le (d : ℝ) d1 D
    have h2 := (abs_le.1 y3).2
    norm_num at e2 y3 h2 ⊢; linarith

/-- What is printed: right ascension (modulo a turn) and declination of both instants within 0.0000503 degree of the exact formulas, the distance
within 5 metres and 1 millimetre, for distances up to a million km. -/
theorem C184_printed (MO : ObsLib) (MD : DirLib Fl64.ieee) (MP : PrecLib) {jdo jd lon lat ht s0 s1 s2 : ℚ} {m : ℤ} (hm : jdo = m / 2 ^ 31)
    (ho : |jdo - 2451545| ≤ 73050) (hj : |jd - 2451545| ≤ 73050) (hlon : |lon| ≤ 7) (hlat : 1 / 10 ^ 17 ≤ Real.cos lat) (hh : |ht| ≤ 637814)
    {RA DEC D RA' DEC' : ℝ}
    (hE : get_satellite_ra_dec_delta
      (observer_cartesian_coords jdo lon (earth_lat_alt_to_parallax lat ht).1 (earth_lat_alt_to_parallax lat ht).2) ⟨s0, s1, s2⟩ = (RA, DEC, D))
    (hP : epoch_of_date_to_j2000 jd RA DEC = (RA', DEC')) (hD : 100 ≤ D) (hD' : D ≤ 10 ^ 6) (hs : |Real.sin DEC| ≤ 97 / 100) :
    ∃ ra dec d, positionD MO MD MP jdo jd lon lat ht s0 s1 s2 = some (ra, dec, d) ∧
      (∃ (v : ℚ) (k : ℤ), value (padLeft 8 (fmtF 4 (Fl64.ieee.rnd (ra * r2dD)))) = some v ∧ 0 ≤ v ∧ v ≤ 360 ∧
        |(v : ℝ) - 180 / Real.pi * RA' - 360 * k| ≤ 503 / 10 ^ 7) ∧
      (∃ v : ℚ, value (padLeft 8 (fmtF 4 (Fl64.ieee.rnd (dec * r2dD)))) = some v ∧ -90 ≤ v ∧ v ≤ 90 ∧ |(v : ℝ) - 180 / Real.pi * DEC'| ≤ 503 / 10 ^ 7) ∧
      ∃ v : ℚ, value (padLeft 9 (fmtF 2 d)) = some v ∧ |(v : ℝ) - D| ≤ 5001 / 10 ^ 6 := by
  obtain ⟨ra, dec, d, h1, h2, h3, h4, ⟨k, h5⟩, h6, h7⟩ := C184_position MO MD MP hm ho hj hlon hlat hh hE hP hD hs
  obtain ⟨a, a1, a2, a3, a4⟩ := printed_ra Fl64.ieee 8 h2 h3
  obtain ⟨b, b1, b2, b3, b4⟩ := printed_dec Fl64.ieee 8 h4
  obtain ⟨c, c1, c2⟩ := C182_number 9 2 (by norm_num) d
  have hp := Real.pi_gt_d6
  have h57 : 180 / Real.pi ≤ 573 / 10 := by rw [div_le_iff₀ Real.pi_pos]; norm_num at hp ⊢; linarith
  have hpos : 0 < 180 / Real.pi := by positivity
  refine ⟨ra, dec, d, h1, ⟨a, k, a1, a3, a4, ?_⟩, ⟨b, b1, b3, b4, ?_⟩, ⟨_, c1, ?_⟩⟩
  · have e : (a : ℝ) - 180 / Real.pi * RA' - 360 * k = (a - 180 / Real.pi * ra) + 180 / Real.pi * (ra - RA' - 2 * Real.pi * k) := by
      field_simp; ring
    rw [e]
    have t1 := abs_add_le ((a : ℝ) - 180 / Real.pi * ra) (180 / Real.pi * (ra - RA' - 2 * Real.pi * k))
    have t2 : |180 / Real.pi * ((ra : ℝ) - RA' - 2 * Real.pi * k)| ≤ 573 / 10 * (5 / 10 ^ 9) := by
      rw [abs_mul, abs_of_pos hpos]; exact mul_le_mul h57 h5 (abs_nonneg _) (by norm_num)
    linarith
  · rw [show (b : ℝ) - 180 / Real.pi * DEC' = (b - 180 / Real.pi * dec) + 180 / Real.pi * (dec - DEC') by ring]
    have t1 := abs_add_le ((b : ℝ) - 180 / Real.pi * dec) (180 / Real.pi * (dec - DEC'))
    have t2 : |180 / Real.pi * ((dec : ℝ) - DEC')| ≤ 573 / 10 * (5 / 10 ^ 9) := by
      rw [abs_mul, abs_of_pos hpos]; exact mul_le_mul h57 h6 (abs_nonneg _) (by norm_num)
    linarith
  · have c3 : |(((c : ℚ) / 10 ^ 2 : ℚ) : ℝ) - d| ≤ 1 / 2 / 10 ^ 2 := by simpa using abs_real c2
    have := abs_sub_le (((c : ℚ) / 10 ^ 2 : ℚ) : ℝ) d D
    norm_num at c3 h7 this ⊢; linarith

/-! ### Example -/

/-- A satellite far above an observer on the equator at noon of 1 January 2000: the computed direction is that of the exact formulas. -/
example : ∃ ra dec d, positionD obsLib dirLib precLib 2451545 2451545 1 0 0 40000 3 10 = some (ra, dec, d) ∧ 0 ≤ ra ∧ ra ≤ twopiD ∧ |dec| ≤ piD / 2 := by
  have e : earth_lat_alt_to_parallax ((0 : ℚ) : ℝ) ((0 : ℚ) : ℝ) = (1, 0) := by
    unfold earth_lat_alt_to_parallax
    push_cast
    simp
  obtain ⟨X, Y, hO, hX⟩ : ∃ X Y, observer_cartesian_coords ((2451545 : ℚ) : ℝ) ((1 : ℚ) : ℝ) 1 0 = ⟨X, Y, 0⟩ ∧ |X| ≤ 6379 := by
    unfold observer_cartesian_coords axis
    refine ⟨_, _, by rw [zero_mul, zero_div], ?_⟩
    have := Real.abs_cos_le_one (((1 : ℚ) : ℝ) + ThetaG ((2451545 : ℚ) : ℝ))
    rw [mul_one, abs_div, abs_mul]
    norm_num at this ⊢
    linarith
  obtain ⟨X1, X2⟩ := abs_le.1 hX
  have hD : 100 ≤ √((40000 - X) * (40000 - X) + (3 - Y) * (3 - Y) + (10 - 0) * (10 - 0)) := by
    refine Real.le_sqrt_of_sq_le ?_
    nlinarith [mul_self_nonneg (3 - Y)]
  obtain ⟨ra, dec, d, h1, h2, h3, h4, _⟩ := C184_position obsLib dirLib precLib (jdo := 2451545) (jd := 2451545) (lon := 1) (lat := 0) (ht := 0)
    (s0 := 40000) (s1 := 3) (s2 := 10) (m := 2451545 * 2 ^ 31) (by norm_num) (by norm_num) (by norm_num) (by norm_num)
    (by push_cast; rw [Real.cos_zero]; norm_num) (by norm_num) rfl rfl (by
      rw [e, hO]
      unfold V3.sub V3.dot
      push_cast
      exact hD) (by
      rw [e, hO]
      unfold V3.sub V3.dot
      push_cast
      have h10 : |(10 - 0 : ℝ) / √((40000 - X) * (40000 - X) + (3 - Y) * (3 - Y) + (10 - 0) * (10 - 0))| ≤ 97 / 100 := by
        rw [abs_div, abs_of_nonneg (Real.sqrt_nonneg _), div_le_iff₀ (by linarith)]
        norm_num at hD ⊢
        linarith
      have := abs_le.1 (h10.trans (by norm_num : (97 / 100 : ℝ) ≤ 1))
      rw [Real.sin_arcsin this.1 this.2]
      exact h10)
  exact ⟨ra, dec, d, h1, h2, h3, h4⟩

end SatSky.Props
