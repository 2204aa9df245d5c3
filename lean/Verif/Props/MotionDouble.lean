import Verif.Props.RegionDouble

/-! C186: the position angle of the motion in `double` arithmetic. -/

namespace SatSky.Props

open SatSky Spec Geo Relative Spec.Decimal Opts Sky

/-- The difference of right ascensions comes out between minus and plus half a turn unless it is computed above half a turn. -/
theorem deltaRa_near (F : Fl64) {ra ra1 : ℚ} {Δ e : ℝ} {n : ℤ} (h0 : 0 ≤ ra) (h1 : ra ≤ twopiD) (h2 : 0 ≤ ra1) (h3 : ra1 ≤ twopiD) (hw : ra1 - ra ≤ piD)
    (hd : |(ra1 : ℝ) - ra - Δ - 2 * Real.pi * n| ≤ e) (he : e ≤ 1 / 10 ^ 6) (hΔ : |Δ| ≤ 3) : |(deltaRaD F ra1 ra : ℝ) - Δ| ≤ e + 1 / 10 ^ 14 := by
  have hp1 := Real.pi_gt_d6
  have hp2 := Real.pi_lt_d6
  have ht := twopi_near
  have hpi : |(piD : ℝ) - Real.pi| ≤ 1 / 10 ^ 15 := by
    have e : (twopiD : ℝ) = 2 * piD := by unfold twopiD piD; push_cast; ring
    rw [e] at ht
    rw [abs_le] at ht ⊢
    constructor <;> linarith
  obtain ⟨t1, t2⟩ := abs_le.1 ht
  obtain ⟨p1, p2⟩ := abs_le.1 hpi
  have g0 : (0 : ℝ) ≤ ra := by exact_mod_cast h0
  have g1 : (ra : ℝ) ≤ twopiD := by exact_mod_cast h1
  have g2 : (0 : ℝ) ≤ ra1 := by exact_mod_cast h2
  have g3 : (ra1 : ℝ) ≤ twopiD := by exact_mod_cast h3
  have gw : (ra1 : ℝ) - ra ≤ piD := by exact_mod_cast hw
  have r0 : |(F.rnd (ra1 - ra) : ℝ) - (ra1 - ra)| ≤ 1 / 10 ^ 15 := by
    refine rnd_real F (e := 0) (A := 7) (by push_cast; simp) ?_ (by norm_num)
    rw [abs_le]; constructor <;> linarith
  have r1 : |(F.rnd (F.rnd (ra1 - ra) + twopiD) : ℝ) - (ra1 - ra + 2 * Real.pi)| ≤ 5 / 10 ^ 15 := by
    refine rnd_real F (e := 2 / 10 ^ 15) (A := 13) ?_ ?_ (by norm_num)
    · push_cast
      rw [abs_le] at r0 ⊢
      constructor <;> linarith
    · rw [abs_le]; constructor <;> linarith
  obtain ⟨d1, d2⟩ := abs_le.1 hd
  obtain ⟨D1, D2⟩ := abs_le.1 hΔ
  obtain ⟨w1, w2⟩ := abs_le.1 r1
  have hn : n = 0 ∨ n = -1 := by
    have u : (n : ℝ) < 1 := by
      by_contra hc
      have : Real.pi * 1 ≤ Real.pi * n := mul_le_mul_of_nonneg_left (not_lt.1 hc) (by linarith)
      linarith
    have v : (-2 : ℝ) < n := by
      by_contra hc
      have : Real.pi * n ≤ Real.pi * (-2) := mul_le_mul_of_nonneg_left (not_lt.1 hc) (by linarith)
      linarith
    have u' : n < 1 := by exact_mod_cast u
    have v' : -2 < n := by exact_mod_cast v
    omega
  unfold deltaRaD
  dsimp only
  generalize F.rnd (F.rnd (ra1 - ra) + twopiD) = d at *
  rcases hn with rfl | rfl
  · push_cast at d1 d2
    have hgt : d > piD := by
      have : (piD : ℝ) < d := by linarith
      exact_mod_cast this
    rw [if_pos hgt]
    refine rnd_real F (e := e + 6 / 10 ^ 15) (A := 3) ?_ hΔ (by linarith)
    push_cast
    rw [abs_le]
    constructor <;> linarith
  · push_cast at d1 d2
    have hle : ¬ d > piD := by
      have : (d : ℝ) ≤ piD := by linarith
      rw [gt_iff_lt, not_lt]
      exact_mod_cast this
    rw [if_neg hle, abs_le]
    constructor <;> linarith

/-- The position angle is that of the exact displacement, to `6 * 10 ^ -8` radians over its length. -/
theorem C186_angle (M : Libm) (MD : DirLib Fl64.ieee) {ra dec ra1 dec1 : ℚ} {RA DEC RA1 DEC1 Δ r : ℝ} {n : ℤ} (h : Near ra dec RA DEC)
    (h1 : Near ra1 dec1 RA1 DEC1) (hw : ra1 - ra ≤ piD) (hΔ : Δ = RA1 - RA + 2 * Real.pi * n) (hΔ3 : |Δ| ≤ 3)
    (hr : r = ‖(⟨DEC1 - DEC, Δ * Real.cos DEC⟩ : ℂ)‖) (hr0 : 4 / 10 ^ 5 ≤ r) :
    0 ≤ motionAngleD Fl64.ieee M MD ra dec ra1 dec1 ∧ motionAngleD Fl64.ieee M MD ra dec ra1 dec1 ≤ twopiD ∧
      ∃ k : ℤ, |(motionAngleD Fl64.ieee M MD ra dec ra1 dec1 : ℝ) - Complex.arg ⟨DEC1 - DEC, Δ * Real.cos DEC⟩ - 2 * Real.pi * k| ≤ 6 / 10 ^ 8 / r := by
  obtain ⟨i, hi⟩ := h.lon_near
  obtain ⟨j, hj⟩ := h1.lon_near
  have hd : |(ra1 : ℝ) - ra - Δ - 2 * Real.pi * ((j - i - n : ℤ) : ℝ)| ≤ 1 / 10 ^ 8 := by
    rw [hΔ]
    push_cast
    rw [abs_le] at hi hj ⊢
    constructor <;> linarith
  have hy := deltaRa_near Fl64.ieee h.low h.up h1.low h1.up hw hd (by norm_num) hΔ3
  have hc := cos_lib M h.lat_near
  have hm := mul_real hy hc hΔ3 (Real.abs_cos_le_one DEC)
  have hx : |((dec1 : ℝ) - dec) - (DEC1 - DEC)| ≤ 1 / 10 ^ 8 := by
    have a := h.lat_near
    have b := h1.lat_near
    rw [abs_le] at a b ⊢
    constructor <;> linarith
  have hrp : 0 < r := lt_of_lt_of_le (by norm_num) hr0
  obtain ⟨q1, q2, k, hk⟩ := ra_near MD (dec1 - dec) (deltaRaD Fl64.ieee ra1 ra * M.cos dec) (ra := motionAngleD Fl64.ieee M MD ra dec ra1 dec1) rfl
  refine ⟨q1, q2, ?_⟩
  have hz : (⟨DEC1 - DEC, Δ * Real.cos DEC⟩ : ℂ) ≠ 0 := by
    rw [← norm_pos_iff, ← hr]; exact hrp
  have hnorm : ‖(⟨((dec1 - dec : ℚ) : ℝ), ((deltaRaD Fl64.ieee ra1 ra * M.cos dec : ℚ) : ℝ)⟩ : ℂ) - ⟨DEC1 - DEC, Δ * Real.cos DEC⟩‖ ≤ 37 / 10 ^ 9 := by
    refine (Complex.norm_le_abs_re_add_abs_im _).trans ?_
    simp only [Complex.sub_re, Complex.sub_im]
    push_cast
    refine (add_le_add hx hm).trans (by norm_num)
  obtain ⟨l, hl⟩ := arg_shift (e := 37 / 10 ^ 9 / r) hz (by rw [← hr, div_mul_cancel₀ _ hrp.ne']; exact hnorm) (by
    rw [div_le_iff₀ hrp]; norm_num at hr0 ⊢; linarith)
  refine ⟨k + l, ?_⟩
  have hr7 : r ≤ 7 := by
    rw [hr]
    refine (Complex.norm_le_abs_re_add_abs_im _).trans ?_
    dsimp only
    have c1 : |Δ * Real.cos DEC| ≤ 3 := by
      rw [abs_mul]
      have := mul_le_mul hΔ3 (Real.abs_cos_le_one DEC) (abs_nonneg _) (by norm_num)
      linarith
    have k1 : |(dec : ℝ)| ≤ (piD : ℝ) / 2 := by simpa using abs_real h.lat
    have k2 : |(dec1 : ℝ)| ≤ (piD : ℝ) / 2 := by simpa using abs_real h1.lat
    have k3 : ((piD : ℚ) : ℝ) ≤ 3.2 := by norm_num [piD]
    have k4 : |DEC1 - DEC| ≤ 4 := by
      rw [abs_le] at k1 k2 hx ⊢
      constructor <;> linarith
    linarith
  have f : 3 / 10 ^ 15 ≤ 3 / 10 ^ 14 / r := by
    rw [le_div_iff₀ hrp]; norm_num; linarith
  have g : 16 / 10 * (37 / 10 ^ 9 / r) + 3 / 10 ^ 14 / r ≤ 6 / 10 ^ 8 / r := by
    rw [show 16 / 10 * (37 / 10 ^ 9 / r) + 3 / 10 ^ 14 / r = (16 / 10 * (37 / 10 ^ 9) + 3 / 10 ^ 14) / r by ring]
    exact div_le_div_of_nonneg_right (by norm_num) hrp.le
  rw [abs_le] at hk hl ⊢
  push_cast at hk hl ⊢
  constructor <;> linarith

/-- The printed number of degrees is the integer part of the exact position angle, to `3.45 * 10 ^ -6` degrees over the displacement. -/
theorem C186_printed (M : Libm) (MD : DirLib Fl64.ieee) {ra dec ra1 dec1 : ℚ} {RA DEC RA1 DEC1 Δ r : ℝ} {n : ℤ} (h : Near ra dec RA DEC)
    (h1 : Near ra1 dec1 RA1 DEC1) (hw : ra1 - ra ≤ piD) (hΔ : Δ = RA1 - RA + 2 * Real.pi * n) (hΔ3 : |Δ| ≤ 3)
    (hr : r = ‖(⟨DEC1 - DEC, Δ * Real.cos DEC⟩ : ℂ)‖) (hr0 : 4 / 10 ^ 5 ≤ r) :
    ∃ v k : ℤ, value (padLeft 3 (intText (truncQ (Fl64.ieee.rnd (motionAngleD Fl64.ieee M MD ra dec ra1 dec1 * r2dD))))) = some (v : ℚ) ∧ 0 ≤ v ∧ v ≤ 360 ∧
      (v : ℝ) - 345 / 10 ^ 8 / r ≤ 180 / Real.pi * Complex.arg ⟨DEC1 - DEC, Δ * Real.cos DEC⟩ + 360 * k ∧
      180 / Real.pi * Complex.arg ⟨DEC1 - DEC, Δ * Real.cos DEC⟩ + 360 * k < v + 1 + 345 / 10 ^ 8 / r := by
  obtain ⟨a1, a2, k, hk⟩ := C186_angle M MD h h1 hw hΔ hΔ3 hr hr0
  obtain ⟨v, e1, e2, e3, e4, e5⟩ := printed_pa Fl64.ieee 3 a1 a2
  refine ⟨v, k, e1, e4, e5, ?_⟩
  have hr7 : r ≤ 10 := by
    rw [hr]
    refine (Complex.norm_le_abs_re_add_abs_im _).trans ?_
    dsimp only
    have c1 : |Δ * Real.cos DEC| ≤ 3 := by
      rw [abs_mul]
      have := mul_le_mul hΔ3 (Real.abs_cos_le_one DEC) (abs_nonneg _) (by norm_num)
      linarith
    have k1 : |(dec : ℝ)| ≤ (piD : ℝ) / 2 := by simpa using abs_real h.lat
    have k2 : |(dec1 : ℝ)| ≤ (piD : ℝ) / 2 := by simpa using abs_real h1.lat
    have k3 : ((piD : ℚ) : ℝ) ≤ 3.2 := by norm_num [piD]
    have k5 := h.lat_near
    have k6 := h1.lat_near
    have k4 : |DEC1 - DEC| ≤ 4 := by
      rw [abs_le] at k1 k2 k5 k6 ⊢
      constructor <;> linarith
    linarith
  have hrp : 0 < r := lt_of_lt_of_le (by norm_num) hr0
  generalize (motionAngleD Fl64.ieee M MD ra dec ra1 dec1 : ℝ) = a at *
  generalize Complex.arg ⟨DEC1 - DEC, Δ * Real.cos DEC⟩ = A at *
  have hp := Real.pi_gt_d6
  have h57 : 180 / Real.pi ≤ 5730 / 100 := by rw [div_le_iff₀ Real.pi_pos]; norm_num at hp ⊢; linarith
  have hm : |180 / Real.pi * a - (180 / Real.pi * A + 360 * k)| ≤ 5730 / 100 * (6 / 10 ^ 8 / r) := by
    rw [show 180 / Real.pi * a - (180 / Real.pi * A + 360 * k) = 180 / Real.pi * (a - A - 2 * Real.pi * k) by field_simp; ring, abs_mul,
      abs_of_pos (by positivity : (0 : ℝ) < 180 / Real.pi)]
    exact mul_le_mul h57 hk (abs_nonneg _) (by norm_num)
  have f : 1 / 10 ^ 12 ≤ 1 / 10 ^ 11 / r := by
    rw [le_div_iff₀ hrp]; norm_num; linarith
  have g : 5730 / 100 * (6 / 10 ^ 8 / r) + 1 / 10 ^ 11 / r ≤ 345 / 10 ^ 8 / r := by
    rw [show 5730 / 100 * (6 / 10 ^ 8 / r) + 1 / 10 ^ 11 / r = (5730 / 100 * (6 / 10 ^ 8) + 1 / 10 ^ 11) / r by ring]
    exact div_le_div_of_nonneg_right (by norm_num) hrp.le
  obtain ⟨m1, m2⟩ := abs_le.1 hm
  constructor <;> linarith

/-! ### Example -/

/-- A satellite that moves 0.1 radian to the east across right ascension 0: 90 degrees, printed as 89 or 90. -/
example (M : Libm) (MD : DirLib Fl64.ieee) : ∃ v : ℤ,
    value (padLeft 3 (intText (truncQ (Fl64.ieee.rnd (motionAngleD Fl64.ieee M MD (twopiD - 5 / 100) 0 (5 / 100) 0 * r2dD))))) = some (v : ℚ) ∧
      (v = 89 ∨ v = 90) := by
  have ht := twopi_near
  have n1 : Near (twopiD - 5 / 100) 0 (2 * Real.pi - 5 / 100) 0 := by
    refine ⟨by norm_num [twopiD], by linarith, by norm_num [piD], ⟨0, ?_⟩, by norm_num⟩
    push_cast
    rw [abs_le] at ht ⊢
    constructor <;> linarith
  have n2 : Near (5 / 100) 0 (5 / 100) 0 := by simpa using near_self (ra := 5 / 100) (dec := 0) (by norm_num) (by norm_num [twopiD]) (by norm_num [piD])
  have hz : (⟨0 - 0, (1 / 10 : ℝ) * Real.cos 0⟩ : ℂ) = ((1 / 10 : ℝ) : ℂ) * Complex.I := by apply Complex.ext <;> simp
  obtain ⟨v, k, e1, e2, e3, e4, e5⟩ := C186_printed M MD (Δ := 1 / 10) (r := 1 / 10) (n := 1) n1 n2 (by norm_num [piD, twopiD]) (by push_cast; ring)
    (by norm_num) (by rw [hz]; simp) (by norm_num)
  refine ⟨v, e1, ?_⟩
  have hA : Complex.arg ⟨0 - 0, (1 / 10 : ℝ) * Real.cos 0⟩ = Real.pi / 2 := by
    rw [hz, Complex.arg_real_mul _ (by norm_num), Complex.arg_I]
  rw [hA, show 180 / Real.pi * (Real.pi / 2) = 90 by field_simp; norm_num] at e4 e5
  norm_num at e4 e5
  have g1 : (v : ℝ) < ((90 + 360 * k + 1 : ℤ) : ℝ) := by push_cast; linarith
  have g2 : ((90 + 360 * k : ℤ) : ℝ) < ((v + 2 : ℤ) : ℝ) := by push_cast; linarith
  have g3 : v < 90 + 360 * k + 1 := by exact_mod_cast g1
  have g4 : 90 + 360 * k < v + 2 := by exact_mod_cast g2
  omega

end SatSky.Props
