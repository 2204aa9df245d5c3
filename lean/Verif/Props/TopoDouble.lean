import Verif.Lemmas.Relative
import Verif.Model.TopoDouble
import Verif.Props.Topocentric

/-! C179: the direction to the satellite in `double` arithmetic. -/

namespace SatSky.Props

open SatSky.Spec SatSky.Geo SatSky.Relative

/-! ### The root of a square -/

/-- A rounded number in units of its last place. -/
theorem significand {w : ℚ} (h0 : w ≠ 0) : ∃ (m k : ℤ), 2 ^ 52 ≤ m ∧ m < 2 ^ 53 ∧ |rndBits 53 w| = m * (2 : ℚ) ^ k := by
  obtain ⟨a, b⟩ := rndBits_scaled 53 w h0
  have hr : rndBits 53 w = (roundEven (w / (2 : ℚ) ^ (Int.log 2 |w| - ((53 : ℕ) : ℤ) + 1)) : ℤ) * (2 : ℚ) ^ (Int.log 2 |w| - ((53 : ℕ) : ℤ) + 1) := rfl
  rw [hr]
  generalize Int.log 2 |w| - ((53 : ℕ) : ℤ) + 1 = k at *
  have hp : (0 : ℚ) < (2 : ℚ) ^ k := zpow_pos (by norm_num) _
  generalize w / (2 : ℚ) ^ k = y at *
  have hn : 2 ^ 52 ≤ |roundEven y| ∧ |roundEven y| ≤ 2 ^ 53 := by
    rcases le_or_gt 0 y with hy | hy
    · rw [abs_of_nonneg hy] at a b
      have h1 : (2 ^ 52 : ℤ) ≤ roundEven y := le_round_of_le (by push_cast; linarith)
      have h2 : roundEven y ≤ (2 ^ 53 : ℤ) := round_le_of_le (by push_cast; linarith)
      rw [abs_of_nonneg (by linarith)]
      exact ⟨h1, h2⟩
    · rw [abs_of_neg hy] at a b
      have h1 : roundEven y ≤ (-2 ^ 52 : ℤ) := round_le_of_le (by push_cast; linarith)
      have h2 : (-2 ^ 53 : ℤ) ≤ roundEven y := le_round_of_le (by push_cast; linarith)
      rw [abs_of_nonpos (by linarith)]
      constructor <;> linarith
  generalize roundEven y = n at hn
  rw [abs_mul, abs_of_pos hp]
  rcases eq_or_lt_of_le hn.2 with h | h
  · refine ⟨2 ^ 52, k + 1, le_refl _, by norm_num, ?_⟩
    have : |(n : ℚ)| = 2 ^ 53 := by exact_mod_cast h
    rw [this, zpow_add₀ (by norm_num)]
    push_cast
    ring
  · exact ⟨|n|, k, hn.1, h, by push_cast; rfl⟩

theorem rndBits_scale {m k : ℤ} (hm1 : m < 2 ^ 53) {t : ℚ} (c1 : (2 : ℚ) ^ 52 ≤ m - t) (h0 : 0 ≤ t) (h1 : t < 1 / 2) :
    rndBits 53 ((m - t) * (2 : ℚ) ^ k) = m * (2 : ℚ) ^ k := by
  have hp : (0 : ℚ) < (2 : ℚ) ^ k := zpow_pos (by norm_num) _
  have c2 : (m : ℚ) < 2 ^ 53 := by exact_mod_cast hm1
  have hx : 0 < (m - t) * (2 : ℚ) ^ k := mul_pos (by linarith [show (0 : ℚ) < 2 ^ 52 by norm_num]) hp
  have hlog : Int.log 2 |(m - t) * (2 : ℚ) ^ k| = k + 52 := by
    rw [abs_of_pos hx]
    apply le_antisymm
    · have : Int.log 2 ((m - t) * (2 : ℚ) ^ k) < k + 53 := by
        rw [← Int.lt_zpow_iff_log_lt (by norm_num) hx]
        push_cast
        rw [zpow_add₀ (by norm_num), mul_comm ((2 : ℚ) ^ k)]
        refine mul_lt_mul_of_pos_right ?_ hp
        calc (m : ℚ) - t ≤ m := by linarith
          _ < 2 ^ 53 := c2
          _ = (2 : ℚ) ^ (53 : ℤ) := by norm_cast
      omega
    · rw [← Int.zpow_le_iff_le_log (by norm_num) hx]
      push_cast
      rw [zpow_add₀ (by norm_num), mul_comm ((2 : ℚ) ^ k)]
      refine mul_le_mul_of_nonneg_right ?_ hp.le
      calc (2 : ℚ) ^ (52 : ℤ) = 2 ^ 52 := by norm_cast
        _ ≤ m - t := by linarith
  unfold rndBits
  rw [hlog, show k + 52 - ((53 : ℕ) : ℤ) + 1 = k by push_cast; ring, mul_div_cancel_right₀ _ hp.ne']
  congr 2
  have ha := Int.floor_le ((m : ℚ) - t)
  rcases eq_or_lt_of_le h0 with h | h
  · rw [← h, sub_zero, roundEven_intCast]
  · have hf : ⌊(m : ℚ) - t⌋ = m - 1 := by
      rw [Int.floor_eq_iff]; push_cast; constructor <;> linarith
    unfold roundEven
    rw [hf, if_neg (by push_cast; linarith), if_pos (by push_cast; linarith)]
    ring

/-- Below every rounded square there is the square of a number that rounds to the argument. -/
theorem square_root_low (w : ℚ) : ∃ q, 0 ≤ q ∧ q * q ≤ rndBits 53 (rndBits 53 w * rndBits 53 w) ∧ rndBits 53 q = |rndBits 53 w| := by
  by_cases h0 : w = 0
  · subst h0
    rw [rndBits_zero]
    exact ⟨0, le_refl _, by simp [rndBits_zero], by simp [rndBits_zero]⟩
  obtain ⟨m, k, m0, m1, hz⟩ := significand h0
  generalize rndBits 53 w = z at *
  have hp : (0 : ℚ) < (2 : ℚ) ^ k := zpow_pos (by norm_num) _
  have hsq : z * z = m * m * ((2 : ℚ) ^ k * (2 : ℚ) ^ k) := by
    rw [← abs_mul_abs_self z, hz]; ring
  rcases eq_or_lt_of_le m0 with he | hl
  · -- a power of two
    have hs : rndBits 53 (z * z) = z * z := by
      have e2 : z * z = (((2 ^ 52 : ℤ) : ℚ) - 0) * (2 : ℚ) ^ (52 + 2 * k) := by
        rw [hsq, ← he, zpow_add₀ (by norm_num), two_mul, zpow_add₀ (by norm_num)]
        push_cast
        ring
      rw [e2, rndBits_scale (by norm_num) (by norm_num) (le_refl _) (by norm_num), sub_zero]
    refine ⟨|z|, abs_nonneg _, by rw [hs, abs_mul_abs_self], ?_⟩
    have e3 : |z| = ((m : ℚ) - 0) * (2 : ℚ) ^ k := by rw [hz, sub_zero]
    rw [e3, rndBits_scale m1 (by rw [← he]; norm_num) (le_refl _) (by norm_num), sub_zero]
  · have hs := rndBits_err 53 (z * z)
    rw [abs_of_nonneg (mul_self_nonneg z)] at hs
    have hs' := (abs_le.1 hs).1
    refine ⟨(m - (1 / 2 - 1 / 2 ^ 56)) * (2 : ℚ) ^ k, ?_, ?_, ?_⟩
    · refine mul_nonneg ?_ hp.le
      have : (2 : ℚ) ^ 52 ≤ m := by exact_mod_cast m0
      linarith [show (1 : ℚ) ≤ 2 ^ 52 by norm_num, show (0 : ℚ) ≤ 1 / 2 ^ 56 by norm_num]
    · have c1 : (2 : ℚ) ^ 52 + 1 ≤ m := by exact_mod_cast hl
      have c2 : (m : ℚ) + 1 ≤ 2 ^ 53 := by exact_mod_cast m1
      have key : ((m : ℚ) - (1 / 2 - 1 / 2 ^ 56)) * (m - (1 / 2 - 1 / 2 ^ 56)) ≤ m * m - m * m / 2 ^ 53 := by
        have : (m : ℚ) * (2 ^ 53 - m) ≥ 2 ^ 52 := by nlinarith
        nlinarith
      have := mul_le_mul_of_nonneg_right key (mul_pos hp hp).le
      have e : (m * m - m * m / 2 ^ 53) * ((2 : ℚ) ^ k * (2 : ℚ) ^ k) = z * z - z * z / 2 ^ 53 := by rw [hsq]; ring
      rw [e] at this
      calc _ = ((m : ℚ) - (1 / 2 - 1 / 2 ^ 56)) * (m - (1 / 2 - 1 / 2 ^ 56)) * ((2 : ℚ) ^ k * (2 : ℚ) ^ k) := by ring
        _ ≤ z * z - z * z / 2 ^ 53 := this
        _ ≤ _ := by linarith
    · rw [hz]
      have c1 : (2 : ℚ) ^ 52 + 1 ≤ m := by exact_mod_cast hl
      exact rndBits_scale m1 (by linarith [show (0 : ℚ) ≤ 1 / 2 ^ 56 by norm_num]) (by norm_num) (by norm_num)

theorem rndBits_nonneg {x : ℚ} (h : 0 ≤ x) : 0 ≤ rndBits 53 x := Fl64.ieee.nonneg h

theorem rndBits_idem {x : ℚ} (h : 0 ≤ x) : rndBits 53 (rndBits 53 x) = rndBits 53 x := by
  rcases eq_or_lt_of_le h with h0 | h0
  · rw [← h0, rndBits_zero, rndBits_zero]
  obtain ⟨m, k, m0, m1, hz⟩ := significand h0.ne'
  rw [abs_of_nonneg (rndBits_nonneg h)] at hz
  have e : rndBits 53 x = ((m : ℚ) - 0) * (2 : ℚ) ^ k := by rw [hz, sub_zero]
  have m0' : (2 : ℚ) ^ 52 ≤ m := by exact_mod_cast m0
  rw [e, rndBits_scale m1 (by linarith) (le_refl _) (by norm_num), sub_zero]

/-- The distance is not less than the third component. -/
theorem delta_above (M : DirLib Fl64.ieee) (v0 v1 w : ℚ) : |rndBits 53 w| ≤ M.sqrt (dist2D Fl64.ieee v0 v1 (rndBits 53 w)) := by
  obtain ⟨q, q0, q1, q2⟩ := square_root_low w
  have h := M.sqrt_low (dist2D Fl64.ieee v0 v1 (rndBits 53 w)) q q0 ?_
  · rw [← q2]; exact h
  · refine q1.trans ?_
    show _ ≤ rndBits 53 (rndBits 53 (rndBits 53 (0 + rndBits 53 (v0 * v0)) + rndBits 53 (v1 * v1)) + rndBits 53 (rndBits 53 w * rndBits 53 w))
    have h1 := rndBits_nonneg (mul_self_nonneg v0)
    have h2 := rndBits_nonneg (mul_self_nonneg v1)
    have h3 := rndBits_nonneg (x := 0 + rndBits 53 (v0 * v0)) (by linarith)
    have h4 := rndBits_nonneg (x := rndBits 53 (0 + rndBits 53 (v0 * v0)) + rndBits 53 (v1 * v1)) (by linarith)
    calc rndBits 53 (rndBits 53 w * rndBits 53 w) = rndBits 53 (rndBits 53 (rndBits 53 w * rndBits 53 w)) := (rndBits_idem (mul_self_nonneg _)).symm
      _ ≤ _ := rndBits_mono 53 (by norm_num) _ _ (by linarith)

/-! ### Relative errors -/

theorem rndBits_real (z : ℚ) : |(rndBits 53 z : ℝ) - z| ≤ 1 / 2 ^ 53 * |(z : ℝ)| := by
  have := rndBits_err 53 z
  have h : ((|rndBits 53 z - z| : ℚ) : ℝ) ≤ ((|z| / 2 ^ 53 : ℚ) : ℝ) := by exact_mod_cast this
  push_cast at h
  linarith

theorem rel_rnd {a c X : ℝ} {z : ℚ} (h : Approx a 0 z X) (hX : 0 ≤ X) (hc : a + 1 / 2 ^ 53 * (1 + a) ≤ c) : Approx c 0 (rndBits 53 z) X := by
  unfold Approx at *
  have h1 := rndBits_real z
  have h2 : |(z : ℝ)| ≤ X + a * X := by
    have := abs_sub_abs_le_abs_sub (z : ℝ) X
    rw [abs_of_nonneg hX] at this
    linarith
  have h3 := abs_sub_le (rndBits 53 z : ℝ) z X
  have h4 := mul_le_mul_of_nonneg_right hc hX
  nlinarith

/-- The square of a rounded difference. -/
theorem rel_square (d : ℚ) : Approx (31 / 10 / 2 ^ 53) 0 (rndBits 53 (rndBits 53 d * rndBits 53 d) : ℝ) ((d : ℝ) * d) := by
  have h : Approx (1 / 2 ^ 53) 0 (|(rndBits 53 d : ℝ)|) |(d : ℝ)| := by
    unfold Approx
    have := rndBits_real d
    have h2 := abs_abs_sub_abs_le (rndBits 53 d : ℝ) d
    linarith
  have h2 := Approx.scale h h (abs_nonneg _) (abs_nonneg _) (by norm_num) (le_refl _) (by norm_num) (c := 201 / 100 / 2 ^ 53) (γ := 0) (by norm_num) (by norm_num)
  rw [abs_mul_abs_self, abs_mul_abs_self] at h2
  refine rel_rnd (a := 201 / 100 / 2 ^ 53) ?_ (mul_self_nonneg _) (by norm_num)
  push_cast
  exact h2

theorem rel_add {a b c x X y Y : ℝ} (hx : Approx a 0 x X) (hy : Approx b 0 y Y) (hX : 0 ≤ X) (hY : 0 ≤ Y) (ha : a ≤ c) (hb : b ≤ c) :
    Approx c 0 (x + y) (X + Y) := by
  have := Approx.add (hx.mono hX ha (le_refl _)) (hy.mono hY hb (le_refl _))
  simpa using this

theorem rel_dist2 (a b c : ℚ) :
    Approx (62 / 10 / 2 ^ 53) 0 (dist2D Fl64.ieee (rndBits 53 a) (rndBits 53 b) (rndBits 53 c) : ℝ) ((a : ℝ) * a + b * b + c * c) := by
  have pa := mul_self_nonneg (a : ℝ)
  have pb := mul_self_nonneg (b : ℝ)
  have pc := mul_self_nonneg (c : ℝ)
  refine rel_rnd (a := 519 / 100 / 2 ^ 53) ?_ (by linarith) (by norm_num)
  push_cast
  have h2 : Approx (519 / 100 / 2 ^ 53) 0 (rndBits 53 (rndBits 53 (0 + rndBits 53 (rndBits 53 a * rndBits 53 a)) + rndBits 53 (rndBits 53 b * rndBits 53 b)) : ℝ)
      ((a : ℝ) * a + b * b) := by
    refine rel_rnd (a := 415 / 100 / 2 ^ 53) ?_ (by linarith) (by norm_num)
    push_cast
    have h0 : Approx (415 / 100 / 2 ^ 53) 0 (rndBits 53 (0 + rndBits 53 (rndBits 53 a * rndBits 53 a)) : ℝ) ((a : ℝ) * a) :=
      rel_rnd (a := 31 / 10 / 2 ^ 53) (by rw [zero_add]; exact rel_square a) pa (by norm_num)
    exact rel_add h0 (rel_square b) pa pb (le_refl _) (by norm_num)
  exact rel_add h2 (rel_square c) (by linarith) pc (le_refl _) (by norm_num)

/-- A correctly rounded root. -/
theorem rel_root (M : DirLib Fl64.ieee) {x : ℚ} (hx : 0 < x) : Approx (101 / 100 / 2 ^ 53) 0 (M.sqrt x : ℝ) √x := by
  have hx' : (0 : ℝ) < x := by exact_mod_cast hx
  have hs := Real.sqrt_pos.2 hx'
  have hq := Real.mul_self_sqrt hx'.le
  obtain ⟨q, q1, q2⟩ := exists_rat_btwn (show √(x : ℝ) < √x * (1 + 1 / 2 ^ 70) by nlinarith)
  obtain ⟨p, p1, p2⟩ := exists_rat_btwn (show √(x : ℝ) * (1 - 1 / 2 ^ 70) < √x by nlinarith)
  have p0 : (0 : ℝ) < p := lt_of_lt_of_le (mul_pos hs (by norm_num)) p1.le
  have hlow := M.sqrt_low x p (by exact_mod_cast p0.le) (by
    have : (p : ℝ) * p ≤ x := by nlinarith
    exact_mod_cast this)
  have hup := M.sqrt_up x q hx.le (by
    have : (0 : ℝ) ≤ q := by linarith
    exact_mod_cast this) (by
    have : (x : ℝ) ≤ q * q := by nlinarith
    exact_mod_cast this)
  have e1 := abs_le.1 (rndBits_real p)
  have e2 := abs_le.1 (rndBits_real q)
  rw [abs_of_pos p0] at e1
  rw [abs_of_pos (by linarith : (0 : ℝ) < q)] at e2
  have hlow' : (rndBits 53 p : ℝ) ≤ M.sqrt x := by exact_mod_cast hlow
  have hup' : (M.sqrt x : ℝ) ≤ rndBits 53 q := by exact_mod_cast hup
  unfold Approx
  rw [abs_le]
  constructor <;> nlinarith [e1.1, e2.2]

theorem rel_delta (M : DirLib Fl64.ieee) {a b c : ℚ} (h : 0 < (a : ℝ) * a + b * b + c * c) :
    Approx (42 / 10 / 2 ^ 53) 0 (M.sqrt (dist2D Fl64.ieee (rndBits 53 a) (rndBits 53 b) (rndBits 53 c)) : ℝ) √((a : ℝ) * a + b * b + c * c) := by
  have h1 := rel_dist2 a b c
  generalize dist2D Fl64.ieee (rndBits 53 a) (rndBits 53 b) (rndBits 53 c) = w at *
  generalize (a : ℝ) * a + b * b + c * c = X at *
  have hw : 0 < w := by
    have := (abs_le.1 h1).1
    have : (0 : ℝ) < w := by nlinarith
    exact_mod_cast this
  have h2 := rel_root M hw
  have h3 := rel_sqrt h1 h.le (by norm_num) (by norm_num) (le_refl _) (b := 311 / 100 / 2 ^ 53) (β := 0) (by norm_num) (by norm_num) (by norm_num)
    (le_refl _) (by norm_num)
  unfold Approx at *
  have h4 := abs_sub_le (M.sqrt w : ℝ) √w √X
  have h5 : √(w : ℝ) ≤ √X + 311 / 100 / 2 ^ 53 * √X := by linarith [(abs_le.1 h3).2]
  have := Real.sqrt_nonneg X
  nlinarith

/-! ### The angles -/

/-- The inverse sine of any two numbers. -/
theorem arcsin_any {x y : ℝ} (hx : |x| ≤ 1) (hy : |y| ≤ 1) : |Real.arcsin x - Real.arcsin y| ≤ Real.pi * √(|x - y| / 2) := by
  wlog h : Real.arcsin y ≤ Real.arcsin x generalizing x y
  · rw [abs_sub_comm, abs_sub_comm x]
    exact this hy hx (le_of_not_ge h)
  obtain ⟨x1, x2⟩ := abs_le.1 hx
  obtain ⟨y1, y2⟩ := abs_le.1 hy
  have hs : x - y = 2 * Real.sin ((Real.arcsin x - Real.arcsin y) / 2) * Real.cos ((Real.arcsin x + Real.arcsin y) / 2) := by
    rw [← Real.sin_sub_sin, Real.sin_arcsin x1 x2, Real.sin_arcsin y1 y2]
  have a1 := Real.arcsin_le_pi_div_two x
  have b1 := Real.neg_pi_div_two_le_arcsin y
  have a2 := Real.neg_pi_div_two_le_arcsin x
  have b2 := Real.arcsin_le_pi_div_two y
  generalize Real.arcsin x = a at *
  generalize Real.arcsin y = b at *
  have hπ := Real.pi_pos
  have hj := Real.mul_le_sin (x := (a - b) / 2) (by linarith) (by linarith)
  have hc : Real.sin ((a - b) / 2) ≤ Real.cos ((a + b) / 2) := by
    rw [← Real.cos_pi_div_two_sub]
    rcases le_total 0 (a + b) with h0 | h0
    · exact Real.cos_le_cos_of_nonneg_of_le_pi (by linarith) (by linarith) (by linarith)
    · rw [← Real.cos_neg ((a + b) / 2)]
      exact Real.cos_le_cos_of_nonneg_of_le_pi (by linarith) (by linarith) (by linarith)
  have h0 : 0 ≤ 2 / Real.pi * ((a - b) / 2) := mul_nonneg (by positivity) (by linarith)
  have hsq : (2 / Real.pi * ((a - b) / 2)) ^ 2 ≤ |x - y| / 2 := by
    rw [hs, abs_of_nonneg (mul_nonneg (by linarith) (by linarith))]
    nlinarith
  have := Real.le_sqrt_of_sq_le hsq
  rw [abs_of_nonneg (by linarith)]
  calc a - b = Real.pi * (2 / Real.pi * ((a - b) / 2)) := by field_simp
    _ ≤ _ := mul_le_mul_of_nonneg_left this hπ.le

theorem arcsin_small {t : ℝ} (h0 : 0 ≤ t) (h1 : t ≤ 1) : Real.arcsin t ≤ Real.pi / 2 * t := by
  have hj := Real.mul_le_sin (x := Real.arcsin t) (Real.arcsin_nonneg.2 h0) (Real.arcsin_le_pi_div_two t)
  rw [Real.sin_arcsin (by linarith) h1] at hj
  have hπ := Real.pi_pos
  calc Real.arcsin t = Real.pi / 2 * (2 / Real.pi * Real.arcsin t) := by field_simp
    _ ≤ _ := mul_le_mul_of_nonneg_left hj (by positivity)

theorem arg_near_one {w : ℂ} (h : ‖w‖ ≤ 1 / 2 ^ 53) : |Complex.arg (1 + w)| ≤ 16 / 10 / 2 ^ 53 := by
  have h1 : |w.re| ≤ 1 / 2 ^ 53 := (Complex.abs_re_le_norm w).trans h
  have h2 : |w.im| ≤ 1 / 2 ^ 53 := (Complex.abs_im_le_norm w).trans h
  have hre : (1 + w).re = 1 + w.re := by simp
  have him : (1 + w).im = w.im := by simp
  have h3 : 1 - 1 / 2 ^ 53 ≤ ‖1 + w‖ := by
    have := Complex.abs_re_le_norm (1 + w)
    rw [hre] at this
    have := le_abs_self (1 + w.re)
    linarith [(abs_le.1 h1).1]
  have hp : (0 : ℝ) < ‖1 + w‖ := by
    have : (0 : ℝ) < 1 - 1 / 2 ^ 53 := by norm_num
    linarith
  rw [Complex.arg_of_re_nonneg (by rw [hre]; have := (abs_le.1 h1).1; have : (1 : ℝ) / 2 ^ 53 < 1 := by norm_num
                                   linarith), him]
  have ht : |w.im / ‖1 + w‖| ≤ 101 / 100 / 2 ^ 53 := by
    rw [abs_div, abs_of_pos hp, div_le_iff₀ hp]
    have : (101 / 100 / 2 ^ 53 : ℝ) * (1 - 1 / 2 ^ 53) ≥ 1 / 2 ^ 53 := by norm_num
    nlinarith
  have hb : |Real.arcsin (w.im / ‖1 + w‖)| ≤ Real.pi / 2 * (101 / 100 / 2 ^ 53) := by
    generalize w.im / ‖1 + w‖ = t at ht
    have hk : Real.arcsin |t| ≤ Real.pi / 2 * |t| := arcsin_small (abs_nonneg _) (ht.trans (by norm_num))
    have : |Real.arcsin t| ≤ Real.arcsin |t| := by
      rcases le_total 0 t with h | h
      · rw [abs_of_nonneg h, abs_of_nonneg (Real.arcsin_nonneg.2 h)]
      · rw [abs_of_nonpos h, abs_of_nonpos (Real.arcsin_nonpos.2 h), Real.arcsin_neg]
    have hπ := Real.pi_pos
    nlinarith
  have := Real.pi_lt_d2
  linarith

/-- The angle of two rounded components. -/
theorem arg_near (a b : ℚ) : ∃ k : ℤ, |Complex.arg ⟨rndBits 53 a, rndBits 53 b⟩ - Complex.arg ⟨a, b⟩ - 2 * Real.pi * k| ≤ 16 / 10 / 2 ^ 53 := by
  by_cases h0 : (⟨a, b⟩ : ℂ) = 0
  · have ha : (a : ℝ) = 0 := congrArg Complex.re h0
    have hb : (b : ℝ) = 0 := congrArg Complex.im h0
    have ha : a = 0 := by exact_mod_cast ha
    have hb : b = 0 := by exact_mod_cast hb
    subst ha hb
    rw [rndBits_zero]
    exact ⟨0, by norm_num⟩
  have hz : ‖(⟨rndBits 53 a, rndBits 53 b⟩ : ℂ) - ⟨a, b⟩‖ ≤ 1 / 2 ^ 53 * ‖(⟨a, b⟩ : ℂ)‖ := by
    have ea := rndBits_real a
    have eb := rndBits_real b
    refine abs_le_of_sq_le_sq' ?_ (by positivity) |>.2
    rw [mul_pow, Complex.sq_norm, Complex.sq_norm, Complex.normSq_apply, Complex.normSq_apply]
    simp only [Complex.sub_re, Complex.sub_im]
    have e1 := mul_self_le_mul_self (abs_nonneg _) ea
    have e2 := mul_self_le_mul_self (abs_nonneg _) eb
    rw [abs_mul_abs_self] at e1 e2
    have f1 := abs_mul_abs_self (a : ℝ)
    have f2 := abs_mul_abs_self (b : ℝ)
    have g1 : 1 / 2 ^ 53 * |(a : ℝ)| * (1 / 2 ^ 53 * |(a : ℝ)|) = (1 / 2 ^ 53) ^ 2 * ((a : ℝ) * a) := by rw [← f1]; ring
    have g2 : 1 / 2 ^ 53 * |(b : ℝ)| * (1 / 2 ^ 53 * |(b : ℝ)|) = (1 / 2 ^ 53) ^ 2 * ((b : ℝ) * b) := by rw [← f2]; ring
    rw [g1] at e1
    rw [g2] at e2
    linarith
  generalize (⟨a, b⟩ : ℂ) = Z at *
  generalize (⟨rndBits 53 a, rndBits 53 b⟩ : ℂ) = z at *
  have hn : 0 < ‖Z‖ := norm_pos_iff.2 h0
  have hw : ‖(z - Z) / Z‖ ≤ 1 / 2 ^ 53 := by
    rw [norm_div, div_le_iff₀ hn]; exact hz
  have hne : 1 + (z - Z) / Z ≠ 0 := by
    intro h
    have : (z - Z) / Z = -1 := by linear_combination h
    rw [this] at hw
    norm_num at hw
  have e : z = Z * (1 + (z - Z) / Z) := by field_simp; ring
  have hang := Complex.arg_mul_coe_angle h0 hne
  rw [← e, ← Real.Angle.coe_add, Real.Angle.angle_eq_iff_two_pi_dvd_sub] at hang
  obtain ⟨k, hk⟩ := hang
  refine ⟨k, ?_⟩
  have := arg_near_one hw
  rw [show z.arg - Z.arg - 2 * Real.pi * k = (1 + (z - Z) / Z).arg by linarith]
  exact this

theorem twopi_near : |(twopiD : ℝ) - 2 * Real.pi| ≤ 1 / 10 ^ 15 := by
  have := Real.pi_gt_d20
  have := Real.pi_lt_d20
  unfold twopiD
  push_cast
  rw [abs_le]
  constructor <;> linarith

/-- The right ascension. -/
theorem ra_near (M : DirLib Fl64.ieee) (a b : ℚ) {ra : ℚ}
    (h : ra = if M.atan2 (rndBits 53 b) (rndBits 53 a) < 0 then rndBits 53 (M.atan2 (rndBits 53 b) (rndBits 53 a) + twopiD)
      else M.atan2 (rndBits 53 b) (rndBits 53 a)) :
    0 ≤ ra ∧ ra ≤ twopiD ∧ ∃ k : ℤ, |(ra : ℝ) - Complex.arg ⟨a, b⟩ - 2 * Real.pi * k| ≤ 3 / 10 ^ 15 := by
  obtain ⟨k, hk⟩ := arg_near a b
  have ha := M.atan2_err (rndBits 53 b) (rndBits 53 a)
  have hr1 := Complex.neg_pi_lt_arg (⟨rndBits 53 a, rndBits 53 b⟩ : ℂ)
  have hr2 := Complex.arg_le_pi (⟨rndBits 53 a, rndBits 53 b⟩ : ℂ)
  have ht := twopi_near
  generalize Complex.arg (⟨rndBits 53 a, rndBits 53 b⟩ : ℂ) = A at *
  generalize M.atan2 (rndBits 53 b) (rndBits 53 a) = r at *
  generalize Complex.arg ⟨(a : ℝ), (b : ℝ)⟩ = B at *
  have hA : |A| ≤ 4 := by rw [abs_le]; constructor <;> linarith [Real.pi_lt_four]
  have hr : |(r : ℝ) - A| ≤ 8 / 2 ^ 53 := by linarith
  have hpi1 := Real.pi_gt_d6
  have hpi2 := Real.pi_lt_d6
  by_cases hc : r < 0
  · rw [if_pos hc] at h
    have hc' : (r : ℝ) < 0 := by exact_mod_cast hc
    obtain ⟨t1, t2⟩ := abs_le.1 ht
    obtain ⟨r1, r2⟩ := abs_le.1 hr
    have hpos : (0 : ℝ) ≤ r + twopiD := by linarith
    have e := rndBits_real (r + twopiD)
    push_cast at e
    rw [abs_of_nonneg hpos, ← h] at e
    obtain ⟨e1, e2⟩ := abs_le.1 e
    refine ⟨?_, ?_, k + 1, ?_⟩
    · rw [h]; exact rndBits_nonneg (by exact_mod_cast hpos)
    · rw [h]
      have := rndBits_mono 53 (by norm_num) (r + twopiD) twopiD (by linarith)
      rwa [show rndBits 53 twopiD = twopiD by
        have := rndBits_exact 53 884279719003555 47 (by norm_num) (by norm_num)
        rwa [Int.cast_ofNat] at this] at this
    · obtain ⟨k1, k2⟩ := abs_le.1 hk
      push_cast
      rw [abs_le]
      constructor <;> linarith
  · rw [if_neg hc] at h
    push Not at hc
    subst h
    refine ⟨hc, ?_, k, ?_⟩
    · obtain ⟨t1, t2⟩ := abs_le.1 ht
      obtain ⟨r1, r2⟩ := abs_le.1 hr
      have : (ra : ℝ) ≤ twopiD := by linarith
      exact_mod_cast this
    · obtain ⟨k1, k2⟩ := abs_le.1 hk
      obtain ⟨r1, r2⟩ := abs_le.1 hr
      rw [abs_le]
      constructor <;> linarith

/-- The sine of the declination. -/
theorem ratio_near {c v d D : ℝ} (hD : 0 < D) (hv : |v - c| ≤ 1 / 2 ^ 53 * |c|) (hd : |d - D| ≤ 42 / 10 / 2 ^ 53 * D) :
    0 < d ∧ |v / d - c / D| ≤ 53 / 10 / 2 ^ 53 * |c / D| := by
  have h0 : (1 - 42 / 10 / 2 ^ 53) * D ≤ d := by linarith [(abs_le.1 hd).1]
  have hd0 : 0 < d := lt_of_lt_of_le (mul_pos (by norm_num) hD) h0
  refine ⟨hd0, ?_⟩
  rw [show v / d - c / D = ((v - c) * D - c * (d - D)) / (d * D) by field_simp; ring, abs_div, abs_of_pos (mul_pos hd0 hD), abs_div, abs_of_pos hD,
    div_le_iff₀ (mul_pos hd0 hD)]
  have h1 : |(v - c) * D - c * (d - D)| ≤ 1 / 2 ^ 53 * |c| * D + |c| * (42 / 10 / 2 ^ 53 * D) := by
    refine (abs_sub _ _).trans (add_le_add ?_ ?_)
    · rw [abs_mul, abs_of_pos hD]; exact mul_le_mul_of_nonneg_right hv hD.le
    · rw [abs_mul]; exact mul_le_mul_of_nonneg_left hd (abs_nonneg _)
  have h2 : 53 / 10 / 2 ^ 53 * (|c| / D) * (d * D) = 53 / 10 / 2 ^ 53 * |c| * d := by field_simp
  rw [h2]
  have h3 := mul_le_mul_of_nonneg_left h0 (show 0 ≤ 53 / 10 / 2 ^ 53 * |c| by positivity)
  have h4 : 0 ≤ |c| * D := mul_nonneg (abs_nonneg _) hD.le
  have h5 : 53 / 10 / 2 ^ 53 * |c| * ((1 - 42 / 10 / 2 ^ 53) * D) = 53 / 10 / 2 ^ 53 * (1 - 42 / 10 / 2 ^ 53) * (|c| * D) := by ring
  have h6 : (1 / 2 ^ 53 + 42 / 10 / 2 ^ 53) * (|c| * D) ≤ 53 / 10 / 2 ^ 53 * (1 - 42 / 10 / 2 ^ 53) * (|c| * D) :=
    mul_le_mul_of_nonneg_right (by norm_num) h4
  linarith

theorem arcsin_signed {x y : ℝ} (h : |x - y| ≤ 1 / 2 ^ 50 * |y|) (hy : |y| ≤ 98 / 100) : |Real.arcsin x - Real.arcsin y| ≤ 53 / 10 * |x - y| := by
  wlog h0 : 0 ≤ y generalizing x y
  · have := this (x := -x) (y := -y) (by rw [abs_neg, show -x - -y = -(x - y) by ring, abs_neg]; exact h) (by rwa [abs_neg]) (by linarith)
    rw [Real.arcsin_neg, Real.arcsin_neg, show -Real.arcsin x - -Real.arcsin y = -(Real.arcsin x - Real.arcsin y) by ring, abs_neg,
      show -x - -y = -(x - y) by ring, abs_neg] at this
    exact this
  rw [abs_of_nonneg h0] at h hy
  obtain ⟨h1, h2⟩ := abs_le.1 h
  exact arcsin_near (m := 981 / 1000) (by linarith) h0 (by linarith) (by linarith) (by norm_num) (by norm_num) (by norm_num)

/-- C179: for every observer and every satellite elsewhere the program finds a direction and a distance (no NaN); the distance is right to
10⁻¹⁵ of itself, the right ascension to 3·10⁻¹⁵ radian, the declination to 7·10⁻⁸ radian, and to 8·10⁻¹⁵ radian up to about 78 degrees from the
equator. -/
theorem C179_direction (M : DirLib Fl64.ieee) {o0 o1 o2 s0 s1 s2 : ℚ} (hne : ¬(o0 = s0 ∧ o1 = s1 ∧ o2 = s2)) {RA DEC D : ℝ}
    (hE : get_satellite_ra_dec_delta ⟨o0, o1, o2⟩ ⟨s0, s1, s2⟩ = (RA, DEC, D)) :
    ∃ ra dec d, raDecDeltaD Fl64.ieee M o0 o1 o2 s0 s1 s2 = some (ra, dec, d) ∧ |(d : ℝ) - D| ≤ 1 / 10 ^ 15 * D ∧
      0 ≤ ra ∧ ra ≤ twopiD ∧ (∃ k : ℤ, |(ra : ℝ) - RA - 2 * Real.pi * k| ≤ 3 / 10 ^ 15) ∧ |(dec : ℝ) - DEC| ≤ 7 / 10 ^ 8 ∧
      (|Real.sin DEC| ≤ 98 / 100 → |(dec : ℝ) - DEC| ≤ 8 / 10 ^ 15) := by
  have hsub : (⟨s0, s1, s2⟩ : V3).sub ⟨o0, o1, o2⟩ = ⟨((s0 - o0 : ℚ) : ℝ), ((s1 - o1 : ℚ) : ℝ), ((s2 - o2 : ℚ) : ℝ)⟩ := by
    unfold V3.sub; push_cast; rfl
  unfold get_satellite_ra_dec_delta at hE
  dsimp only at hE
  rw [hsub] at hE
  simp only [Prod.mk.injEq, V3.dot] at hE
  obtain ⟨hRA, hDEC, hD⟩ := hE
  unfold raDecDeltaD
  dsimp only
  rw [show Fl64.ieee.rnd = rndBits 53 from rfl]
  have hpos : 0 < ((s0 - o0 : ℚ) : ℝ) * ((s0 - o0 : ℚ) : ℝ) + ((s1 - o1 : ℚ) : ℝ) * ((s1 - o1 : ℚ) : ℝ) + ((s2 - o2 : ℚ) : ℝ) * ((s2 - o2 : ℚ) : ℝ) := by
    by_contra hc
    push Not at hc
    have n0 := mul_self_nonneg ((s0 - o0 : ℚ) : ℝ)
    have n1 := mul_self_nonneg ((s1 - o1 : ℚ) : ℝ)
    have n2 := mul_self_nonneg ((s2 - o2 : ℚ) : ℝ)
    have z0 := mul_self_eq_zero.1 (le_antisymm (by linarith) n0)
    have z1 := mul_self_eq_zero.1 (le_antisymm (by linarith) n1)
    have z2 := mul_self_eq_zero.1 (le_antisymm (by linarith) n2)
    rw [Rat.cast_eq_zero, sub_eq_zero] at z0 z1 z2
    exact hne ⟨z0.symm, z1.symm, z2.symm⟩
  clear hsub hne
  generalize s0 - o0 = a at *
  generalize s1 - o1 = b at *
  generalize s2 - o2 = c at *
  have hdel := rel_delta M hpos
  have habove := delta_above M (rndBits 53 a) (rndBits 53 b) c
  unfold Approx at hdel
  rw [hD] at hdel
  rw [hD] at hDEC
  have hDp : 0 < D := by rw [← hD]; exact Real.sqrt_pos.2 hpos
  have hcD : |(c : ℝ)| ≤ D := by
    rw [← hD]
    refine Real.le_sqrt_of_sq_le ?_
    rw [sq_abs]
    nlinarith [mul_self_nonneg (a : ℝ), mul_self_nonneg (b : ℝ)]
  generalize M.sqrt (dist2D Fl64.ieee (rndBits 53 a) (rndBits 53 b) (rndBits 53 c)) = d at *
  rw [add_zero] at hdel
  obtain ⟨hd0, hrat⟩ := ratio_near hDp (rndBits_real c) hdel
  have hd0' : 0 < d := by exact_mod_cast hd0
  have hle : |rndBits 53 (rndBits 53 c / d)| ≤ 1 := by
    have h1 : |rndBits 53 c / d| ≤ 1 := by rw [abs_div, abs_of_pos hd0', div_le_one hd0']; exact habove
    obtain ⟨l1, l2⟩ := abs_le.1 h1
    have m1 := rndBits_mono 53 (by norm_num) _ _ l1
    have m2 := rndBits_mono 53 (by norm_num) _ _ l2
    rw [show rndBits 53 (-1) = -1 by simpa using rndBits_exact 53 (-1) 0 (by norm_num) (by norm_num)] at m1
    rw [show rndBits 53 1 = 1 by simpa using rndBits_exact 53 1 0 (by norm_num) (by norm_num)] at m2
    exact abs_le.2 ⟨m1, m2⟩
  rw [if_pos ⟨hd0'.ne', hle⟩]
  obtain ⟨ra0, ra1, k, hk⟩ := ra_near M a b (ra := if M.atan2 (rndBits 53 b) (rndBits 53 a) < 0 then
    rndBits 53 (M.atan2 (rndBits 53 b) (rndBits 53 a) + twopiD) else M.atan2 (rndBits 53 b) (rndBits 53 a)) rfl
  generalize (if M.atan2 (rndBits 53 b) (rndBits 53 a) < 0 then rndBits 53 (M.atan2 (rndBits 53 b) (rndBits 53 a) + twopiD)
    else M.atan2 (rndBits 53 b) (rndBits 53 a)) = ra at *
  refine ⟨_, _, _, rfl, ?_, ra0, ra1, ?_, ?_⟩
  · refine hdel.trans (mul_le_mul_of_nonneg_right (by norm_num) hDp.le)
  · rw [← hRA]
    unfold atan2
    split_ifs with hn
    · exact ⟨k - 1, le_of_eq_of_le (by congr 1; push_cast; ring) hk⟩
    · exact ⟨k, hk⟩
  · have hx := M.asin_err _ hle
    have hr := rndBits_real (rndBits 53 c / d)
    generalize rndBits 53 (rndBits 53 c / d) = x at *
    have hX : |(c : ℝ) / D| ≤ 1 := by rw [abs_div, abs_of_pos hDp, div_le_one hDp]; exact hcD
    push_cast at hr
    generalize (rndBits 53 c : ℝ) / d = y at *
    generalize (c : ℝ) / D = X at *
    have hy : |y| ≤ (1 + 53 / 10 / 2 ^ 53) * |X| := by
      have := abs_sub_abs_le_abs_sub y X
      linarith
    have hxX : |(x : ℝ) - X| ≤ 64 / 10 / 2 ^ 53 * |X| := by
      have h1 := abs_sub_le (x : ℝ) y X
      have h2 : 1 / 2 ^ 53 * |y| ≤ 1 / 2 ^ 53 * ((1 + 53 / 10 / 2 ^ 53) * |X|) := mul_le_mul_of_nonneg_left hy (by norm_num)
      have h3 : (1 / 2 ^ 53 * (1 + 53 / 10 / 2 ^ 53) + 53 / 10 / 2 ^ 53) * |X| ≤ 64 / 10 / 2 ^ 53 * |X| :=
        mul_le_mul_of_nonneg_right (by norm_num) (abs_nonneg _)
      linarith
    have hpi := Real.pi_lt_d2
    have hA : 2 / 2 ^ 53 * |Real.arcsin x| ≤ 32 / 10 / 2 ^ 53 := by
      have h1 := Real.arcsin_le_pi_div_two (x : ℝ)
      have h2 := Real.neg_pi_div_two_le_arcsin (x : ℝ)
      have : |Real.arcsin x| ≤ 16 / 10 := by rw [abs_le]; constructor <;> linarith
      linarith
    have hx1 : |(x : ℝ)| ≤ 1 := by exact_mod_cast hle
    rw [← hDEC]
    have htri := abs_sub_le (M.asin x : ℝ) (Real.arcsin x) (Real.arcsin X)
    constructor
    · have h1 := arcsin_any hx1 hX
      have h2 : √(|(x : ℝ) - X| / 2) ≤ 19 / 10 ^ 9 := by
        rw [Real.sqrt_le_left (by norm_num)]
        have : |(x : ℝ) - X| ≤ 64 / 10 / 2 ^ 53 := by nlinarith [abs_nonneg X]
        linarith
      have h3 := mul_le_mul_of_nonneg_left h2 Real.pi_pos.le
      linarith
    · intro hs
      rw [Real.sin_arcsin (abs_le.1 hX).1 (abs_le.1 hX).2] at hs
      have h1 := arcsin_signed (x := x) (y := X) (hxX.trans (mul_le_mul_of_nonneg_right (by norm_num) (abs_nonneg _))) hs
      have : |(x : ℝ) - X| ≤ 64 / 10 / 2 ^ 53 := by nlinarith [abs_nonneg X]
      linarith

/-! ### Example -/

theorem rounded_root_exists (x : ℚ) : ∃ s, (∀ q, 0 ≤ q → q * q ≤ x → rndBits 53 q ≤ s) ∧ (0 ≤ x → ∀ q, 0 ≤ q → x ≤ q * q → s ≤ rndBits 53 q) := by
  rcases lt_trichotomy x 0 with h | h | h
  · exact ⟨0, fun q _ hq => absurd (mul_self_nonneg q) (by linarith), fun hx => absurd hx (by linarith)⟩
  · refine ⟨0, fun q _ hq => ?_, fun _ q h0 _ => rndBits_nonneg h0⟩
    have : q = 0 := mul_self_eq_zero.1 (le_antisymm (by linarith) (mul_self_nonneg q))
    rw [this, rndBits_zero]
  · have q0 : 0 < x / (1 + x) := by positivity
    have q1 : x / (1 + x) * (x / (1 + x)) ≤ x := by
      rw [div_mul_div_comm, div_le_iff₀ (by positivity)]
      nlinarith [mul_pos h h]
    have hr : 0 < rndBits 53 (x / (1 + x)) := lt_of_lt_of_le (zpow_pos (by norm_num) _) (rndBits_pos_bounds 53 (by norm_num) _ q0).1
    generalize x / (1 + x) = q' at *
    obtain ⟨j, hj⟩ := exists_pow_lt_of_lt_one hr (show (1 / 2 : ℚ) < 1 by norm_num)
    rw [div_pow, one_pow] at hj
    have grid : ∀ q, q' ≤ q → ∃ k : ℤ, rndBits 53 q = k / 2 ^ (52 + j) := by
      intro q hq
      have hm := rndBits_mono 53 (by norm_num) _ _ hq
      refine rndBits_grid 52 q j ?_
      show _ ≤ |rndBits 53 q|
      rw [abs_of_pos (by linarith)]
      linarith
    obtain ⟨ub, ⟨q, hq1, hq2, hq3⟩, hub⟩ := Int.exists_greatest_of_bdd (P := fun n : ℤ => ∃ q, q' ≤ q ∧ q * q ≤ x ∧ rndBits 53 q = n / 2 ^ (52 + j))
      ⟨⌊rndBits 53 (1 + x) * 2 ^ (52 + j)⌋, by
        rintro n ⟨q, -, hq, e⟩
        rw [Int.le_floor]
        have hm := rndBits_mono 53 (by norm_num) q (1 + x) (by nlinarith)
        rw [e, div_le_iff₀ (by positivity)] at hm
        exact hm⟩
      ⟨_, q', le_refl _, q1, (grid q' (le_refl _)).choose_spec⟩
    refine ⟨rndBits 53 q, fun p p0 hp => ?_, fun _ p p0 hp => ?_⟩
    · rcases le_total p q' with hc | hc
      · exact rndBits_mono 53 (by norm_num) _ _ (hc.trans hq1)
      · obtain ⟨k, hk⟩ := grid p hc
        have := hub k ⟨p, hc, hp, hk⟩
        rw [hk, hq3]
        exact div_le_div_of_nonneg_right (by exact_mod_cast this) (by positivity)
    · exact rndBits_mono 53 (by norm_num) _ _ (by nlinarith)

theorem rational_near (v : ℝ) : ∃ r : ℚ, |(r : ℝ) - v| ≤ 2 / 2 ^ 53 * |v| := by
  by_cases h : v = 0
  · exact ⟨0, by rw [h]; norm_num⟩
  · have hp := abs_pos.2 h
    obtain ⟨r, h1, h2⟩ := exists_rat_btwn (show v < v + 2 / 2 ^ 53 * |v| by linarith [show (0 : ℝ) < 2 / 2 ^ 53 * |v| by positivity])
    exact ⟨r, by rw [abs_of_pos (by linarith)]; linarith⟩

/-- There are such libraries. -/
noncomputable def dirLib : DirLib Fl64.ieee where
  sqrt x := (rounded_root_exists x).choose
  asin x := (rational_near (Real.arcsin x)).choose
  atan2 y x := (rational_near (Complex.arg ⟨x, y⟩)).choose
  sqrt_low x := (rounded_root_exists x).choose_spec.1
  sqrt_up x q h := (rounded_root_exists x).choose_spec.2 h q
  asin_err x _ := (rational_near (Real.arcsin x)).choose_spec
  atan2_err y x := (rational_near (Complex.arg ⟨x, y⟩)).choose_spec

/-- Straight above the pole the quotient is 1, where the least excess would be a NaN. -/
example : ∃ ra dec d, raDecDeltaD Fl64.ieee dirLib 0 0 6357 0 0 (6357 + 1 / 3) = some (ra, dec, d) ∧ |(d : ℝ) - 1 / 3| ≤ 1 / 10 ^ 15 ∧
    |(dec : ℝ) - Real.pi / 2| ≤ 7 / 10 ^ 8 := by
  have hs : √((1 / 3 : ℝ) * (1 / 3)) = 1 / 3 := Real.sqrt_mul_self (by norm_num)
  obtain ⟨ra, dec, d, h, h1, _, _, _, h2, _⟩ := C179_direction dirLib (o0 := 0) (o1 := 0) (o2 := 6357) (s0 := 0) (s1 := 0) (s2 := 6357 + 1 / 3)
    (by norm_num) (RA := 0) (DEC := Real.pi / 2) (D := 1 / 3) (by
      have hv : (⟨((0 : ℚ) : ℝ), ((0 : ℚ) : ℝ), ((6357 + 1 / 3 : ℚ) : ℝ)⟩ : V3).sub ⟨((0 : ℚ) : ℝ), ((0 : ℚ) : ℝ), ((6357 : ℚ) : ℝ)⟩ = ⟨0, 0, 1 / 3⟩ := by
        unfold V3.sub; push_cast; norm_num
      unfold get_satellite_ra_dec_delta
      dsimp only
      rw [hv]
      have ha : atan2 0 0 = 0 := by
        unfold atan2
        rw [show (⟨0, 0⟩ : ℂ) = 0 from rfl, Complex.arg_zero]
      unfold V3.dot
      dsimp only
      rw [ha, if_neg (lt_irrefl _), zero_mul, zero_add, zero_add, hs, div_self (by norm_num), Real.arcsin_one])
  exact ⟨ra, dec, d, h, by linarith, h2⟩

end SatSky.Props
