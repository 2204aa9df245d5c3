import Verif.Lemmas.Relative
import Verif.Props.Separation

/-! C177: the separation of two directions in `double` arithmetic. -/

namespace SatSky.Props

open SatSky.Spec SatSky.Geo SatSky.Relative Real

/-- The square of the sine of half an angle. -/
theorem half_sine (F : Fl64) (M : Libm) {x : ℚ} {X : ℝ} (hX : |X| ≤ π) (hx : |(x : ℝ) - X| ≤ 1 / 2 ^ 53 * |X| + 1 / 2 ^ 198) :
    Approx (12 / 2 ^ 53) (1 / 2 ^ 193) (F.rnd (M.sin (F.rnd (x / 2)) * M.sin (F.rnd (x / 2)))) (sin (X / 2) * sin (X / 2)) := by
  have h1 := err_real F (x / 2)
  have h2 := M.sin_err (F.rnd (x / 2))
  push_cast at h1
  have h3 : |(x : ℝ)| ≤ |X| + (1 / 2 ^ 53 * |X| + 1 / 2 ^ 198) := by
    have := abs_sub_abs_le_abs_sub (x : ℝ) X
    linarith
  have h4 : |X| ≤ π * |sin (X / 2)| := by
    have := mul_abs_le_abs_sin (x := X / 2) (by rw [abs_div, abs_two]; linarith)
    rw [abs_div, abs_two, div_mul_div_comm, mul_comm π 2, mul_div_mul_left _ _ two_ne_zero, div_le_iff₀ pi_pos] at this
    linarith
  have h5 := abs_sin_sub_sin_le (F.rnd (x / 2)) (X / 2)
  have h6 : |(F.rnd (x / 2) : ℝ) - X / 2| ≤ 101 / 100 / 2 ^ 53 * |X| + 1 / 2 ^ 197 := by
    have e1 := abs_sub_le (F.rnd (x / 2) : ℝ) (x / 2) (X / 2)
    have e2 : |(x : ℝ) / 2 - X / 2| = |(x : ℝ) - X| / 2 := by rw [← sub_div, abs_div, abs_two]
    have e3 : |(x : ℝ) / 2| = |(x : ℝ)| / 2 := by rw [abs_div, abs_two]
    rw [e3] at h1
    have := abs_nonneg X
    linarith
  have h7 : |sin (F.rnd (x / 2) : ℝ)| ≤ |sin (X / 2)| + |sin (F.rnd (x / 2) : ℝ) - sin (X / 2)| := by
    have := abs_sub_abs_le_abs_sub (sin (F.rnd (x / 2) : ℝ)) (sin (X / 2))
    linarith
  have h8 : |(M.sin (F.rnd (x / 2)) : ℝ) - sin (X / 2)| ≤ 53 / 10 / 2 ^ 53 * |sin (X / 2)| + 1 / 2 ^ 196 := by
    have e1 := abs_sub_le (M.sin (F.rnd (x / 2)) : ℝ) (sin (F.rnd (x / 2))) (sin (X / 2))
    have e2 : |X| ≤ 315 / 100 * |sin (X / 2)| := h4.trans (mul_le_mul_of_nonneg_right (by linarith [pi_lt_d2]) (abs_nonneg _))
    have := abs_nonneg (sin (X / 2))
    linarith
  have h9 : Approx (53 / 10 / 2 ^ 53) (1 / 2 ^ 196) |(M.sin (F.rnd (x / 2)) : ℝ)| |sin (X / 2)| :=
    (abs_abs_sub_abs_le_abs_sub _ _).trans h8
  have hS := abs_nonneg (sin (X / 2))
  have hS1 := abs_sin_le_one (X / 2)
  have h10 := Approx.mul (c := 107 / 10 / 2 ^ 53) (γ := 1 / 2 ^ 194) h9 h9 hS hS1 hS hS1 (by norm_num) (by norm_num) (by norm_num) (by norm_num)
    (by norm_num) (by norm_num)
  rw [abs_mul_abs_self, abs_mul_abs_self] at h10
  exact Approx.rnd F (z := M.sin (F.rnd (x / 2)) * M.sin (F.rnd (x / 2))) (by push_cast; exact h10) (mul_self_nonneg _) (by norm_num) (by norm_num)

/-- The argument of the root. -/
theorem haversine_near (F : Fl64) (M : Libm) {x p1 p2 : ℚ} {X : ℝ} (hX : |X| ≤ π) (hx : |(x : ℝ) - X| ≤ 1 / 2 ^ 53 * |X| + 1 / 2 ^ 198)
    (h1 : |(p1 : ℝ)| ≤ π / 2) (h2 : |(p2 : ℝ)| ≤ π / 2) :
    Approx (20 / 2 ^ 53) (1 / 2 ^ 190) (haversineD F M x p1 p2)
      (sin ((p2 - p1) / 2) * sin ((p2 - p1) / 2) + cos p1 * cos p2 * (sin (X / 2) * sin (X / 2))) ∧ 0 ≤ haversineD F M x p1 p2 := by
  have c1 : 0 ≤ cos (p1 : ℝ) := cos_nonneg_of_neg_pi_div_two_le_of_le (abs_le.1 h1).1 (abs_le.1 h1).2
  have c2 : 0 ≤ cos (p2 : ℝ) := cos_nonneg_of_neg_pi_div_two_le_of_le (abs_le.1 h2).1 (abs_le.1 h2).2
  have s1 := half_sine F M hX hx
  have s2 := half_sine F M (x := F.rnd (p2 - p1)) (X := p2 - p1) (by
    have := abs_sub (p2 : ℝ) p1
    linarith) (by
    have := err_real F (p2 - p1)
    push_cast at this
    linarith)
  have k1 : Approx (2 / 2 ^ 53) (1 / 2 ^ 200) (M.cos p1) (cos p1) := by
    have := M.cos_err p1
    rwa [abs_of_nonneg c1] at this
  have k2 : Approx (2 / 2 ^ 53) (1 / 2 ^ 200) (M.cos p2) (cos p2) := by
    have := M.cos_err p2
    rwa [abs_of_nonneg c2] at this
  have k3 := Approx.mul (c := 41 / 10 / 2 ^ 53) (γ := 1 / 2 ^ 198) k1 k2 c1 (cos_le_one _) c2 (cos_le_one _) (by norm_num) (by norm_num) (by norm_num)
    (by norm_num) (by norm_num) (by norm_num)
  have k4 := Approx.rnd F (c := 52 / 10 / 2 ^ 53) (γ := 1 / 2 ^ 197) (z := M.cos p1 * M.cos p2) (by push_cast; exact k3) (mul_nonneg c1 c2) (by norm_num)
    (by norm_num)
  have q0 := mul_self_nonneg (sin (X / 2))
  have q1 : sin (X / 2) * sin (X / 2) ≤ 1 := by nlinarith [sin_sq_add_cos_sq (X / 2), sq_nonneg (cos (X / 2))]
  have k5 := Approx.mul (c := 173 / 10 / 2 ^ 53) (γ := 1 / 2 ^ 192) k4 s1 (mul_nonneg c1 c2) (mul_le_one₀ (cos_le_one _) c2 (cos_le_one _)) q0 q1
    (by norm_num) (by norm_num) (by norm_num) (by norm_num) (by norm_num) (by norm_num)
  have k6 := Approx.rnd F (c := 185 / 10 / 2 ^ 53) (γ := 3 / 2 ^ 193) (z := F.rnd (M.cos p1 * M.cos p2) *
    F.rnd (M.sin (F.rnd (x / 2)) * M.sin (F.rnd (x / 2)))) (by push_cast; exact k5) (mul_nonneg (mul_nonneg c1 c2) q0) (by norm_num) (by norm_num)
  have k7 := Approx.add (s2.mono (mul_self_nonneg _) (by norm_num : _ ≤ (185 / 10 / 2 ^ 53 : ℝ)) (le_refl _)) k6
  constructor
  · unfold haversineD
    dsimp only
    exact Approx.rnd F (by push_cast; exact k7) (add_nonneg (mul_self_nonneg _) (mul_nonneg (mul_nonneg c1 c2) q0)) (by norm_num) (by norm_num)
  · unfold haversineD
    dsimp only
    refine F.nonneg (add_nonneg (F.nonneg (mul_self_nonneg _)) (F.nonneg (mul_nonneg (F.nonneg (mul_nonneg (M.cos_sign _ c1) (M.cos_sign _ c2))) 
      (F.nonneg (mul_self_nonneg _)))))

theorem pi_near : |(r2dD : ℝ) - 180 / π| ≤ 1 / 2 ^ 53 * (180 / π) := by
  have h1 := pi_gt_d20
  have h2 := pi_lt_d20
  rw [div_eq_mul_one_div, abs_le]
  have e1 : 1 / π ≤ 1 / 3.14159265358979323846 := one_div_le_one_div_of_le (by norm_num) h1.le
  have e2 : 1 / 3.14159265358979323847 ≤ 1 / π := one_div_le_one_div_of_le pi_pos h2.le
  norm_num [r2dD] at e1 e2 ⊢
  constructor <;> linarith

/-- From the argument of the root to degrees; `m` bounds the sine of half the angle, `k` is at least the secant of that angle. -/
theorem halfangle_near (F : Fl64) (M : Libm) {h : ℚ} {H m k : ℝ} (hh : Approx (20 / 2 ^ 53) (1 / 2 ^ 190) h H) (h0 : 0 ≤ h) (hH : 0 ≤ H)
    (hm : 1 / 10 ^ 14 + √H ≤ m) (hm1 : m < 1) (hk : 1 ≤ k * k * (1 - m * m)) (hk0 : 0 < k) (hk1 : k ≤ 1000) :
    ∃ y, halfangleD F M h = some y ∧ |(y : ℝ) - 2 * arcsin √H * (180 / π)| ≤ (6 + 23 / 2 * k) / 2 ^ 53 * (2 * arcsin √H * (180 / π)) + 1 / 10 ^ 20 := by
  have s1 : Approx (101 / 10 / 2 ^ 53) (1 / 2 ^ 95) √(h : ℝ) √H := rel_sqrt hh hH (by norm_num) (by norm_num) (by norm_num) (by norm_num) (by norm_num)
    (by norm_num) (by norm_num) (by norm_num)
  have hs := sqrt_nonneg H
  have s2 : Approx (112 / 10 / 2 ^ 53) (1 / 2 ^ 94) (M.sqrt h) √H := by
    have e1 := M.sqrt_err h h0
    have e2 := abs_sub_le (M.sqrt h : ℝ) √h √H
    have e3 : √(h : ℝ) ≤ √H + (101 / 10 / 2 ^ 53 * √H + 1 / 2 ^ 95) := by linarith [(abs_le.1 s1).2]
    unfold Approx at *
    linarith
  have hq0 : (0 : ℝ) ≤ M.sqrt h := by exact_mod_cast M.sqrt_sign h h0
  have hq : (M.sqrt h : ℝ) ≤ m := by
    unfold Approx at s2
    linarith [(abs_le.1 s2).2]
  have hq1 : M.sqrt h ≤ 1 := by exact_mod_cast hq.trans hm1.le
  have hA : √H ≤ arcsin √H := by
    have h1 := sin_le (x := arcsin √H) (arcsin_nonneg.2 hs)
    rwa [sin_arcsin (by linarith) (by linarith)] at h1
  have hA0 := hs.trans hA
  have n1 := arcsin_near hq0 hs hq (by linarith) hm1 hk hk0
  have n2 := M.asin_err (M.sqrt h) (by rw [abs_le]; constructor <;> linarith [M.sqrt_sign h h0])
  refine ⟨_, if_pos hq1, ?_⟩
  generalize M.sqrt h = q at *
  generalize arcsin √H = A at *
  have n3 : |arcsin (q : ℝ) - A| ≤ k * (112 / 10 / 2 ^ 53 * A + 1 / 2 ^ 94) := by
    refine n1.trans (mul_le_mul_of_nonneg_left (s2.trans ?_) hk0.le)
    linarith
  have n4 : Approx ((21 / 10 + 1121 / 100 * k) / 2 ^ 53) (1 / 2 ^ 83) (M.asin q) A := by
    unfold Approx
    have e1 := abs_sub_le (M.asin q : ℝ) (arcsin q) A
    have e2 := abs_sub_abs_le_abs_sub (arcsin (q : ℝ)) A
    rw [abs_of_nonneg hA0] at e2
    have e3 : 0 ≤ k * A := mul_nonneg hk0.le hA0
    have e4 : k * A ≤ 1000 * A := mul_le_mul_of_nonneg_right hk1 hA0
    linarith
  have n5 : Approx ((21 / 10 + 1121 / 100 * k) / 2 ^ 53) (1 / 2 ^ 82) ((2 * M.asin q : ℚ) : ℝ) (2 * A) := by
    unfold Approx at *
    push_cast
    rw [← mul_sub, abs_mul, abs_two]
    linarith
  have n6 := Approx.rnd F (c := (32 / 10 + 1121 / 100 * k) / 2 ^ 53) (γ := 1 / 2 ^ 81) n5 (by linarith) (by linarith) (by norm_num)
  have hp := pi_gt_d2
  have hr : 180 / π ≤ 60 := by
    rw [div_le_iff₀ pi_pos]
    linarith
  have n7 := Approx.scale (c := (43 / 10 + 1122 / 100 * k) / 2 ^ 53) (γ := 1 / 2 ^ 74) n6 (b := 1 / 2 ^ 53) (by
      unfold Approx
      rw [add_zero]
      exact pi_near) (by linarith) (by positivity) (by positivity) (by norm_num) (by norm_num) (by linarith) (by linarith)
  have n8 := Approx.rnd F (z := F.rnd (2 * M.asin q) * r2dD) (c := (6 + 23 / 2 * k) / 2 ^ 53) (γ := 1 / 10 ^ 20) (by push_cast at n7 ⊢; exact n7)
    (by positivity) (by linarith) (by norm_num)
  exact n8

/-- The haversine formula, with any angle that has the cosine of the difference of the longitudes. -/
theorem angle_haversine {a b c d x : ℝ} (hx : cos x = cos (c - a)) :
    Spec.angle (dir a b) (dir c d) = 2 * arcsin √(sin ((d - b) / 2) * sin ((d - b) / 2) + cos b * cos d * (sin (x / 2) * sin (x / 2))) := by
  rw [angle_dir, ← two_arcsin (abs_dot_dir_le a b c d), dot_dir, sin_half_mul, sin_half_mul, hx]
  congr 3
  ring

theorem haversine_nonneg {p1 p2 : ℚ} {x : ℝ} (h1 : |(p1 : ℝ)| ≤ π / 2) (h2 : |(p2 : ℝ)| ≤ π / 2) :
    0 ≤ sin ((p2 - p1 : ℝ) / 2) * sin ((p2 - p1 : ℝ) / 2) + cos p1 * cos p2 * (sin (x / 2) * sin (x / 2)) :=
  add_nonneg (mul_self_nonneg _) (mul_nonneg (mul_nonneg (cos_nonneg_of_neg_pi_div_two_le_of_le (abs_le.1 h1).1 (abs_le.1 h1).2)
    (cos_nonneg_of_neg_pi_div_two_le_of_le (abs_le.1 h2).1 (abs_le.1 h2).2)) (mul_self_nonneg _))

theorem root_sin {H A : ℝ} (h : A = 2 * arcsin √H) (h1 : √H ≤ 1) : √H = sin (A / 2) := by
  rw [h, mul_div_cancel_left₀ _ two_ne_zero, sin_arcsin (by linarith [sqrt_nonneg H]) h1]

/-- The part of the program after the difference of the longitudes: `X` is the exact difference, `A` the angle. -/
theorem tail_near (F : Fl64) (M : Libm) {x p1 p2 : ℚ} {a c X A m k : ℝ} (hA : A = Spec.angle (dir a p1) (dir c p2)) (hc : cos X = cos (c - a))
    (hX : |X| ≤ π) (hx : |(x : ℝ) - X| ≤ 1 / 2 ^ 53 * |X| + 1 / 2 ^ 198) (h1 : |(p1 : ℝ)| ≤ π / 2) (h2 : |(p2 : ℝ)| ≤ π / 2)
    (hm : 1 / 10 ^ 14 + sin (A / 2) ≤ m) (hm1 : m < 1) (hk : 1 ≤ k * k * (1 - m * m)) (hk0 : 0 < k) (hk1 : k ≤ 1000) :
    ∃ y, halfangleD F M (haversineD F M x p1 p2) = some y ∧ |(y : ℝ) - A * (180 / π)| ≤ (6 + 23 / 2 * k) / 2 ^ 53 * (A * (180 / π)) + 1 / 10 ^ 20 := by
  obtain ⟨n1, n2⟩ := haversine_near F M hX hx h1 h2
  have hA' := hA.trans (angle_haversine (d := p2) (b := p1) hc)
  have hle : √(sin ((p2 - p1 : ℝ) / 2) * sin ((p2 - p1 : ℝ) / 2) + cos p1 * cos p2 * (sin (X / 2) * sin (X / 2))) ≤ 1 := by
    have h0 := abs_le.1 (abs_dot_dir_le a p1 c p2)
    rw [dot_dir, ← hc] at h0
    refine sqrt_le_one.2 ?_
    rw [sin_half_mul, sin_half_mul]
    linarith [h0.1]
  rw [hA']
  refine halfangle_near F M n1 n2 (haversine_nonneg h1 h2) ?_ hm1 hk hk0 hk1
  rw [root_sin hA' hle]
  exact hm

theorem piD_near : (piD : ℝ) ≤ π ∧ π ≤ piD + 125 / 10 ^ 18 ∧ (twopiD : ℝ) = 2 * piD ∧ 314 / 100 ≤ (piD : ℝ) ∧ (piD : ℝ) ≤ 31416 / 10 ^ 4 := by
  have h1 := pi_gt_d20
  have h2 := pi_lt_d20
  norm_num [piD, twopiD] at h1 h2 ⊢
  constructor <;> linarith

/-- Moving one point along its parallel changes the separation by at most the angle of the longitudes. -/
theorem parallel_le (d x w : ℝ) : Spec.angle (dir x d) (dir w d) ≤ |w - x| := by
  rw [angle_dir, dot_dir, sub_self, cos_zero]
  rcases le_or_gt π |w - x| with h | h
  · exact (arccos_le_pi _).trans h
  · have h1 : cos |w - x| ≤ 1 - cos d * cos d * (1 - cos (w - x)) := by
      rw [cos_abs]
      have e1 := cos_le_one (w - x)
      have e2 : cos d * cos d ≤ 1 := by nlinarith [sin_sq_add_cos_sq d, sq_nonneg (sin d)]
      nlinarith
    have h2 := arccos_le_arccos h1
    rwa [arccos_cos (abs_nonneg _) h.le] at h2

/-- **C177**: without a fold of the longitudes the separation up to 90 degrees has a relative error of at most 3·10⁻¹⁵, however small it is. -/
theorem C177_relative (F : Fl64) (M : Libm) {t1 p1 t2 p2 : ℚ} (ht1 : 0 ≤ t1) (ht2 : 0 ≤ t2) (hd : |t2 - t1| ≤ piD) (h1 : |(p1 : ℝ)| ≤ π / 2)
    (h2 : |(p2 : ℝ)| ≤ π / 2) (hA : Spec.angle (dir t1 p1) (dir t2 p2) ≤ π / 2) :
    ∃ y, skysepD F M t1 p1 t2 p2 = some y ∧ |(y : ℝ) - Spec.angle (dir t1 p1) (dir t2 p2) * (180 / π)| ≤
      3 / 10 ^ 15 * (Spec.angle (dir t1 p1) (dir t2 p2) * (180 / π)) + 1 / 10 ^ 20 := by
  have hp := piD_near
  have hA0 : 0 ≤ Spec.angle (dir t1 p1) (dir t2 p2) := InnerProductGeometry.angle_nonneg _ _
  have hfix : F.rnd piD = piD := by
    have := F.exact 884279719003555 48 (by norm_num) (by norm_num)
    rwa [Int.cast_ofNat] at this
  have hfix' : F.rnd (-piD) = -piD := by
    have := F.exact (-884279719003555) 48 (by norm_num) (by norm_num)
    unfold piD
    rw [← neg_div]
    exact_mod_cast this
  have hr : |F.rnd (t2 - t1)| ≤ piD := by
    obtain ⟨d1, d2⟩ := abs_le.1 hd
    rw [abs_le]
    have e1 := F.mono _ _ d1
    have e2 := F.mono _ _ d2
    rw [hfix'] at e1
    rw [hfix] at e2
    exact ⟨e1, e2⟩
  have hrad : radifD F t1 t2 = |F.rnd (t2 - t1)| := by
    unfold radifD
    dsimp only
    rw [if_neg (not_lt.2 ht1), if_neg (not_lt.2 ht2), if_neg (not_lt.2 hr)]
  have hdR : |(t2 : ℝ) - t1| ≤ piD := by exact_mod_cast hd
  have hsin : sin (Spec.angle (dir t1 p1) (dir t2 p2) / 2) ≤ 70711 / 10 ^ 5 := by
    have e1 : sin (Spec.angle (dir t1 p1) (dir t2 p2) / 2) ≤ sin (π / 4) :=
      sin_le_sin_of_le_of_le_pi_div_two (by linarith [pi_pos]) (by linarith [pi_pos]) (by linarith)
    rw [sin_pi_div_four] at e1
    have : √2 ≤ 141422 / 10 ^ 5 := sqrt_le_iff.2 ⟨by norm_num, by norm_num⟩
    linarith
  unfold skysepD
  rw [hrad]
  obtain ⟨y, hy, hn⟩ := tail_near F M (x := |F.rnd (t2 - t1)|) (a := t1) (c := t2) (X := |(t2 : ℝ) - t1|) rfl (cos_abs _) (by
      rw [abs_abs]
      linarith) (by
      rw [abs_abs]
      have e1 := err_real F (t2 - t1)
      push_cast at e1 ⊢
      refine (abs_abs_sub_abs_le_abs_sub _ _).trans (e1.trans ?_)
      norm_num) h1 h2 (m := 70712 / 10 ^ 5) (k := 14143 / 10 ^ 4) (by linarith) (by norm_num) (by norm_num) (by norm_num) (by norm_num)
  refine ⟨y, hy, hn.trans ?_⟩
  have : 0 ≤ Spec.angle (dir t1 p1) (dir t2 p2) * (180 / π) := by positivity
  linarith

theorem rnd_twopi (F : Fl64) : F.rnd twopiD = twopiD := by
  have := F.exact 884279719003555 47 (by norm_num) (by norm_num)
  rwa [Int.cast_ofNat] at this

theorem twice_pi : twopiD = 2 * piD := by
  unfold twopiD piD
  norm_num

/-- A longitude taken to `[0, 2π]`. -/
theorem lift_near (F : Fl64) {t : ℚ} (h : |t| ≤ twopiD) : ∃ b : ℚ, ∃ B : ℝ, ∃ n : ℤ, (if t < 0 then F.rnd (t + twopiD) else t) = b ∧ 0 ≤ b ∧
    b ≤ twopiD ∧ B = t + n * (2 * π) ∧ |(b : ℝ) - B| ≤ 96 / 10 ^ 17 := by
  obtain ⟨h1, h2⟩ := abs_le.1 h
  obtain ⟨p1, p2, p3, p4, p5⟩ := piD_near
  by_cases h0 : t < 0
  · rw [if_pos h0]
    refine ⟨_, t + 2 * π, 1, rfl, F.nonneg (by linarith), ?_, by push_cast; ring, ?_⟩
    · have := F.mono (t + twopiD) twopiD (by linarith)
      rwa [rnd_twopi] at this
    · have e1 := err_real F (t + twopiD)
      have e2 : |((t + twopiD : ℚ) : ℝ)| ≤ twopiD := by
        rw [← Rat.cast_abs]
        exact_mod_cast (abs_le.2 ⟨by linarith, by linarith⟩ : |t + twopiD| ≤ twopiD)
      rw [abs_le] at e1 ⊢
      push_cast at e1 e2
      rw [p3] at e1 e2
      constructor <;> linarith [e1.1, e1.2]
  · rw [if_neg h0]
    exact ⟨t, t, 0, rfl, not_lt.1 h0, h2, by push_cast; ring, by rw [sub_self, abs_zero]; norm_num⟩

/-- The difference of the longitudes is folded to 4·10⁻¹⁵. -/
theorem radif_near (F : Fl64) {t1 t2 : ℚ} (h1 : |t1| ≤ twopiD) (h2 : |t2| ≤ twopiD) :
    0 ≤ radifD F t1 t2 ∧ radifD F t1 t2 ≤ piD ∧ ∃ W : ℝ, cos W = cos (t2 - t1) ∧ |(radifD F t1 t2 : ℝ) - W| ≤ 4 / 10 ^ 15 := by
  obtain ⟨p1, p2, p3, p4, p5⟩ := piD_near
  obtain ⟨a, A, i, ha, a0, a1, hA, ea⟩ := lift_near F h1
  obtain ⟨b, B, j, hb, b0, b1, hB, eb⟩ := lift_near F h2
  unfold radifD
  dsimp only
  rw [ha, hb]
  have hcos : cos (B - A) = cos (t2 - t1) := by
    rw [hA, hB, show (t2 : ℝ) + j * (2 * π) - (t1 + i * (2 * π)) = t2 - t1 + ((j - i : ℤ) : ℝ) * (2 * π) by push_cast; ring, cos_add_int_mul_two_pi]
  have hneg : F.rnd (-twopiD) = -twopiD := by
    have := F.exact (-884279719003555) 47 (by norm_num) (by norm_num)
    unfold twopiD
    rw [← neg_div]
    exact_mod_cast this
  have hd : |F.rnd (b - a)| ≤ twopiD := by
    rw [abs_le]
    have e1 := F.mono (-twopiD) (b - a) (by linarith)
    have e2 := F.mono (b - a) twopiD (by linarith)
    rw [hneg] at e1
    rw [rnd_twopi] at e2
    exact ⟨e1, e2⟩
  have he : abs (((|F.rnd (b - a)| : ℚ) : ℝ) - |B - A|) ≤ 27 / 10 ^ 16 := by
    have e1 := err_real F (b - a)
    have e2 : |((b - a : ℚ) : ℝ)| ≤ twopiD := by
      rw [← Rat.cast_abs]
      exact_mod_cast (abs_le.2 ⟨by linarith, by linarith⟩ : |b - a| ≤ twopiD)
    push_cast
    refine (abs_abs_sub_abs_le_abs_sub _ _).trans ?_
    rw [p3] at e2
    push_cast at e1 e2
    rw [abs_le] at e1 ea eb ⊢
    constructor <;> linarith [e1.1, e1.2, ea.1, ea.2, eb.1, eb.2]
  have h0 := abs_nonneg (F.rnd (b - a))
  generalize |F.rnd (b - a)| = r at *
  by_cases hr : r > piD
  · rw [if_pos hr]
    refine ⟨F.nonneg (by linarith), ?_, 2 * π - |B - A|, by rw [cos_two_pi_sub, cos_abs, hcos], ?_⟩
    · have e1 := F.mono (twopiD - r) piD (by rw [twice_pi]; linarith)
      have := F.exact 884279719003555 48 (by norm_num) (by norm_num)
      rw [Int.cast_ofNat] at this
      exact e1.trans this.le
    · have e1 := err_real F (twopiD - r)
      have e2 : |((twopiD - r : ℚ) : ℝ)| ≤ piD := by
        rw [← Rat.cast_abs]
        exact_mod_cast (abs_le.2 ⟨by linarith [twice_pi], by linarith [twice_pi]⟩ : |twopiD - r| ≤ piD)
      push_cast at e1 e2
      rw [p3] at e1 e2
      rw [abs_le] at e1 he ⊢
      constructor <;> linarith [e1.1, e1.2, he.1, he.2]
  · rw [if_neg hr]
    refine ⟨h0, not_lt.1 hr, |B - A|, by rw [cos_abs, hcos], he.trans (by norm_num)⟩

/-- The separation of the folded longitudes. -/
theorem folded (F : Fl64) {t1 t2 : ℚ} (p1 p2 : ℚ) (h1 : |t1| ≤ twopiD) (h2 : |t2| ≤ twopiD) :
    |Spec.angle (dir 0 p1) (dir (radifD F t1 t2 : ℝ) p2) - Spec.angle (dir t1 p1) (dir t2 p2)| ≤ 4 / 10 ^ 15 := by
  obtain ⟨-, -, W, hW, hn⟩ := radif_near F h1 h2
  have e1 : Spec.angle (dir t1 p1) (dir t2 p2) = Spec.angle (dir 0 p1) (dir W p2) := by
    rw [angle_haversine (x := W) hW, angle_haversine (x := W) (by rw [sub_zero])]
  have e2 := parallel_le p2 (radifD F t1 t2) W
  have e3 := parallel_le p2 W (radifD F t1 t2)
  have e4 := InnerProductGeometry.angle_le_angle_add_angle (dir 0 p1).toE (dir (radifD F t1 t2 : ℝ) p2).toE (dir W p2).toE
  have e5 := InnerProductGeometry.angle_le_angle_add_angle (dir 0 p1).toE (dir W p2).toE (dir (radifD F t1 t2 : ℝ) p2).toE
  rw [abs_sub_comm] at e2
  rw [e1]
  unfold Spec.angle at *
  rw [abs_le]
  constructor <;> linarith

/-- For all longitudes, up to an angle of `2 asin m`. -/
theorem skysep_near (F : Fl64) (M : Libm) {t1 p1 t2 p2 : ℚ} {m k : ℝ} (ht1 : |t1| ≤ twopiD) (ht2 : |t2| ≤ twopiD) (h1 : |(p1 : ℝ)| ≤ π / 2)
    (h2 : |(p2 : ℝ)| ≤ π / 2) (hm : 2 / 10 ^ 14 + sin (Spec.angle (dir t1 p1) (dir t2 p2) / 2) ≤ m) (hm1 : m < 1) (hk : 1 ≤ k * k * (1 - m * m))
    (hk0 : 0 < k) (hk1 : k ≤ 1000) :
    ∃ y, skysepD F M t1 p1 t2 p2 = some y ∧ |(y : ℝ) - Spec.angle (dir t1 p1) (dir t2 p2) * (180 / π)| ≤
      (6 + 23 / 2 * k) / 2 ^ 53 * (Spec.angle (dir t1 p1) (dir t2 p2) * (180 / π)) + 24 / 10 ^ 14 := by
  obtain ⟨q1, q2, p3, p4, p5⟩ := piD_near
  have hf := folded F p1 p2 ht1 ht2
  obtain ⟨r0, r1, -⟩ := radif_near F ht1 ht2
  have r0' : (0 : ℝ) ≤ radifD F t1 t2 := by exact_mod_cast r0
  have r1' : (radifD F t1 t2 : ℝ) ≤ piD := by exact_mod_cast r1
  have hs := abs_sin_sub_sin_le (Spec.angle (dir 0 p1) (dir (radifD F t1 t2 : ℝ) p2) / 2) (Spec.angle (dir t1 p1) (dir t2 p2) / 2)
  rw [← sub_div, abs_div, abs_two] at hs
  obtain ⟨y, hy, hn⟩ := tail_near F M (x := radifD F t1 t2) (a := 0) (c := radifD F t1 t2) (X := radifD F t1 t2) rfl (by rw [sub_zero]) (by
      rw [abs_of_nonneg r0']
      linarith) (by
      rw [sub_self, abs_zero]
      positivity) h1 h2 (m := m) (k := k) (by linarith [(abs_le.1 hs).2]) hm1 hk hk0 hk1
  refine ⟨y, hy, ?_⟩
  generalize Spec.angle (dir 0 p1) (dir (radifD F t1 t2 : ℝ) p2) = A' at *
  generalize Spec.angle (dir t1 p1) (dir t2 p2) = A at *
  have hr : 180 / π ≤ 573 / 10 := by
    rw [div_le_iff₀ pi_pos]
    linarith [pi_gt_d4]
  have hr0 : 0 < 180 / π := by positivity
  have e1 : |A' * (180 / π) - A * (180 / π)| ≤ 2292 / 10 ^ 16 := by
    rw [← sub_mul, abs_mul, abs_of_pos hr0]
    have := mul_le_mul hf hr hr0.le (by norm_num)
    linarith
  have e2 := abs_sub_le (y : ℝ) (A' * (180 / π)) (A * (180 / π))
  generalize A' * (180 / π) = D' at *
  generalize A * (180 / π) = D at *
  have e3 : (6 + 23 / 2 * k) / 2 ^ 53 * (D' - D) ≤ (6 + 23 / 2 * k) / 2 ^ 53 * (2292 / 10 ^ 16) :=
    mul_le_mul_of_nonneg_left (abs_le.1 e1).2 (by positivity)
  linarith

/-- **C177**: up to 90 degrees the error is at most 5·10⁻¹³ degrees, for all longitudes. -/
theorem C177_quarter (F : Fl64) (M : Libm) {t1 p1 t2 p2 : ℚ} (ht1 : |t1| ≤ twopiD) (ht2 : |t2| ≤ twopiD) (h1 : |(p1 : ℝ)| ≤ π / 2)
    (h2 : |(p2 : ℝ)| ≤ π / 2) (hA : Spec.angle (dir t1 p1) (dir t2 p2) ≤ π / 2) :
    ∃ y, skysepD F M t1 p1 t2 p2 = some y ∧ |(y : ℝ) - Spec.angle (dir t1 p1) (dir t2 p2) * (180 / π)| ≤ 5 / 10 ^ 13 := by
  have hA0 : 0 ≤ Spec.angle (dir t1 p1) (dir t2 p2) := InnerProductGeometry.angle_nonneg _ _
  have hsin : sin (Spec.angle (dir t1 p1) (dir t2 p2) / 2) ≤ 70711 / 10 ^ 5 := by
    have e1 : sin (Spec.angle (dir t1 p1) (dir t2 p2) / 2) ≤ sin (π / 4) :=
      sin_le_sin_of_le_of_le_pi_div_two (by linarith [pi_pos]) (by linarith [pi_pos]) (by linarith)
    rw [sin_pi_div_four] at e1
    have : √2 ≤ 141422 / 10 ^ 5 := sqrt_le_iff.2 ⟨by norm_num, by norm_num⟩
    linarith
  obtain ⟨y, hy, hn⟩ := skysep_near F M ht1 ht2 h1 h2 (m := 70712 / 10 ^ 5) (k := 14143 / 10 ^ 4) (by linarith) (by norm_num) (by norm_num) (by norm_num)
    (by norm_num)
  have hD : Spec.angle (dir t1 p1) (dir t2 p2) * (180 / π) ≤ 90 := by
    refine (mul_le_mul_of_nonneg_right hA (by positivity)).trans (le_of_eq ?_)
    field_simp
    norm_num
  exact ⟨y, hy, hn.trans (by linarith)⟩

/-- **C177**: up to 179 degrees there is a result and its error is at most 3·10⁻¹¹ degrees. -/
theorem C177_far (F : Fl64) (M : Libm) {t1 p1 t2 p2 : ℚ} (ht1 : |t1| ≤ twopiD) (ht2 : |t2| ≤ twopiD) (h1 : |(p1 : ℝ)| ≤ π / 2)
    (h2 : |(p2 : ℝ)| ≤ π / 2) (hA : Spec.angle (dir t1 p1) (dir t2 p2) ≤ 179 / 180 * π) :
    ∃ y, skysepD F M t1 p1 t2 p2 = some y ∧ |(y : ℝ) - Spec.angle (dir t1 p1) (dir t2 p2) * (180 / π)| ≤ 3 / 10 ^ 11 := by
  have hA0 : 0 ≤ Spec.angle (dir t1 p1) (dir t2 p2) := InnerProductGeometry.angle_nonneg _ _
  have hp1 := pi_gt_d6
  have hp2 := pi_lt_d6
  have hsin : sin (Spec.angle (dir t1 p1) (dir t2 p2) / 2) ≤ 999961925 / 10 ^ 9 := by
    have e1 : sin (Spec.angle (dir t1 p1) (dir t2 p2) / 2) ≤ sin (π / 2 - π / 360) :=
      sin_le_sin_of_le_of_le_pi_div_two (by linarith [pi_pos]) (by linarith [pi_pos]) (by linarith)
    rw [sin_pi_div_two_sub] at e1
    have e2 := cos_bound (x := π / 360) (by rw [abs_of_pos (by positivity)]; linarith)
    rw [abs_of_pos (by positivity : 0 < π / 360)] at e2
    have e3 : (87266 / 10 ^ 7) ^ 2 ≤ (π / 360) ^ 2 := pow_le_pow_left₀ (by norm_num) (by linarith) 2
    have e4 : (π / 360) ^ 4 ≤ (87267 / 10 ^ 7) ^ 4 := pow_le_pow_left₀ (by positivity) (by linarith) 4
    linarith [(abs_le.1 e2).2]
  obtain ⟨y, hy, hn⟩ := skysep_near F M ht1 ht2 h1 h2 (m := 99996193 / 10 ^ 8) (k := 1147 / 10) (by linarith) (by norm_num) (by norm_num) (by norm_num)
    (by norm_num)
  have hD : Spec.angle (dir t1 p1) (dir t2 p2) * (180 / π) ≤ 179 := by
    refine (mul_le_mul_of_nonneg_right hA (by positivity)).trans (le_of_eq ?_)
    field_simp
  exact ⟨y, hy, hn.trans (by linarith)⟩

/-! ### Examples -/

/-- A rational number just above a real number. -/
noncomputable def upper (v : ℝ) : ℚ := (exists_rat_btwn (show v < v + 1 / 2 ^ 200 by norm_num)).choose

theorem upper_near (v : ℝ) : v < upper v ∧ (upper v : ℝ) < v + 1 / 2 ^ 200 :=
  (exists_rat_btwn (show v < v + 1 / 2 ^ 200 by norm_num)).choose_spec

theorem upper_err (v : ℝ) {a : ℝ} (ha : 0 ≤ a) : |(upper v : ℝ) - v| ≤ a + 1 / 2 ^ 200 := by
  obtain ⟨h1, h2⟩ := upper_near v
  rw [abs_le]
  constructor <;> linarith [show (0 : ℝ) < 1 / 2 ^ 200 by norm_num]

/-- There are such libraries. -/
noncomputable def libm : Libm where
  sin x := upper (sin x)
  cos x := upper (cos x)
  asin x := upper (arcsin x)
  sqrt x := upper √x
  sin_err x := upper_err _ (by positivity)
  cos_err x := upper_err _ (by positivity)
  cos_sign x h := by exact_mod_cast h.trans (upper_near (cos x)).1.le
  asin_err x _ := upper_err _ (by positivity)
  sqrt_err x _ := upper_err _ (by positivity)
  sqrt_sign x _ := by exact_mod_cast (sqrt_nonneg (x : ℝ)).trans (upper_near √x).1.le

/-- Two points on the equator on either side of the origin of longitudes, given with a negative longitude, are a quarter of a radian apart. -/
example : ∃ y, skysepD Fl64.ieee libm (-1 / 8) 0 (1 / 8) 0 = some y ∧ |(y : ℝ) - 1 / 4 * (180 / π)| ≤ 5 / 10 ^ 13 := by
  have hp := pi_gt_d2
  have e : Spec.angle (dir ((-1 / 8 : ℚ) : ℝ) ((0 : ℚ) : ℝ)) (dir ((1 / 8 : ℚ) : ℝ) ((0 : ℚ) : ℝ)) = 1 / 4 := by
    rw [angle_dir, dot_dir]
    push_cast
    rw [sub_self, cos_zero, show (1 / 8 : ℝ) - -1 / 8 = 1 / 4 by norm_num, show (1 : ℝ) - 1 * 1 * (1 - cos (1 / 4)) = cos (1 / 4) by ring,
      arccos_cos (by norm_num) (by linarith)]
  have := C177_quarter Fl64.ieee libm (t1 := -1 / 8) (p1 := 0) (t2 := 1 / 8) (p2 := 0) (by norm_num [twopiD]) (by norm_num [twopiD])
    (by push_cast; rw [abs_zero]; positivity) (by push_cast; rw [abs_zero]; positivity) (by rw [e]; linarith)
  rwa [e] at this

/-- Two directions a billionth of a radian apart. -/
example : ∃ y, skysepD Fl64.ieee libm 1 0 (1 + 1 / 10 ^ 9) 0 = some y ∧ |(y : ℝ) - 1 / 10 ^ 9 * (180 / π)| ≤ 2 / 10 ^ 20 := by
  have hp := pi_gt_d2
  have e : Spec.angle (dir ((1 : ℚ) : ℝ) ((0 : ℚ) : ℝ)) (dir ((1 + 1 / 10 ^ 9 : ℚ) : ℝ) ((0 : ℚ) : ℝ)) = 1 / 10 ^ 9 := by
    rw [angle_dir, dot_dir]
    push_cast
    rw [sub_self, cos_zero, add_sub_cancel_left, show (1 : ℝ) - 1 * 1 * (1 - cos (1 / 10 ^ 9)) = cos (1 / 10 ^ 9) by ring,
      arccos_cos (by norm_num) (by linarith)]
  obtain ⟨y, hy, hn⟩ := C177_relative Fl64.ieee libm (t1 := 1) (p1 := 0) (t2 := 1 + 1 / 10 ^ 9) (p2 := 0) (by norm_num) (by norm_num)
    (by norm_num [piD]) (by push_cast; rw [abs_zero]; positivity) (by push_cast; rw [abs_zero]; positivity) (by rw [e]; linarith)
  rw [e] at hn
  refine ⟨y, hy, hn.trans ?_⟩
  have hr : 180 / π ≤ 58 := by
    rw [div_le_iff₀ pi_pos]
    linarith
  linarith

end SatSky.Props
