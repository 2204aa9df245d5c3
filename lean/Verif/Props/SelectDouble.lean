import Mathlib.Analysis.SpecialFunctions.Pow.Real
import Mathlib.Analysis.SpecialFunctions.Log.Deriv
import Mathlib.Analysis.Complex.ExponentialBounds
import Verif.Model.SelectDouble
import Verif.Props.SelectModel
import Verif.Props.PrecDouble
import Verif.Props.ObserverDouble

/-! C201: the choice of the propagator in `double` arithmetic. -/

namespace SatSky.Props

open SatSky.Spec SatSky.Sxp SatSky.Geo SatSky.Relative

/-! ### Relative errors -/

/-- `x` is `X > 0` with the relative error `a`. -/
def Rel (a x X : ℝ) : Prop := |x - X| ≤ a * X

theorem Rel.mono {a b x X : ℝ} (h : Rel a x X) (hX : 0 < X) (hab : a ≤ b) : Rel b x X :=
  le_trans h (mul_le_mul_of_nonneg_right hab hX.le)

theorem Rel.pos {a x X : ℝ} (h : Rel a x X) (hX : 0 < X) (ha : a < 1) : 0 < x := by
  have h1 := (abs_le.1 h).1
  nlinarith

theorem Rel.mul {a b c x X y Y : ℝ} (hx : Rel a x X) (hy : Rel b y Y) (hX : 0 < X) (hY : 0 < Y) (ha : 0 ≤ a) (hc : a + b + a * b ≤ c) :
    Rel c (x * y) (X * Y) := by
  unfold Rel at *
  rw [show x * y - X * Y = (x - X) * Y + X * (y - Y) + (x - X) * (y - Y) by ring]
  have h1 : |(x - X) * Y| ≤ a * X * Y := by rw [abs_mul, abs_of_pos hY]; exact mul_le_mul_of_nonneg_right hx hY.le
  have h2 : |X * (y - Y)| ≤ X * (b * Y) := by rw [abs_mul, abs_of_pos hX]; exact mul_le_mul_of_nonneg_left hy hX.le
  have h3 : |(x - X) * (y - Y)| ≤ a * X * (b * Y) := by
    rw [abs_mul]; exact mul_le_mul hx hy (abs_nonneg _) (mul_nonneg ha hX.le)
  refine (abs_add_three _ _ _).trans ?_
  have := mul_le_mul_of_nonneg_right hc (mul_pos hX hY).le
  nlinarith

theorem Rel.div {a b c x X y Y : ℝ} (hx : Rel a x X) (hy : Rel b y Y) (hX : 0 < X) (hY : 0 < Y) (hb1 : b < 1)
    (hc0 : 0 ≤ c) (hc : a + b ≤ c * (1 - b)) : Rel c (x / y) (X / Y) := by
  have y0 := hy.pos hY hb1
  have yl : (1 - b) * Y ≤ y := by have := (abs_le.1 hy).1; linarith
  unfold Rel at *
  rw [show x / y - X / Y = ((x - X) * Y - X * (y - Y)) / (y * Y) by field_simp; ring, abs_div, abs_of_pos (mul_pos y0 hY),
    div_le_iff₀ (mul_pos y0 hY)]
  have h1 : |(x - X) * Y| ≤ a * X * Y := by rw [abs_mul, abs_of_pos hY]; exact mul_le_mul_of_nonneg_right hx hY.le
  have h2 : |X * (y - Y)| ≤ X * (b * Y) := by rw [abs_mul, abs_of_pos hX]; exact mul_le_mul_of_nonneg_left hy hX.le
  have h3 := abs_sub ((x - X) * Y) (X * (y - Y))
  have h4 : c * (X / Y) * (y * Y) = c * X * y := by field_simp
  rw [h4]
  have h5 : c * X * ((1 - b) * Y) ≤ c * X * y := mul_le_mul_of_nonneg_left yl (mul_nonneg hc0 hX.le)
  have h6 := mul_le_mul_of_nonneg_right hc (mul_pos hX hY).le
  nlinarith

theorem Rel.rnd {a c X : ℝ} {z : ℚ} (F : Fl64) (h : Rel a z X) (hX : 1 / 2 ^ 100 ≤ X) (hc : a + (1 + a) / 2 ^ 53 + 1 / 2 ^ 100 ≤ c) :
    Rel c (F.rnd z) X := by
  unfold Rel at *
  have hX0 : 0 < X := lt_of_lt_of_le (by positivity) hX
  have h1 := err_real F z
  have h2 : |(z : ℝ)| ≤ X + a * X := by
    have := abs_sub_abs_le_abs_sub (z : ℝ) X
    rw [abs_of_pos hX0] at this
    linarith
  have h3 := abs_sub_le (F.rnd z : ℝ) z X
  have h4 := mul_le_mul_of_nonneg_right hc hX0.le
  have h5 : (1 : ℝ) / 2 ^ 200 ≤ 1 / 2 ^ 100 * X := by
    calc (1 : ℝ) / 2 ^ 200 = 1 / 2 ^ 100 * (1 / 2 ^ 100) := by norm_num
      _ ≤ 1 / 2 ^ 100 * X := mul_le_mul_of_nonneg_left hX (by positivity)
  nlinarith

theorem Rel.refl (X : ℝ) : Rel 0 X X := by simp [Rel]

/-! ### The semimajor axis of the given mean motion -/

theorem rpow_near_base {t y e : ℝ} (he : |t - 1| ≤ e) (he1 : e < 1) (y0 : 0 ≤ y) (y1 : y ≤ 1) : |t ^ y - 1| ≤ e := by
  obtain ⟨a, b⟩ := abs_le.1 he
  have t0 : 0 < t := by linarith
  rw [abs_le]
  rcases le_or_gt 1 t with h | h
  · have h1 := Real.one_le_rpow h y0
    have h2 := Real.rpow_le_rpow_of_exponent_le h y1
    rw [Real.rpow_one] at h2
    constructor <;> linarith
  · have h1 := Real.rpow_le_one t0.le h.le y0
    have h2 := Real.rpow_le_rpow_of_exponent_ge t0 h.le y1
    rw [Real.rpow_one] at h2
    constructor <;> linarith

theorem rpow_near_exp {X d : ℝ} (hX : 1 ≤ X) (hX1 : X ≤ 2 ^ 15) (hd : |d| ≤ 7 / 10 / 2 ^ 53) : |X ^ d - 1| ≤ 15 / 2 ^ 53 := by
  have l0 := Real.log_nonneg hX
  have l1 : Real.log X ≤ 104 / 10 := by
    have h := Real.log_le_log (by linarith) hX1
    rw [Real.log_pow] at h
    have := Real.log_two_lt_d9
    push_cast at h
    linarith
  rw [Real.rpow_def_of_pos (by linarith)]
  have h1 : |Real.log X * d| ≤ 104 / 10 * (7 / 10 / 2 ^ 53) := by
    rw [abs_mul, abs_of_nonneg l0]
    exact mul_le_mul l1 hd (abs_nonneg _) (by norm_num)
  have h2 := Real.abs_exp_sub_one_le (x := Real.log X * d) (h1.trans (by norm_num))
  refine h2.trans ?_
  norm_num at h1 ⊢
  linarith

theorem a1D_near (F : Fl64) (M : PowLib) {e : ElemD} (hx0 : 3 / 10 ^ 6 ≤ e.xno) (hx1 : (e.xno : ℝ) ≤ xke) : Rel (22 / 10 ^ 16) (a1D F M e) (a1 e.elem) := by
  have hx : (0 : ℝ) < e.xno := by exact_mod_cast lt_of_lt_of_le (by norm_num) hx0
  have hx0' : (3 / 10 ^ 6 : ℝ) ≤ e.xno := by
    have := (Rat.cast_le (K := ℝ)).2 hx0
    push_cast at this
    exact this
  have hk : (0 : ℝ) < xke := by unfold xke; norm_num
  have X1 : 1 ≤ xke / e.xno := by rw [le_div_iff₀ hx]; linarith
  have X2 : xke / e.xno ≤ 2 ^ 15 := by
    rw [div_le_iff₀ hx]
    unfold xke
    norm_num at hx0' ⊢
    linarith
  have c0 : Rel (113 / 10 ^ 18) (F.rnd (743669161331734132 / 10 ^ 19)) xke := by
    refine Rel.rnd F (a := 0) ?_ (by unfold xke; norm_num) (by norm_num)
    unfold Rel xke
    push_cast
    norm_num
  have c1 : Rel (227 / 10 ^ 18) (F.rnd (F.rnd (743669161331734132 / 10 ^ 19) / e.xno)) (xke / e.xno) := by
    refine Rel.rnd F (a := 114 / 10 ^ 18) ?_ (le_trans (by norm_num) X1) (by norm_num)
    push_cast
    exact Rel.div c0 (Rel.refl _) hk hx (by norm_num) (by norm_num) (by norm_num)
  have cy := const_real F (2 / 3) (E := 7 / 10 / 2 ^ 53) (by push_cast; rw [abs_of_pos (by norm_num)]; norm_num)
  push_cast at cy
  unfold a1D a1
  show Rel _ _ ((xke / (e.xno : ℝ)) ^ (2 / 3 : ℝ))
  generalize F.rnd (F.rnd (743669161331734132 / 10 ^ 19) / e.xno) = q at *
  generalize F.rnd (2 / 3) = y at *
  generalize xke / (e.xno : ℝ) = X at *
  have X0 : 0 < X := by linarith
  have q0 : (0 : ℝ) < q := c1.pos X0 (by norm_num)
  have hp := M.pow_err q y (by exact_mod_cast q0)
  have e1 : (q : ℝ) ^ (y : ℝ) = X ^ (2 / 3 : ℝ) * ((q / X) ^ (y : ℝ) * X ^ ((y : ℝ) - 2 / 3)) := by
    rw [Real.div_rpow q0.le X0.le, Real.rpow_sub X0]
    have := (Real.rpow_pos_of_pos X0 (2 / 3 : ℝ)).ne'
    have := (Real.rpow_pos_of_pos X0 (y : ℝ)).ne'
    field_simp
  have t1 : |(q : ℝ) / X - 1| ≤ 227 / 10 ^ 18 := by
    rw [show (q : ℝ) / X - 1 = (q - X) / X by field_simp, abs_div, abs_of_pos X0, div_le_iff₀ X0]
    exact c1
  obtain ⟨y0, y1⟩ := abs_le.1 cy
  have t2 := rpow_near_base t1 (by norm_num) (y := y) (by norm_num at y0; linarith) (by norm_num at y1; linarith)
  have t3 := rpow_near_exp X1 X2 cy
  have hA : 1 ≤ X ^ (2 / 3 : ℝ) := Real.one_le_rpow X1 (by norm_num)
  generalize (q / X : ℝ) ^ (y : ℝ) = u at *
  generalize X ^ ((y : ℝ) - 2 / 3) = v at *
  generalize X ^ (2 / 3 : ℝ) = A at *
  rw [e1] at hp
  have r1 : Rel (19 / 10 ^ 16) (u * v) (1 * 1) :=
    Rel.mul (a := 227 / 10 ^ 18) (b := 15 / 2 ^ 53) (by unfold Rel; rwa [mul_one]) (by unfold Rel; rwa [mul_one]) one_pos one_pos (by norm_num) (by norm_num)
  have r2 : Rel (19 / 10 ^ 16) (A * (u * v)) (A * (1 * 1)) :=
    Rel.mul (a := 0) (Rel.refl A) r1 (by linarith) (by norm_num) le_rfl (by norm_num)
  rw [one_mul, mul_one] at r2
  generalize A * (u * v) = w at *
  unfold Rel at *
  generalize (M.pow q y : ℝ) = p at *
  obtain ⟨r3, r4⟩ := abs_le.1 r2
  have := abs_sub_le p w A
  have h5 : 2 / 2 ^ 53 * w + 1 / 2 ^ 200 ≤ 23 / 10 ^ 17 * A := by
    norm_num at r4 ⊢
    linarith
  linarith

/-! ### The two corrections -/

/-- A quotient whose numerator may vanish. -/
theorem quot_near {t s D N S τ σ E : ℝ} (hD : 0 < D) (hS : 0 < S) (hDS : 99 / 100 ≤ D * S) (ht : |t * D - N| ≤ τ) (hs : Rel σ s S)
    (hσ : σ ≤ 1 / 1000) (hσ0 : 0 ≤ σ) (hN : |N| ≤ 1 / 600) (hE : τ + σ / 600 ≤ E * (98 / 100)) : |t / s - N / (D * S)| ≤ E := by
  have s0 := hs.pos hS (by linarith)
  have sl : (1 - σ) * S ≤ s := by have := (abs_le.1 hs).1; linarith
  have sd : 98 / 100 ≤ s * D := by
    have h1 : (1 - σ) * S * D ≤ s * D := mul_le_mul_of_nonneg_right sl hD.le
    have h2 : 999 / 1000 * (99 / 100) ≤ (1 - σ) * (D * S) := mul_le_mul (by linarith) hDS (by norm_num) (by linarith)
    nlinarith
  have τ0 := (abs_nonneg _).trans ht
  have E0 : 0 ≤ E := by linarith [div_nonneg hσ0 (by norm_num : (0 : ℝ) ≤ 600)]
  rw [show t / s - N / (D * S) = ((t * D - N) * S + N * (S - s)) / (s * D * S) by field_simp; ring, abs_div,
    abs_of_pos (show 0 < s * D * S by positivity), div_le_iff₀ (by positivity)]
  have h1 : |(t * D - N) * S| ≤ τ * S := by rw [abs_mul, abs_of_pos hS]; exact mul_le_mul_of_nonneg_right ht hS.le
  have h2 : |N * (S - s)| ≤ 1 / 600 * (σ * S) := by
    rw [abs_mul, abs_sub_comm S s]
    exact mul_le_mul hN hs (abs_nonneg _) (by norm_num)
  have h3 := abs_add_le ((t * D - N) * S) (N * (S - s))
  have h4 : E * (98 / 100) * S ≤ E * (s * D) * S := mul_le_mul_of_nonneg_right (mul_le_mul_of_nonneg_left sd E0) hS.le
  have h5 := mul_le_mul_of_nonneg_right hE hS.le
  nlinarith

/-- `common.c` 44: the numerator. -/
noncomputable def tnum (e : Elem) : ℝ := 3 / 2 * ck2 * (3 * (Real.cos e.xincl * Real.cos e.xincl) - 1)

theorem tnumD_near (F : Fl64) (M : PowLib) (e : ElemD) : |(tnumD F M e : ℝ) - tnum e.elem| ≤ 3 / 10 ^ 18 ∧ |tnum e.elem| ≤ 163 / 10 ^ 5 := by
  have hc := Real.abs_cos_le_one (e.xincl : ℝ)
  have l1 : |(M.cos e.xincl : ℝ) - Real.cos e.xincl| ≤ 0 + 23 / 10 ^ 17 := cos_lib M.toLibm (by rw [sub_self, abs_zero])
  unfold tnumD tnum
  dsimp only
  show |_ - 3 / 2 * ck2 * (3 * (Real.cos (e.xincl : ℝ) * Real.cos (e.xincl : ℝ)) - 1)| ≤ _ ∧
    |3 / 2 * ck2 * (3 * (Real.cos (e.xincl : ℝ) * Real.cos (e.xincl : ℝ)) - 1)| ≤ _
  generalize M.cos e.xincl = c at *
  generalize Real.cos (e.xincl : ℝ) = C at *
  have hCC : |C * C| ≤ 1 := by rw [abs_mul]; exact mul_le_one₀ hc (abs_nonneg _) hc
  have hCC0 : 0 ≤ C * C := mul_self_nonneg C
  rw [abs_of_nonneg hCC0] at hCC
  have l2 : |((F.rnd (c * c) : ℚ) : ℝ) - C * C| ≤ 58 / 10 ^ 17 := by
    refine rnd_real F (e := 4601 / 10 ^ 19) (A := 1) ?_ (by rwa [abs_of_nonneg hCC0]) (by norm_num)
    push_cast
    exact (prod_real l1 l1 hc hc).trans (by norm_num)
  have l3 : |((F.rnd (3 * F.rnd (c * c)) : ℚ) : ℝ) - 3 * (C * C)| ≤ 208 / 10 ^ 17 := by
    refine rnd_real F (e := 174 / 10 ^ 17) (A := 3) ?_ (by rw [abs_of_nonneg (by linarith)]; linarith) (by norm_num)
    push_cast
    rw [← mul_sub, abs_mul, abs_of_pos (by norm_num : (0 : ℝ) < 3)]
    linarith
  have b4 : |3 * (C * C) - 1| ≤ 2 := by rw [abs_le]; constructor <;> linarith
  have l4 : |((F.rnd (F.rnd (3 * F.rnd (c * c)) - 1) : ℚ) : ℝ) - (3 * (C * C) - 1)| ≤ 231 / 10 ^ 17 := by
    refine rnd_real F (e := 208 / 10 ^ 17) (A := 2) ?_ b4 (by norm_num)
    push_cast
    rw [sub_sub_sub_cancel_right]
    exact l3
  have k1 := const_real F (1082616 / 10 ^ 9) (E := 121 / 10 ^ 21) (by push_cast; rw [abs_of_pos (by norm_num)]; norm_num)
  push_cast at k1
  have k2 : |((F.rnd (1 / 2 * F.rnd (1082616 / 10 ^ 9)) : ℚ) : ℝ) - ck2| ≤ 123 / 10 ^ 21 := by
    refine rnd_real F (e := 61 / 10 ^ 21) (A := 55 / 10 ^ 5) ?_ (by unfold ck2 xj2; norm_num [abs_le]) (by norm_num)
    push_cast
    unfold ck2 xj2
    rw [← mul_sub, abs_mul, abs_of_pos (by norm_num : (0 : ℝ) < 1 / 2)]
    linarith
  have b3 : |3 / 2 * ck2| ≤ 815 / 10 ^ 6 := by unfold ck2 xj2; norm_num [abs_le]
  have k3 : |((F.rnd (3 / 2 * F.rnd (1 / 2 * F.rnd (1082616 / 10 ^ 9))) : ℚ) : ℝ) - 3 / 2 * ck2| ≤ 280 / 10 ^ 21 := by
    refine rnd_real F (e := 185 / 10 ^ 21) (A := 815 / 10 ^ 6) ?_ b3 (by norm_num)
    push_cast
    rw [← mul_sub, abs_mul, abs_of_pos (by norm_num : (0 : ℝ) < 3 / 2)]
    linarith
  have b5 : |3 / 2 * ck2 * (3 * (C * C) - 1)| ≤ 163 / 10 ^ 5 := by
    rw [abs_mul]
    exact (mul_le_mul b3 b4 (abs_nonneg _) (by norm_num)).trans (by norm_num)
  refine ⟨rnd_real F (e := 245 / 10 ^ 20) (A := 163 / 10 ^ 5) ?_ b5 (by norm_num), b5⟩
  push_cast
  exact (mul_real k3 l4 b3 b4).trans (by norm_num)

theorem denD_near (F : Fl64) (M : PowLib) {e : ElemD} (h0 : 0 ≤ e.eo) (h1 : e.eo ≤ 97 / 100) :
    Rel (67 / 10 ^ 16) ((F.rnd (M.sqrt (betao2D F e) * betao2D F e) : ℚ) : ℝ) (√(1 - (e.eo : ℝ) * e.eo) * (1 - (e.eo : ℝ) * e.eo)) ∧
      1 / 100 ≤ √(1 - (e.eo : ℝ) * e.eo) * (1 - (e.eo : ℝ) * e.eo) := by
  have h0' : (0 : ℝ) ≤ e.eo := by exact_mod_cast h0
  have h1' : (e.eo : ℝ) ≤ 97 / 100 := by
    have := (Rat.cast_le (K := ℝ)).2 h1
    push_cast at this
    exact this
  have q0 : 0 ≤ (e.eo : ℝ) * e.eo := mul_self_nonneg _
  have q1 : (e.eo : ℝ) * e.eo ≤ 9409 / 10000 := by nlinarith
  have m1 : |((F.rnd (e.eo * e.eo) : ℚ) : ℝ) - e.eo * e.eo| ≤ 112 / 10 ^ 18 :=
    rnd_real F (e := 0) (A := 1) (by push_cast; rw [sub_self, abs_zero]) (by rw [abs_of_nonneg q0]; linarith) (by norm_num)
  have m2 : |((betao2D F e : ℚ) : ℝ) - (1 - e.eo * e.eo)| ≤ 224 / 10 ^ 18 := by
    unfold betao2D
    refine rnd_real F (e := 112 / 10 ^ 18) (A := 1) ?_ (by rw [abs_of_nonneg (by linarith)]; linarith) (by norm_num)
    push_cast
    rw [sub_sub_sub_cancel_left, abs_sub_comm]
    exact m1
  generalize betao2D F e = b at *
  have hB : 591 / 10000 ≤ 1 - (e.eo : ℝ) * e.eo := by linarith
  have hB1 : 1 - (e.eo : ℝ) * e.eo ≤ 1 := by linarith
  generalize 1 - (e.eo : ℝ) * e.eo = B at *
  have r1 : Rel (39 / 10 ^ 16) b B := by unfold Rel; linarith
  have b0 : (0 : ℝ) < b := r1.pos (by linarith) (by norm_num)
  have s1 : Approx (20 / 10 ^ 16) 0 √(b : ℝ) √B :=
    rel_sqrt (a := 39 / 10 ^ 16) (α := 0) (by unfold Approx; rw [add_zero]; exact r1) (by linarith) (by norm_num) (by norm_num) le_rfl (by norm_num) (by norm_num)
      (by norm_num) le_rfl (by norm_num)
  have hq : 24 / 100 ≤ √B := Real.le_sqrt_of_sq_le (by norm_num; linarith)
  have s2 := M.sqrt_err b (by exact_mod_cast b0.le)
  have s3 : Rel (22 / 10 ^ 16) (M.sqrt b) √B := by
    unfold Approx at s1
    unfold Rel
    rw [add_zero] at s1
    have h4 := (abs_le.1 s1).2
    have := abs_sub_le (M.sqrt b : ℝ) √(b : ℝ) √B
    have h5 : (1 : ℝ) / 2 ^ 53 * √(b : ℝ) + 1 / 2 ^ 200 ≤ 2 / 10 ^ 16 * √B := by
      norm_num at h4 ⊢
      linarith
    linarith
  refine ⟨Rel.rnd F (a := 62 / 10 ^ 16) ?_ ?_ (by norm_num), by nlinarith⟩
  · push_cast
    exact Rel.mul s3 r1 (by linarith) (by linarith) (by norm_num) (by norm_num)
  · have : 24 / 100 * (591 / 10000) ≤ √B * B := mul_le_mul hq hB (by norm_num) (by linarith)
    refine le_trans ?_ this
    norm_num

/-- The quotient of line 44, by the denominator. -/
theorem tvalD_near (F : Fl64) (M : PowLib) {e : ElemD} (h0 : 0 ≤ e.eo) (h1 : e.eo ≤ 97 / 100) :
    |(tvalD F M e : ℝ) * (√(1 - (e.eo : ℝ) * e.eo) * (1 - (e.eo : ℝ) * e.eo)) - tnum e.elem| ≤ 16 / 10 ^ 18 := by
  obtain ⟨n1, n2⟩ := tnumD_near F M e
  obtain ⟨d1, d2⟩ := denD_near F M h0 h1
  have h0' : (0 : ℝ) ≤ e.eo := by exact_mod_cast h0
  have hD1 : √(1 - (e.eo : ℝ) * e.eo) * (1 - (e.eo : ℝ) * e.eo) ≤ 1 := by
    have hB1 : 1 - (e.eo : ℝ) * e.eo ≤ 1 := by nlinarith
    have hs := Real.sqrt_le_sqrt hB1
    rw [Real.sqrt_one] at hs
    have := Real.sqrt_nonneg (1 - (e.eo : ℝ) * e.eo)
    nlinarith
  unfold tvalD
  generalize tnumD F M e = n at *
  generalize tnum e.elem = N at *
  generalize F.rnd (M.sqrt (betao2D F e) * betao2D F e) = d at *
  generalize √(1 - (e.eo : ℝ) * e.eo) * (1 - (e.eo : ℝ) * e.eo) = D at *
  have D0 : 0 < D := by linarith
  have d0 : (0 : ℝ) < d := d1.pos D0 (by norm_num)
  have t1 : |D / d - 1| ≤ 68 / 10 ^ 16 := by
    rw [show D / (d : ℝ) - 1 = (D - d) / d by field_simp, abs_div, abs_of_pos d0, div_le_iff₀ d0, abs_sub_comm]
    have := (abs_le.1 d1).1
    unfold Rel at d1
    norm_num at d1 this ⊢
    linarith
  have t2 : |(n : ℝ) * (D / d) - N * 1| ≤ 1412 / 10 ^ 20 := (mul_real n1 t1 n2 (B := 1) (by rw [abs_one])).trans (by norm_num)
  have nb : |(n : ℝ)| ≤ 164 / 10 ^ 5 := by
    have := abs_sub_abs_le_abs_sub (n : ℝ) N
    norm_num at n1 n2 this ⊢
    linarith
  have e1 := err_real F (n / d)
  have t3 : |(F.rnd (n / d) : ℝ) * D - n * (D / d)| ≤ 2 / 10 ^ 19 := by
    rw [show (F.rnd (n / d) : ℝ) * D - n * (D / d) = ((F.rnd (n / d) : ℝ) - (n / d : ℚ)) * D by push_cast; ring, abs_mul, abs_of_pos D0]
    have h2 : |((n / d : ℚ) : ℝ)| * D ≤ 164 / 10 ^ 5 * (101 / 100) := by
      push_cast
      rw [abs_div, abs_of_pos d0, div_mul_eq_mul_div, mul_div_assoc]
      refine mul_le_mul nb ?_ (by positivity) (by norm_num)
      have := (abs_le.1 t1).2
      norm_num at this ⊢
      linarith
    have h3 := mul_le_mul_of_nonneg_right e1 D0.le
    norm_num at h2 h3 ⊢
    linarith
  have := abs_sub_le ((F.rnd (n / d) : ℝ) * D) (n * (D / d)) N
  rw [mul_one] at t2
  norm_num at t2 t3 ⊢
  linarith

theorem shrinkD_near (F : Fl64) {d : ℚ} {D : ℝ} (h : |(d : ℝ) - D| ≤ 33 / 10 ^ 18) (hD : |D| ≤ 163 / 10 ^ 5) :
    |(shrinkD F d : ℝ) - (1 - D * (1 / 3 + D * (1 + 134 / 81 * D)))| ≤ 14 / 10 ^ 17 ∧
      |D * (1 / 3 + D * (1 + 134 / 81 * D))| ≤ 6 / 10 ^ 4 := by
  have k1 := const_real F (134 / 81) (E := 19 / 10 ^ 17) (by push_cast; rw [abs_of_pos (by norm_num)]; norm_num)
  push_cast at k1
  have b1 : |134 / 81 * D| ≤ 27 / 10 ^ 4 := by rw [abs_mul, abs_of_pos (by norm_num : (0 : ℝ) < 134 / 81)]; linarith
  have w1 : |((F.rnd (F.rnd (134 / 81) * d) : ℚ) : ℝ) - 134 / 81 * D| ≤ 6 / 10 ^ 17 := by
    refine rnd_real F (e := 56 / 10 ^ 18) (A := 27 / 10 ^ 4) ?_ b1 (by norm_num)
    push_cast
    exact (mul_real k1 h (A := 134 / 81) (by rw [abs_of_pos (by norm_num)]) hD).trans (by norm_num)
  have b2 : |1 + 134 / 81 * D| ≤ 101 / 100 := by
    obtain ⟨a, b⟩ := abs_le.1 b1
    rw [abs_le]; constructor <;> linarith
  have w2 : |((F.rnd (1 + F.rnd (F.rnd (134 / 81) * d)) : ℚ) : ℝ) - (1 + 134 / 81 * D)| ≤ 18 / 10 ^ 17 := by
    refine rnd_real F (e := 6 / 10 ^ 17) (A := 101 / 100) ?_ b2 (by norm_num)
    push_cast
    rwa [add_sub_add_left_eq_sub]
  have b3 : |D * (1 + 134 / 81 * D)| ≤ 165 / 10 ^ 5 := by
    rw [abs_mul]; exact (mul_le_mul hD b2 (abs_nonneg _) (by norm_num)).trans (by norm_num)
  have w3 : |((F.rnd (d * F.rnd (1 + F.rnd (F.rnd (134 / 81) * d))) : ℚ) : ℝ) - D * (1 + 134 / 81 * D)| ≤ 35 / 10 ^ 18 := by
    refine rnd_real F (e := 34 / 10 ^ 18) (A := 165 / 10 ^ 5) ?_ b3 (by norm_num)
    push_cast
    exact (mul_real h w2 hD b2).trans (by norm_num)
  have k2 := const_real F (1 / 3) (E := 38 / 10 ^ 18) (by push_cast; rw [abs_of_pos (by norm_num)]; norm_num)
  push_cast at k2
  have b4 : |1 / 3 + D * (1 + 134 / 81 * D)| ≤ 34 / 100 := by
    obtain ⟨a, b⟩ := abs_le.1 b3
    rw [abs_le]; constructor <;> linarith
  have w4 : |((F.rnd (F.rnd (1 / 3) + F.rnd (d * F.rnd (1 + F.rnd (F.rnd (134 / 81) * d)))) : ℚ) : ℝ) - (1 / 3 + D * (1 + 134 / 81 * D))| ≤ 12 / 10 ^ 17 := by
    refine rnd_real F (e := 73 / 10 ^ 18) (A := 34 / 100) ?_ b4 (by norm_num)
    push_cast
    rw [add_sub_add_comm]
    refine (abs_add_le _ _).trans ?_
    norm_num at k2 w3 ⊢
    linarith
  have b5 : |D * (1 / 3 + D * (1 + 134 / 81 * D))| ≤ 6 / 10 ^ 4 := by
    rw [abs_mul]; exact (mul_le_mul hD b4 (abs_nonneg _) (by norm_num)).trans (by norm_num)
  have w5 : |((F.rnd (d * F.rnd (F.rnd (1 / 3) + F.rnd (d * F.rnd (1 + F.rnd (F.rnd (134 / 81) * d))))) : ℚ) : ℝ)
      - D * (1 / 3 + D * (1 + 134 / 81 * D))| ≤ 13 / 10 ^ 18 := by
    refine rnd_real F (e := 12 / 10 ^ 18) (A := 6 / 10 ^ 4) ?_ b5 (by norm_num)
    push_cast
    exact (mul_real h w4 hD b4).trans (by norm_num)
  refine ⟨?_, b5⟩
  unfold shrinkD
  refine rnd_real F (e := 13 / 10 ^ 18) (A := 1001 / 1000) ?_ ?_ (by norm_num)
  · push_cast
    rw [sub_sub_sub_cancel_left, abs_sub_comm]
    exact w5
  · obtain ⟨a, b⟩ := abs_le.1 b5
    rw [abs_le]; constructor <;> linarith

/-! ### The recovered elements and the choice -/

/-- Orbits above the Earth: at most 1400 days, eccentricity at most 0.97, semilatus rectum at least one Earth radius. -/
structure Orbit (e : ElemD) : Prop where
  slow : 3 / 10 ^ 6 ≤ e.xno
  ecc0 : 0 ≤ e.eo
  ecc1 : e.eo ≤ 97 / 100
  high : 1 ≤ a1 e.elem * (1 - (e.eo : ℝ) ^ 2)

theorem Orbit.real {e : ElemD} (h : Orbit e) : InDomain e.elem ∧ (e.xno : ℝ) ≤ xke ∧ 1 ≤ a1 e.elem := by
  have hx : (0 : ℝ) < e.xno := by exact_mod_cast lt_of_lt_of_le (by norm_num) h.slow
  have h0 : (0 : ℝ) ≤ e.eo := by exact_mod_cast h.ecc0
  have h1 : (e.eo : ℝ) < 1 := by exact_mod_cast lt_of_le_of_lt h.ecc1 (by norm_num)
  have ha : 0 < a1 e.elem := a1_pos hx
  have hA : 1 ≤ a1 e.elem := by
    have := h.high
    nlinarith [sq_nonneg (e.eo : ℝ)]
  refine ⟨⟨hx, h0, h1⟩, ?_, hA⟩
  by_contra hc
  push Not at hc
  have hk : (0 : ℝ) < xke := by unfold xke; norm_num
  have := Real.rpow_lt_one (x := xke / e.xno) (z := 2 / 3) (by positivity) (by rw [div_lt_one hx]; exact hc) (by norm_num)
  unfold a1 at hA
  exact absurd hA (not_le.2 this)

theorem Orbit.area {e : ElemD} (h : Orbit e) :
    1 ≤ √(1 - (e.eo : ℝ) * e.eo) * (1 - (e.eo : ℝ) * e.eo) * (a1 e.elem * a1 e.elem) := by
  obtain ⟨⟨hx, h0, h1⟩, _, hA⟩ := h.real
  have hh := h.high
  rw [pow_two] at hh
  have h0' : (0 : ℝ) ≤ e.eo := h0
  have h1' : (e.eo : ℝ) < 1 := h1
  have hB0 : 0 < 1 - (e.eo : ℝ) * e.eo := by nlinarith
  have hB1 : 1 - (e.eo : ℝ) * e.eo ≤ 1 := by nlinarith
  generalize 1 - (e.eo : ℝ) * e.eo = B at *
  generalize a1 e.elem = A at *
  have hs := Real.sqrt_le_sqrt hB1
  rw [Real.sqrt_one] at hs
  have s0 : 0 < √B := Real.sqrt_pos.2 hB0
  have hq := Real.mul_self_sqrt hB0.le
  have h2 : 1 ≤ (A * B) * (A * B) := by nlinarith
  have h3 : (A * B) * (A * B) = √B * B * (A * A) * √B := by
    rw [show √B * B * (A * A) * √B = √B * √B * B * (A * A) by ring, hq]
    ring
  have h4 : 0 ≤ √B * B * (A * A) := by positivity
  nlinarith

theorem ecc_pow (e : ElemD) : e.elem.eo = (e.eo : ℝ) := rfl

theorem deloD_near (F : Fl64) (M : PowLib) {e : ElemD} (h : Orbit e) :
    |(deloD F M e : ℝ) - delo e.elem| ≤ 34 / 10 ^ 18 ∧ |delo e.elem| ≤ 164 / 10 ^ 5 ∧ Rel (26 / 10 ^ 16) (aoD F M e) (ao e.elem) ∧ 99 / 100 ≤ ao e.elem := by
  obtain ⟨hd, hk, hA⟩ := h.real
  have area := h.area
  have hb := le_trans (del1_bound hd one_pos (by rw [ecc_pow]; exact h.high)) ck2_small.2
  obtain ⟨hao, hdo⟩ := delo_bound hd.1 (by norm_num) hb
  have hN := (tnumD_near F M e).2
  have ht := tvalD_near F M h.ecc0 h.ecc1
  have hD0 := (denD_near F M h.ecc0 h.ecc1).2
  have ra := a1D_near F M h.slow hk
  have et : tval e.elem = tnum e.elem / (√(1 - (e.eo : ℝ) * e.eo) * (1 - (e.eo : ℝ) * e.eo)) := rfl
  have ed : del1 e.elem = tnum e.elem / (√(1 - (e.eo : ℝ) * e.eo) * (1 - (e.eo : ℝ) * e.eo) * (a1 e.elem * a1 e.elem)) := by
    unfold del1
    rw [et, div_div]
  have eo' : delo e.elem = tnum e.elem / (√(1 - (e.eo : ℝ) * e.eo) * (1 - (e.eo : ℝ) * e.eo) * (ao e.elem * ao e.elem)) := by
    unfold delo
    rw [et, div_div]
  have hg : ao e.elem = a1 e.elem * (1 - del1 e.elem * (1 / 3 + del1 e.elem * (1 + 134 / 81 * del1 e.elem))) := rfl
  have r2 : Rel (46 / 10 ^ 16) ((F.rnd (a1D F M e * a1D F M e) : ℚ) : ℝ) (a1 e.elem * a1 e.elem) := by
    refine Rel.rnd F (a := 445 / 10 ^ 17) ?_ (le_trans (by norm_num) (show (1 : ℝ) ≤ _ by nlinarith)) (by norm_num)
    push_cast
    exact Rel.mul ra ra (by linarith) (by linarith) (by norm_num) (by norm_num)
  have d1 : |(del1D F M e : ℝ) - del1 e.elem| ≤ 33 / 10 ^ 18 := by
    unfold del1D
    refine rnd_real F (e := 25 / 10 ^ 18) (A := 163 / 10 ^ 5) ?_ (hb.trans (by norm_num)) (by norm_num)
    push_cast
    rw [ed]
    exact quot_near (by linarith) (by nlinarith) (by linarith) ht r2 (by norm_num) (by norm_num) (hN.trans (by norm_num)) (by norm_num)
  obtain ⟨g1, g2⟩ := shrinkD_near F d1 (hb.trans (by norm_num))
  have rao : Rel (26 / 10 ^ 16) (aoD F M e) (ao e.elem) := by
    rw [hg] at hao ⊢
    unfold aoD
    generalize del1 e.elem * (1 / 3 + del1 e.elem * (1 + 134 / 81 * del1 e.elem)) = G at *
    obtain ⟨G1, G2⟩ := abs_le.1 g2
    refine Rel.rnd F (a := 236 / 10 ^ 17) ?_ ?_ (by norm_num)
    · push_cast
      refine Rel.mul (b := 15 / 10 ^ 17) ra ?_ (by linarith) (by linarith) (by norm_num) (by norm_num)
      unfold Rel
      linarith
    · have : 1 * (99 / 100) ≤ a1 e.elem * (1 - G) := mul_le_mul hA (by linarith) (by norm_num) (by linarith)
      exact le_trans (by norm_num) this
  have hao1 : 999 / 1000 * a1 e.elem ≤ ao e.elem := by
    rw [hg]
    obtain ⟨G1, G2⟩ := abs_le.1 g2
    nlinarith
  have rs : Rel (54 / 10 ^ 16) ((F.rnd (aoD F M e * aoD F M e) : ℚ) : ℝ) (ao e.elem * ao e.elem) := by
    refine Rel.rnd F (a := 525 / 10 ^ 17) ?_ (le_trans (by norm_num) (show (1 / 2 : ℝ) ≤ _ by nlinarith)) (by norm_num)
    push_cast
    exact Rel.mul rao rao hao hao (by norm_num) (by norm_num)
  have hdo' : |delo e.elem| ≤ 164 / 10 ^ 5 := hdo.trans (by norm_num)
  refine ⟨?_, hdo', rao, by linarith⟩
  unfold deloD
  refine rnd_real F (e := 26 / 10 ^ 18) (A := 164 / 10 ^ 5) ?_ hdo' (by norm_num)
  push_cast
  rw [eo']
  refine quot_near (by linarith) (by positivity) ?_ ht rs (by norm_num) (by norm_num) (hN.trans (by norm_num)) (by norm_num)
  have h5 : 99 / 100 * (a1 e.elem * a1 e.elem) ≤ ao e.elem * ao e.elem := by nlinarith
  generalize √(1 - (e.eo : ℝ) * e.eo) * (1 - (e.eo : ℝ) * e.eo) = D at *
  nlinarith

/-- **C201**: for every orbit above the Earth the recovered mean motion in `double` is right to a part in `3 * 10 ^ 15`, the recovered
semimajor axis to a part in `3 * 10 ^ 14`. -/
theorem C201_recovered (F : Fl64) (M : PowLib) {e : ElemD} (h : Orbit e) :
    0 < (sxpall_common_init e.elem).xnodp ∧ |(xnodpD F M e : ℝ) - (sxpall_common_init e.elem).xnodp| ≤ 29 / 10 ^ 17 * (sxpall_common_init e.elem).xnodp ∧
      0 < (sxpall_common_init e.elem).aodp ∧ |(aodpD F M e : ℝ) - (sxpall_common_init e.elem).aodp| ≤ 29 / 10 ^ 16 * (sxpall_common_init e.elem).aodp := by
  obtain ⟨⟨hx, _, _⟩, _, hA⟩ := h.real
  obtain ⟨d1, d2, ra, ha⟩ := deloD_near F M h
  have hs : (3 / 10 ^ 6 : ℝ) ≤ e.xno := by
    have := (Rat.cast_le (K := ℝ)).2 h.slow
    push_cast at this
    exact this
  have hx' : (0 : ℝ) < e.xno := hx
  obtain ⟨l, u⟩ := abs_le.1 d2
  show 0 < (e.xno : ℝ) / (1 + delo e.elem) ∧ |_ - (e.xno : ℝ) / (1 + delo e.elem)| ≤ _ * ((e.xno : ℝ) / (1 + delo e.elem)) ∧
    0 < ao e.elem / (1 - delo e.elem) ∧ |_ - ao e.elem / (1 - delo e.elem)| ≤ _ * (ao e.elem / (1 - delo e.elem))
  unfold xnodpD aodpD
  generalize delo e.elem = D at *
  generalize deloD F M e = d at *
  generalize ao e.elem = A at *
  generalize aoD F M e = a at *
  have p1 : Rel (15 / 10 ^ 17) ((F.rnd (1 + d) : ℚ) : ℝ) (1 + D) := by
    refine Rel.rnd F (a := 35 / 10 ^ 18) ?_ (le_trans (by norm_num) (show (1 / 2 : ℝ) ≤ _ by linarith)) (by norm_num)
    unfold Rel
    push_cast
    rw [add_sub_add_left_eq_sub]
    linarith
  have p2 : Rel (15 / 10 ^ 17) ((F.rnd (1 - d) : ℚ) : ℝ) (1 - D) := by
    refine Rel.rnd F (a := 35 / 10 ^ 18) ?_ (le_trans (by norm_num) (show (1 / 2 : ℝ) ≤ _ by linarith)) (by norm_num)
    unfold Rel
    push_cast
    rw [sub_sub_sub_cancel_left, abs_sub_comm]
    linarith
  have q1 : 0 < 1 + D := by linarith
  have q2 : 0 < 1 - D := by linarith
  refine ⟨by positivity, ?_, div_pos (by linarith) q2, ?_⟩
  · refine Rel.rnd F (a := 16 / 10 ^ 17) ?_ ?_ (by norm_num)
    · push_cast
      exact Rel.div (Rel.refl _) p1 hx' q1 (by norm_num) (by norm_num) (by norm_num)
    · rw [le_div_iff₀ q1]
      norm_num at hs u ⊢
      linarith
  · refine Rel.rnd F (a := 276 / 10 ^ 17) ?_ ?_ (by norm_num)
    · push_cast
      exact Rel.div ra p2 (by linarith) q2 (by norm_num) (by norm_num) (by norm_num)
    · rw [le_div_iff₀ q2]
      norm_num at ha l ⊢
      linarith

/-- **C201**: for every orbit above the Earth whose period (of the recovered mean motion) is not within `2 * 10 ^ -13` minutes of 225 minutes,
the program in `double` chooses the model that exact arithmetic chooses; for elements marked for a model or outside the domain, always. -/
theorem C201_choice (F : Fl64) (M : PowLib) (e : ElemD)
    (h : e.ephType = 104 ∨ e.xno ≤ 0 ∨ e.eo > 1 ∨ e.eo < 0 ∨ (e.ephType = 50 ∨ e.ephType = 51 ∨ e.ephType = 52 ∨ e.ephType = 53) ∨
      (Orbit e ∧ 2 / 10 ^ 13 ≤ |2 * Real.pi / (sxpall_common_init e.elem).xnodp - 225|)) :
    selectD F M e = select_ephemeris e.elem := by
  unfold selectD select_ephemeris
  show _ = if e.ephType = 104 then 1 else if (e.xno : ℝ) ≤ 0 ∨ (e.eo : ℝ) > 1 ∨ (e.eo : ℝ) < 0 then -1 else if e.ephType = 50 ∨ e.ephType = 52 then 0
    else if e.ephType = 51 ∨ e.ephType = 53 then 1 else _
  have hc : ((e.xno : ℝ) ≤ 0 ∨ (e.eo : ℝ) > 1 ∨ (e.eo : ℝ) < 0) ↔ (e.xno ≤ 0 ∨ e.eo > 1 ∨ e.eo < 0) := by norm_cast
  simp only [hc]
  by_cases t1 : e.ephType = 104
  · rw [if_pos t1, if_pos t1]
  rw [if_neg t1, if_neg t1]
  by_cases t2 : e.xno ≤ 0 ∨ e.eo > 1 ∨ e.eo < 0
  · rw [if_pos t2, if_pos t2]
  rw [if_neg t2, if_neg t2]
  by_cases t3 : e.ephType = 50 ∨ e.ephType = 52
  · rw [if_pos t3, if_pos t3]
  rw [if_neg t3, if_neg t3]
  by_cases t4 : e.ephType = 51 ∨ e.ephType = 53
  · rw [if_pos t4, if_pos t4]
  rw [if_neg t4, if_neg t4]
  obtain ⟨ho, hp⟩ : Orbit e ∧ 2 / 10 ^ 13 ≤ |2 * Real.pi / (sxpall_common_init e.elem).xnodp - 225| := by tauto
  obtain ⟨n0, n1, _, _⟩ := C201_recovered F M ho
  have hpi := Real.pi_gt_d6
  have hn1 : (sxpall_common_init e.elem).xnodp ≤ 1 := by
    obtain ⟨⟨hx, _, _⟩, hk, _⟩ := ho.real
    obtain ⟨_, d2, _, _⟩ := deloD_near F M ho
    obtain ⟨l, u⟩ := abs_le.1 d2
    show (e.xno : ℝ) / (1 + delo e.elem) ≤ 1
    rw [div_le_one (by linarith)]
    unfold xke at hk
    norm_num at hk l ⊢
    linarith
  generalize (sxpall_common_init e.elem).xnodp = n at *
  generalize xnodpD F M e = m at *
  have rt : Rel (16 / 10 ^ 17) (twopiD : ℝ) (2 * Real.pi) := by
    have := twopi_near
    unfold Rel
    norm_num at this ⊢
    linarith
  have P0 : 1 ≤ 2 * Real.pi / n := by rw [le_div_iff₀ n0]; linarith
  have r := Rel.rnd F (z := twopiD / m) (a := 46 / 10 ^ 17) (c := 58 / 10 ^ 17) (X := 2 * Real.pi / n)
    (by push_cast; exact Rel.div rt n1 (by positivity) n0 (by norm_num) (by norm_num) (by norm_num)) (le_trans (by norm_num) P0) (by norm_num)
  generalize 2 * Real.pi / n = P at *
  unfold Rel at r
  have hcast : (225 ≤ F.rnd (twopiD / m)) ↔ (225 : ℝ) ≤ (F.rnd (twopiD / m) : ℝ) := by norm_cast
  simp only [ge_iff_le]
  by_cases hP : 225 ≤ P
  · rw [if_pos hP, if_pos]
    rw [hcast]
    rw [abs_of_nonneg (by linarith)] at hp
    have := (abs_le.1 r).1
    norm_num at hp this ⊢
    linarith
  · rw [if_neg hP, if_neg]
    rw [hcast]
    push Not at hP ⊢
    rw [abs_of_neg (by linarith)] at hp
    have := (abs_le.1 r).2
    norm_num at hp this ⊢
    linarith

/-- **C201**, in terms of the mean motion in the file: a period of at least 225.4 minutes gives the deep-space model and one of at most 224.6
minutes the near-Earth one, in `double` too. -/
theorem C201_band (F : Fl64) (M : PowLib) {e : ElemD} (h : Orbit e) (ht : Unmarked e.elem) :
    (225.4 ≤ 2 * Real.pi / e.xno → selectD F M e = 1) ∧ (2 * Real.pi / e.xno ≤ 224.6 → selectD F M e = 0) := by
  obtain ⟨hd, _, _⟩ := h.real
  obtain ⟨b1, b0⟩ := C89_band e.elem hd ht (by rw [ecc_pow]; exact h.high)
  obtain ⟨_, d2, _, _⟩ := deloD_near F M h
  obtain ⟨l, u⟩ := abs_le.1 d2
  have hx : (0 : ℝ) < e.xno := hd.1
  have hper : 2 * Real.pi / (sxpall_common_init e.elem).xnodp = 2 * Real.pi / e.xno * (1 + delo e.elem) := by
    show 2 * Real.pi / ((e.xno : ℝ) / (1 + delo e.elem)) = _
    have : 0 < 1 + delo e.elem := by linarith
    field_simp
  have hc := fun hp => C201_choice F M e (Or.inr (Or.inr (Or.inr (Or.inr (Or.inr ⟨h, hp⟩)))))
  rw [hper] at hc
  have hT : 0 < 2 * Real.pi / (e.xno : ℝ) := by positivity
  constructor
  · intro hp
    rw [hc ?_]
    · exact b1 hp
    · generalize 2 * Real.pi / (e.xno : ℝ) = T at *
      norm_num at hp l ⊢
      rw [abs_of_nonneg (by nlinarith)]
      nlinarith
  · intro hp
    rw [hc ?_]
    · exact b0 hp
    · generalize 2 * Real.pi / (e.xno : ℝ) = T at *
      norm_num at hp u ⊢
      rw [abs_of_neg (by nlinarith)]
      nlinarith

/-- A library with `pow`. -/
noncomputable def powLib : PowLib where
  toLibm := bestLib
  pow x y := rounded ((x : ℝ) ^ (y : ℝ))
  pow_err x y hx := by
    have hx' : (0 : ℝ) < x := by exact_mod_cast hx
    have h := rounded_err ((x : ℝ) ^ (y : ℝ)) (c := 2 / 2 ^ 53) (by norm_num)
    rwa [abs_of_pos (Real.rpow_pos_of_pos hx' _)] at h

/-- A circular equatorial orbit. -/
def roundOrbit (n : ℚ) : ElemD := { xincl := 0, eo := 0, xno := n, ephType := 48 }

theorem roundOrbit_high {n : ℚ} (h0 : 3 / 10 ^ 6 ≤ n) (h1 : (n : ℝ) ≤ xke) : Orbit (roundOrbit n) := by
  have hx : (0 : ℝ) < n := by exact_mod_cast lt_of_lt_of_le (by norm_num) h0
  refine ⟨h0, le_rfl, by norm_num [roundOrbit], ?_⟩
  have h2 : 1 ≤ xke / n := by rw [le_div_iff₀ hx]; linarith
  have := Real.one_le_rpow h2 (show (0 : ℝ) ≤ 2 / 3 by norm_num)
  show 1 ≤ (xke / (n : ℝ)) ^ (2 / 3 : ℝ) * (1 - ((0 : ℚ) : ℝ) ^ 2)
  push_cast
  linarith

/-- A geostationary satellite and one at 93 minutes. -/
example (F : Fl64) : selectD F powLib (roundOrbit (4375 / 10 ^ 6)) = 1 ∧ selectD F powLib (roundOrbit (676 / 10 ^ 4)) = 0 := by
  have hp := Real.pi_gt_d6
  have hp' := Real.pi_lt_d6
  constructor
  · refine (C201_band F powLib (roundOrbit_high (by norm_num) (by unfold xke; push_cast; norm_num)) (by unfold Unmarked roundOrbit ElemD.elem; decide)).1 ?_
    show (225.4 : ℝ) ≤ 2 * Real.pi / ((4375 / 10 ^ 6 : ℚ) : ℝ)
    push_cast
    rw [le_div_iff₀ (by norm_num)]
    norm_num at hp ⊢
    linarith
  · refine (C201_band F powLib (roundOrbit_high (by norm_num) (by unfold xke; push_cast; norm_num)) (by unfold Unmarked roundOrbit ElemD.elem; decide)).2 ?_
    show 2 * Real.pi / ((676 / 10 ^ 4 : ℚ) : ℝ) ≤ 224.6
    push_cast
    rw [div_le_iff₀ (by norm_num)]
    norm_num at hp' ⊢
    linarith

/-- The factor of line 46 for a correction of 0.001: 0.9996656650123... -/
example : ⌊shrinkD Fl64.ieee (1 / 1000) * 10 ^ 12⌋ = 999665665012 := by decide +kernel

end SatSky.Props
