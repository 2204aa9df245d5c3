import Verif.Model.PosnDouble
import Verif.Props.KeplerDouble
import Verif.Props.Ellipse

/-! C205: the position of `sxpx_posn_vel` in `double` arithmetic. -/

namespace SatSky.Props

open SatSky.Spec SatSky.Geo SatSky.Relative SatSky.Sxp SatSky.Kep

/-! ### The point on the ellipse -/

theorem comp_39 {x y : ℝ} (h : x ^ 2 + y ^ 2 ≤ (39 / 100) ^ 2) : |x| ≤ 39 / 100 ∧ |y| ≤ 39 / 100 := by
  constructor <;> refine abs_le_of_sq_le_sq ?_ (by norm_num) <;> nlinarith [sq_nonneg x, sq_nonneg y]

theorem ecc_part2 (F : Fl64) {x s : ℚ} {S : ℝ} (hx : |(x : ℝ)| ≤ 39 / 100) (hs : |(s : ℝ) - S| ≤ 1701 / 10 ^ 15) (hS : |S| ≤ 1) :
    |(F.rnd (x * s) : ℝ) - x * S| ≤ 664 / 10 ^ 15 := by
  refine rnd_real F (e := 39 / 100 * (1701 / 10 ^ 15)) (A := 39 / 100) ?_ ?_ (by norm_num)
  · push_cast
    rw [← mul_sub, abs_mul]
    exact mul_le_mul hx hs (abs_nonneg _) (by norm_num)
  · rw [abs_mul]
    calc |(x : ℝ)| * |S| ≤ 39 / 100 * 1 := mul_le_mul hx hS (abs_nonneg _) (by norm_num)
      _ = 39 / 100 := mul_one _

theorem lib_at (M : Libm) {E : ℚ} {R : ℝ} (hE : |(E : ℝ) - R| ≤ 17 / 10 ^ 13) :
    |(M.sin E : ℝ) - Real.sin R| ≤ 1701 / 10 ^ 15 ∧ |(M.cos E : ℝ) - Real.cos R| ≤ 1701 / 10 ^ 15 :=
  ⟨(sin_lib M hE).trans (by norm_num), (cos_lib M hE).trans (by norm_num)⟩

theorem esinE_at (F : Fl64) (M : Libm) {x y E : ℚ} {R : ℝ} (h : (x : ℝ) ^ 2 + (y : ℝ) ^ 2 ≤ (39 / 100) ^ 2) (hE : |(E : ℝ) - R| ≤ 17 / 10 ^ 13) :
    |(esinED F M x y E : ℝ) - es x y R| ≤ 133 / 10 ^ 14 := by
  obtain ⟨hx, hy⟩ := comp_39 h
  obtain ⟨s1, c1⟩ := lib_at M hE
  have p1 := ecc_part2 F hx s1 (Real.abs_sin_le_one _)
  have p2 := ecc_part2 F hy c1 (Real.abs_cos_le_one _)
  have hb := abs_es (by norm_num) h R
  unfold esinED
  refine rnd_real F (e := 1328 / 10 ^ 15) (A := 39 / 100) ?_ hb (by norm_num)
  unfold es
  push_cast
  rw [abs_le] at *
  constructor <;> linarith [p1.1, p1.2, p2.1, p2.2]

theorem ecosE_at (F : Fl64) (M : Libm) {x y E : ℚ} {R : ℝ} (h : (x : ℝ) ^ 2 + (y : ℝ) ^ 2 ≤ (39 / 100) ^ 2) (hE : |(E : ℝ) - R| ≤ 17 / 10 ^ 13) :
    |(ecosED F M x y E : ℝ) - ec x y R| ≤ 133 / 10 ^ 14 := by
  obtain ⟨hx, hy⟩ := comp_39 h
  obtain ⟨s1, c1⟩ := lib_at M hE
  have p1 := ecc_part2 F hx c1 (Real.abs_cos_le_one _)
  have p2 := ecc_part2 F hy s1 (Real.abs_sin_le_one _)
  have hb := abs_ec (by norm_num) h R
  unfold ecosED
  refine rnd_real F (e := 1328 / 10 ^ 15) (A := 39 / 100) ?_ hb (by norm_num)
  unfold ec
  push_cast
  rw [abs_le] at *
  constructor <;> linarith [p1.1, p1.2, p2.1, p2.2]

theorem oneElsq_near (F : Fl64) {x y : ℚ} (h : (x : ℝ) ^ 2 + (y : ℝ) ^ 2 ≤ (39 / 100) ^ 2) :
    |(oneElsqD F x y : ℝ) - (1 - (x * x + y * y))| ≤ 2 / 10 ^ 16 ∧ (8479 / 10000 : ℝ) ≤ 1 - (x * x + y * y) ∧ (1 - (x * x + y * y) : ℝ) ≤ 1 := by
  have px := sq_nonneg (x : ℝ)
  have py := sq_nonneg (y : ℝ)
  have l0 : (8479 / 10000 : ℝ) ≤ 1 - (x * x + y * y) := by nlinarith
  have l1 : (1 - (x * x + y * y) : ℝ) ≤ 1 := by nlinarith
  refine ⟨?_, l0, l1⟩
  have a1 : |(F.rnd (x * x) : ℝ) - x * x| ≤ 2 / 10 ^ 17 :=
    rnd_real F (e := 0) (A := 16 / 100) (by push_cast; simp) (by rw [abs_of_nonneg (mul_self_nonneg _)]; nlinarith) (by norm_num)
  have a2 : |(F.rnd (y * y) : ℝ) - y * y| ≤ 2 / 10 ^ 17 :=
    rnd_real F (e := 0) (A := 16 / 100) (by push_cast; simp) (by rw [abs_of_nonneg (mul_self_nonneg _)]; nlinarith) (by norm_num)
  have a3 : |(F.rnd (F.rnd (x * x) + F.rnd (y * y)) : ℝ) - (x * x + y * y)| ≤ 7 / 10 ^ 17 := by
    refine rnd_real F (e := 4 / 10 ^ 17) (A := 16 / 100) ?_ (by rw [abs_of_nonneg (add_nonneg (mul_self_nonneg _) (mul_self_nonneg _))]; nlinarith) (by norm_num)
    push_cast
    rw [abs_le] at *
    constructor <;> linarith [a1.1, a1.2, a2.1, a2.2]
  unfold oneElsqD
  refine rnd_real F (e := 7 / 10 ^ 17) (A := 1) ?_ (by rw [abs_of_nonneg (by linarith)]; exact l1) (by norm_num)
  push_cast
  rw [abs_le] at *
  constructor <;> linarith [a3.1, a3.2]

theorem sqrt_near {a b e : ℝ} (hab : |a - b| ≤ e) (ha : 81 / 100 ≤ a) (hb : 81 / 100 ≤ b) : |√a - √b| ≤ e := by
  have h1 : 9 / 10 ≤ √a := Real.le_sqrt_of_sq_le (by linarith)
  have h2 : 9 / 10 ≤ √b := Real.le_sqrt_of_sq_le (by linarith)
  have e1 : a - b = (√a - √b) * (√a + √b) := by
    have q1 := Real.mul_self_sqrt (show 0 ≤ a by linarith)
    have q2 := Real.mul_self_sqrt (show 0 ≤ b by linarith)
    nlinarith
  rw [e1, abs_mul, abs_of_pos (by linarith : 0 < √a + √b)] at hab
  have := mul_le_mul_of_nonneg_left (show 1 ≤ √a + √b by linarith) (abs_nonneg (√a - √b))
  linarith

theorem betal_near (F : Fl64) (M : Libm) {x y : ℚ} (h : (x : ℝ) ^ 2 + (y : ℝ) ^ 2 ≤ (39 / 100) ^ 2) :
    |(M.sqrt (oneElsqD F x y) : ℝ) - √(1 - (x * x + y * y))| ≤ 4 / 10 ^ 16 ∧ (92 / 100 : ℝ) ≤ √(1 - (x * x + y * y)) ∧ √(1 - (x * x + y * y) : ℝ) ≤ 1 := by
  obtain ⟨a, l0, l1⟩ := oneElsq_near F h
  have b0 : (92 / 100 : ℝ) ≤ √(1 - (x * x + y * y)) := Real.le_sqrt_of_sq_le (by linarith)
  have b1 : √(1 - (x * x + y * y) : ℝ) ≤ 1 := Real.sqrt_le_iff.2 ⟨by norm_num, by linarith⟩
  refine ⟨?_, b0, b1⟩
  have o0 : (81 / 100 : ℝ) ≤ oneElsqD F x y := by linarith [(abs_le.1 a).1]
  have o0' : 0 ≤ oneElsqD F x y := by
    have : (0 : ℝ) ≤ oneElsqD F x y := by linarith
    exact_mod_cast this
  have s1 := M.sqrt_err _ o0'
  have s2 := sqrt_near a o0 (by linarith)
  have s3 : √(oneElsqD F x y : ℝ) ≤ 11 / 10 := by
    have := (abs_le.1 s2).2
    linarith
  have s4 := mul_le_mul_of_nonneg_left s3 (show (0 : ℝ) ≤ 1 / 2 ^ 53 by norm_num)
  have := abs_sub_le (M.sqrt (oneElsqD F x y) : ℝ) √(oneElsqD F x y : ℝ) √(1 - (x * x + y * y) : ℝ)
  have n1 : (1 : ℝ) / 2 ^ 53 * (11 / 10) + 1 / 2 ^ 200 ≤ 2 / 10 ^ 16 := by norm_num
  linarith

theorem tempu_near (F : Fl64) (M : Libm) {x y E : ℚ} {R : ℝ} (h : (x : ℝ) ^ 2 + (y : ℝ) ^ 2 ≤ (39 / 100) ^ 2) (hE : |(E : ℝ) - R| ≤ 17 / 10 ^ 13) :
    |(tempuD F M x y E : ℝ) - es x y R / (1 + √(1 - (x * x + y * y)))| ≤ 71 / 10 ^ 14 ∧ |es x y R / (1 + √(1 - (x * x + y * y) : ℝ))| ≤ 21 / 100 := by
  obtain ⟨b, b0, b1⟩ := betal_near F M h
  have s := esinE_at F M h hE
  have hs := abs_es (by norm_num) h R
  generalize √(1 - (x * x + y * y) : ℝ) = B at *
  have hQ : |es x y R / (1 + B)| ≤ 21 / 100 := by
    rw [abs_div, abs_of_pos (by linarith : 0 < 1 + B), div_le_iff₀ (by linarith)]; linarith
  refine ⟨?_, hQ⟩
  have d : |(F.rnd (1 + M.sqrt (oneElsqD F x y)) : ℝ) - (1 + B)| ≤ 7 / 10 ^ 16 := by
    refine rnd_real F (e := 4 / 10 ^ 16) (A := 2) ?_ (by rw [abs_of_pos (by linarith)]; linarith) (by norm_num)
    push_cast
    rw [show (1 + (M.sqrt (oneElsqD F x y) : ℝ) - (1 + B)) = M.sqrt (oneElsqD F x y) - B by ring]
    exact b
  unfold tempuD
  refine rnd_real F (e := 7 / 10 ^ 13) (A := 21 / 100) ?_ hQ (by norm_num)
  push_cast
  exact quot_real s d (m := 191 / 100) (by linarith) (by norm_num) hQ (by norm_num)

/-- The distance and its inverse ratio. -/
theorem dist_near (F : Fl64) (M : Libm) {a x y E : ℚ} {R : ℝ} (h : (x : ℝ) ^ 2 + (y : ℝ) ^ 2 ≤ (39 / 100) ^ 2) (hE : |(E : ℝ) - R| ≤ 17 / 10 ^ 13)
    (ha : (9 / 10 : ℝ) ≤ a) :
    |(distD F M a x y E : ℝ) - a * (1 - ec x y R)| ≤ 134 / 10 ^ 14 * a ∧
    |(F.rnd (a / distD F M a x y E) : ℝ) - a / (a * (1 - ec x y R))| ≤ 37 / 10 ^ 13 ∧ |a / (a * (1 - ec x y R))| ≤ 164 / 100 ∧
    61 / 100 ≤ 1 - ec x y R ∧ 1 - ec x y R ≤ 139 / 100 := by
  have hc := abs_le.1 (abs_ec (by norm_num) h R)
  have c := ecosE_at F M h hE
  have w0 : 61 / 100 ≤ 1 - ec x y R := by linarith [hc.2]
  have w1 : 1 - ec x y R ≤ 139 / 100 := by linarith [hc.1]
  have w : |(F.rnd (1 - ecosED F M x y E) : ℝ) - (1 - ec x y R)| ≤ 1331 / 10 ^ 15 := by
    refine rnd_real F (e := 133 / 10 ^ 14) (A := 139 / 100) ?_ (by rw [abs_of_pos (by linarith)]; exact w1) (by norm_num)
    push_cast
    rw [show (1 - (ecosED F M x y E : ℝ) - (1 - ec x y R)) = -(ecosED F M x y E - ec x y R) by ring, abs_neg]
    exact c
  generalize 1 - ec x y R = W at *
  have d : |(distD F M a x y E : ℝ) - a * W| ≤ 134 / 10 ^ 14 * a := by
    unfold distD
    refine rnd_real F (e := 1331 / 10 ^ 15 * a) (A := 139 / 100 * a) ?_ ?_ ?_
    · push_cast
      rw [← mul_sub, abs_mul, abs_of_pos (by linarith)]
      nlinarith
    · rw [abs_of_pos (by nlinarith)]
      nlinarith
    · have : (1 : ℝ) / 2 ^ 200 ≤ 1 / 10 ^ 30 := by norm_num
      have : (139 / 100 * (a : ℝ) + 1331 / 10 ^ 15 * a) / 2 ^ 53 ≤ 2 / 10 ^ 16 * a := by
        rw [div_le_iff₀ (by norm_num)]
        nlinarith
      linarith
  refine ⟨d, ?_, ?_, w0, w1⟩
  · refine rnd_real F (e := 369 / 10 ^ 14) (A := 164 / 100) ?_ ?_ (by norm_num)
    · push_cast
      have hW : (a : ℝ) / (a * W) = 1 / W := by field_simp
      have hd0 : 60 / 100 * (a : ℝ) ≤ distD F M a x y E := by nlinarith [(abs_le.1 d).1]
      have hdp : 0 < (distD F M a x y E : ℝ) := by linarith
      have e1 : (a : ℝ) / distD F M a x y E - a / (a * W) = -((distD F M a x y E : ℝ) - a * W) / (distD F M a x y E * W) := by
        rw [hW]; field_simp; ring
      rw [e1, abs_div, abs_neg, abs_of_pos (mul_pos hdp (by linarith)), div_le_iff₀ (mul_pos hdp (by linarith))]
      refine d.trans ?_
      have hd1 : (61 / 100 - 1 / 10 ^ 9) * (a : ℝ) ≤ distD F M a x y E := by nlinarith [(abs_le.1 d).1]
      have := mul_le_mul hd1 w0 (by norm_num) hdp.le
      nlinarith
    · have hW : (a : ℝ) / (a * W) = 1 / W := by field_simp
      rw [hW, abs_of_pos (by positivity), div_le_iff₀ (by linarith)]
      linarith
  · have hW : (a : ℝ) / (a * W) = 1 / W := by field_simp
    rw [hW, abs_of_pos (by positivity), div_le_iff₀ (by linarith)]
    linarith

/-- Cosine and sine of the argument of latitude. -/
theorem cosu_near (F : Fl64) (M : Libm) {a x y E : ℚ} {R : ℝ} (h : (x : ℝ) ^ 2 + (y : ℝ) ^ 2 ≤ (39 / 100) ^ 2) (hE : |(E : ℝ) - R| ≤ 17 / 10 ^ 13)
    (ha : (9 / 10 : ℝ) ≤ a) : |(cosuD F M a x y E : ℝ) - (shortPrelim a x y R).2.1| ≤ 9 / 10 ^ 12 := by
  obtain ⟨hx, hy⟩ := comp_39 h
  obtain ⟨_, c1⟩ := lib_at M hE
  obtain ⟨t, t1⟩ := tempu_near F M h hE
  obtain ⟨_, q, q1, _, _⟩ := dist_near F M h hE ha
  have hR := Real.abs_cos_le_one R
  unfold cosuD shortPrelim
  dsimp only
  rw [show x * Real.sin R - y * Real.cos R = es x y R from rfl, show x * Real.cos R + y * Real.sin R = ec x y R from rfl]
  generalize es x y R / (1 + √(1 - (x * x + y * y) : ℝ)) = T at *
  generalize (a : ℝ) / (a * (1 - ec x y R)) = Q at *
  have g0 : |Real.cos R - x| ≤ 139 / 100 := (abs_sub _ _).trans (by linarith)
  have g1 : |(F.rnd (M.cos E - x) : ℝ) - (Real.cos R - x)| ≤ 1702 / 10 ^ 15 := by
    refine rnd_real F (e := 1701 / 10 ^ 15) (A := 139 / 100) ?_ g0 (by norm_num)
    push_cast
    rw [show (M.cos E : ℝ) - x - (Real.cos R - x) = M.cos E - Real.cos R by ring]
    exact c1
  have yT : |y * T| ≤ 9 / 100 := by
    rw [abs_mul]
    have := mul_le_mul hy t1 (abs_nonneg _) (by norm_num)
    linarith
  have g2 : |(F.rnd (y * tempuD F M x y E) : ℝ) - y * T| ≤ 28 / 10 ^ 14 := by
    refine rnd_real F (e := 277 / 10 ^ 15) (A := 9 / 100) ?_ yT (by norm_num)
    push_cast
    rw [← mul_sub, abs_mul]
    have := mul_le_mul hy t (abs_nonneg _) (by norm_num)
    linarith
  have k0 : |Real.cos R - x + y * T| ≤ 148 / 100 := (abs_add_le _ _).trans (by linarith)
  have g3 : |(F.rnd (F.rnd (M.cos E - x) + F.rnd (y * tempuD F M x y E)) : ℝ) - (Real.cos R - x + y * T)| ≤ 199 / 10 ^ 14 := by
    refine rnd_real F (e := 1982 / 10 ^ 15) (A := 148 / 100) ?_ k0 (by norm_num)
    push_cast
    rw [abs_le] at *
    constructor <;> linarith [g1.1, g1.2, g2.1, g2.2]
  have p := mul_real q g3 q1 k0
  refine rnd_real F (e := 88 / 10 ^ 13) (A := 3) ?_ ?_ (by norm_num)
  · push_cast
    exact p.trans (by norm_num)
  · rw [abs_mul]
    have := mul_le_mul q1 k0 (abs_nonneg _) (by norm_num)
    linarith

theorem sinu_near (F : Fl64) (M : Libm) {a x y E : ℚ} {R : ℝ} (h : (x : ℝ) ^ 2 + (y : ℝ) ^ 2 ≤ (39 / 100) ^ 2) (hE : |(E : ℝ) - R| ≤ 17 / 10 ^ 13)
    (ha : (9 / 10 : ℝ) ≤ a) : |(sinuD F M a x y E : ℝ) - (shortPrelim a x y R).2.2| ≤ 9 / 10 ^ 12 := by
  obtain ⟨hx, hy⟩ := comp_39 h
  obtain ⟨c1, _⟩ := lib_at M hE
  obtain ⟨t, t1⟩ := tempu_near F M h hE
  obtain ⟨_, q, q1, _, _⟩ := dist_near F M h hE ha
  have hR := Real.abs_sin_le_one R
  unfold sinuD shortPrelim
  dsimp only
  rw [show x * Real.sin R - y * Real.cos R = es x y R from rfl, show x * Real.cos R + y * Real.sin R = ec x y R from rfl]
  generalize es x y R / (1 + √(1 - (x * x + y * y) : ℝ)) = T at *
  generalize (a : ℝ) / (a * (1 - ec x y R)) = Q at *
  have g0 : |Real.sin R - y| ≤ 139 / 100 := (abs_sub _ _).trans (by linarith)
  have g1 : |(F.rnd (M.sin E - y) : ℝ) - (Real.sin R - y)| ≤ 1702 / 10 ^ 15 := by
    refine rnd_real F (e := 1701 / 10 ^ 15) (A := 139 / 100) ?_ g0 (by norm_num)
    push_cast
    rw [show (M.sin E : ℝ) - y - (Real.sin R - y) = M.sin E - Real.sin R by ring]
    exact c1
  have yT : |x * T| ≤ 9 / 100 := by
    rw [abs_mul]
    have := mul_le_mul hx t1 (abs_nonneg _) (by norm_num)
    linarith
  have g2 : |(F.rnd (x * tempuD F M x y E) : ℝ) - x * T| ≤ 28 / 10 ^ 14 := by
    refine rnd_real F (e := 277 / 10 ^ 15) (A := 9 / 100) ?_ yT (by norm_num)
    push_cast
    rw [← mul_sub, abs_mul]
    have := mul_le_mul hx t (abs_nonneg _) (by norm_num)
    linarith
  have k0 : |Real.sin R - y - x * T| ≤ 148 / 100 := (abs_sub _ _).trans (by linarith)
  have g3 : |(F.rnd (F.rnd (M.sin E - y) - F.rnd (x * tempuD F M x y E)) : ℝ) - (Real.sin R - y - x * T)| ≤ 199 / 10 ^ 14 := by
    refine rnd_real F (e := 1982 / 10 ^ 15) (A := 148 / 100) ?_ k0 (by norm_num)
    push_cast
    rw [abs_le] at *
    constructor <;> linarith [g1.1, g1.2, g2.1, g2.2]
  have p := mul_real q g3 q1 k0
  refine rnd_real F (e := 88 / 10 ^ 13) (A := 3) ?_ ?_ (by norm_num)
  · push_cast
    exact p.trans (by norm_num)
  · rw [abs_mul]
    have := mul_le_mul q1 k0 (abs_nonneg _) (by norm_num)
    linarith

/-! ### Products with a rounding -/

theorem mulr (F : Fl64) {x y : ℚ} {X Y e f A B E : ℝ} (hx : |(x : ℝ) - X| ≤ e) (hy : |(y : ℝ) - Y| ≤ f) (hX : |X| ≤ A) (hY : |Y| ≤ B)
    (hE : (e * B + A * f + e * f) + (A * B + (e * B + A * f + e * f)) / 2 ^ 53 + 1 / 2 ^ 200 ≤ E) :
    |(F.rnd (x * y) : ℝ) - X * Y| ≤ E ∧ |X * Y| ≤ A * B := by
  have h2 : |X * Y| ≤ A * B := by rw [abs_mul]; exact mul_le_mul hX hY (abs_nonneg _) ((abs_nonneg _).trans hX)
  exact ⟨rnd_real F (by push_cast; exact mul_real hx hy hX hY) h2 hE, h2⟩

theorem rnd_scaled (F : Fl64) {z : ℚ} {Z e A E a : ℝ} (ha : 9 / 10 ≤ a) (h : |(z : ℝ) - Z| ≤ e * a) (hZ : |Z| ≤ A * a)
    (hE : e + (A + e) / 2 ^ 53 + 1 / 2 ^ 199 ≤ E) : |(F.rnd z : ℝ) - Z| ≤ E * a := by
  refine rnd_real F h hZ ?_
  have h1 := mul_le_mul_of_nonneg_right hE (show 0 ≤ a by linarith)
  have h2 : (1 : ℝ) / 2 ^ 200 ≤ 1 / 2 ^ 199 * a := by
    have : (1 : ℝ) / 2 ^ 199 * (9 / 10) ≤ 1 / 2 ^ 199 * a := mul_le_mul_of_nonneg_left ha (by norm_num)
    have h3 : (1 : ℝ) / 2 ^ 200 ≤ 1 / 2 ^ 199 * (9 / 10) := by norm_num
    linarith
  have e1 : (A * a + e * a) / 2 ^ 53 = (A + e) / 2 ^ 53 * a := by ring
  rw [e1]
  linarith

theorem mulr_scaled (F : Fl64) {x y : ℚ} {X Y e f A B E a : ℝ} (ha : 9 / 10 ≤ a) (hx : |(x : ℝ) - X| ≤ e * a) (hy : |(y : ℝ) - Y| ≤ f)
    (hX : |X| ≤ A * a) (hY : |Y| ≤ B) (hE : (e * B + A * f + e * f) + (A * B + (e * B + A * f + e * f)) / 2 ^ 53 + 1 / 2 ^ 199 ≤ E) :
    |(F.rnd (x * y) : ℝ) - X * Y| ≤ E * a ∧ |X * Y| ≤ A * B * a := by
  have h2 : |X * Y| ≤ A * B * a := by
    rw [abs_mul]
    have := mul_le_mul hX hY (abs_nonneg _) ((abs_nonneg _).trans hX)
    linarith
  refine ⟨rnd_scaled F ha ?_ h2 hE, h2⟩
  have := mul_real hx hy hX hY
  push_cast
  linarith

/-! ### The argument of latitude -/

theorem direction_near {s c S C : ℝ} (hs : |s - S| ≤ 9 / 10 ^ 12) (hc : |c - C| ≤ 9 / 10 ^ 12) (h1 : C ^ 2 + S ^ 2 = 1) :
    |Real.cos (atan2 s c) - C| ≤ 3 / 10 ^ 11 ∧ |Real.sin (atan2 s c) - S| ≤ 3 / 10 ^ 11 := by
  obtain ⟨p1, p2⟩ := atan2_polar s c
  have hC : |C| ≤ 1 := abs_le_of_sq_le_sq (by nlinarith [sq_nonneg S]) (by norm_num)
  have hS : |S| ≤ 1 := abs_le_of_sq_le_sq (by nlinarith [sq_nonneg C]) (by norm_num)
  have n1 := Real.abs_cos_le_one (atan2 s c)
  have n2 := Real.abs_sin_le_one (atan2 s c)
  generalize Real.cos (atan2 s c) = k at *
  generalize Real.sin (atan2 s c) = m at *
  have hq0 : 0 ≤ √(c * c + s * s) := Real.sqrt_nonneg _
  have hqq : √(c * c + s * s) * √(c * c + s * s) = c * c + s * s := Real.mul_self_sqrt (add_nonneg (mul_self_nonneg _) (mul_self_nonneg _))
  generalize √(c * c + s * s) = q at *
  have cc := mul_real hc hc hC hC
  have ss := mul_real hs hs hS hS
  have q1 : |q * q - 1| ≤ 37 / 10 ^ 12 := by
    rw [hqq, show (1 : ℝ) = C * C + S * S by nlinarith]
    rw [abs_le] at *
    constructor <;> linarith [cc.1, cc.2, ss.1, ss.2]
  have q2 : |1 - q| ≤ 2 / 10 ^ 11 := by
    obtain ⟨u, v⟩ := abs_le.1 q1
    rw [abs_le]
    constructor <;> nlinarith
  constructor
  · rw [show k - C = k * (1 - q) + (c - C) by rw [← p1]; ring]
    refine (abs_add_le _ _).trans ?_
    rw [abs_mul]
    have := mul_le_mul n1 q2 (abs_nonneg _) (by norm_num)
    linarith
  · rw [show m - S = m * (1 - q) + (s - S) by rw [← p2]; ring]
    refine (abs_add_le _ _).trans ?_
    rw [abs_mul]
    have := mul_le_mul n2 q2 (abs_nonneg _) (by norm_num)
    linarith

theorem turned_near {θ U D : ℝ} (hc : |Real.cos θ - Real.cos U| ≤ 3 / 10 ^ 11) (hs : |Real.sin θ - Real.sin U| ≤ 3 / 10 ^ 11) (hD : |D| ≤ 1 / 100) :
    |Real.cos (θ - D) - Real.cos (U - D)| ≤ 304 / 10 ^ 13 ∧ |Real.sin (θ - D) - Real.sin (U - D)| ≤ 304 / 10 ^ 13 := by
  have h1 := Real.abs_cos_le_one D
  have h2 : |Real.sin D| ≤ 1 / 100 := by
    have := Real.abs_sin_sub_sin_le D 0
    rw [Real.sin_zero, sub_zero, sub_zero] at this
    linarith
  rw [Real.cos_sub, Real.cos_sub, Real.sin_sub, Real.sin_sub]
  constructor
  · rw [show Real.cos θ * Real.cos D + Real.sin θ * Real.sin D - (Real.cos U * Real.cos D + Real.sin U * Real.sin D)
      = (Real.cos θ - Real.cos U) * Real.cos D + (Real.sin θ - Real.sin U) * Real.sin D by ring]
    refine (abs_add_le _ _).trans ?_
    rw [abs_mul (Real.cos θ - Real.cos U), abs_mul (Real.sin θ - Real.sin U)]
    have := mul_le_mul hc h1 (abs_nonneg _) (by norm_num)
    have := mul_le_mul hs h2 (abs_nonneg _) (by norm_num)
    linarith
  · rw [show Real.sin θ * Real.cos D - Real.cos θ * Real.sin D - (Real.sin U * Real.cos D - Real.cos U * Real.sin D)
      = (Real.sin θ - Real.sin U) * Real.cos D + -((Real.cos θ - Real.cos U) * Real.sin D) by ring]
    refine (abs_add_le _ _).trans ?_
    rw [abs_neg, abs_mul (Real.cos θ - Real.cos U), abs_mul (Real.sin θ - Real.sin U)]
    have := mul_le_mul hs h1 (abs_nonneg _) (by norm_num)
    have := mul_le_mul hc h2 (abs_nonneg _) (by norm_num)
    linarith

/-- Sine and cosine of `u - d`, where `u` comes from `atan2` and `d` from the short-period terms. -/
theorem uk_near (F : Fl64) (M : GeoLib) {s c d : ℚ} {S C D : ℝ} (hs : |(s : ℝ) - S| ≤ 9 / 10 ^ 12) (hc : |(c : ℝ) - C| ≤ 9 / 10 ^ 12) (h1 : C ^ 2 + S ^ 2 = 1)
    (hd : |(d : ℝ) - D| ≤ 1 / 10 ^ 13) (hD : |D| ≤ 1 / 100) :
    |(M.sin (F.rnd (M.atan2 s c - d)) : ℝ) - Real.sin (atan2 S C - D)| ≤ 31 / 10 ^ 12 ∧
    |(M.cos (F.rnd (M.atan2 s c - d)) : ℝ) - Real.cos (atan2 S C - D)| ≤ 31 / 10 ^ 12 := by
  obtain ⟨k1, k2⟩ := direction_near hs hc h1
  obtain ⟨e1, e2⟩ := atan2_polar S C
  rw [show C * C + S * S = 1 by nlinarith, Real.sqrt_one, one_mul] at e1 e2
  rw [← e1] at k1
  rw [← e2] at k2
  obtain ⟨t1, t2⟩ := turned_near k1 k2 hD
  have ha := M.atan2_err s c
  have hr := atan2_range (s : ℝ) c
  change |(M.atan2 s c : ℝ) - atan2 s c| ≤ 2 / 2 ^ 53 * |atan2 s c| + 1 / 2 ^ 200 at ha
  generalize atan2 (s : ℝ) c = θ at *
  have hp := Real.pi_lt_d2
  have hθ : |θ| ≤ 32 / 10 := by rw [abs_le]; constructor <;> linarith [hr.1, hr.2]
  have ha' : |(M.atan2 s c : ℝ) - θ| ≤ 1 / 10 ^ 15 := by
    have := mul_le_mul_of_nonneg_left hθ (show (0 : ℝ) ≤ 2 / 2 ^ 53 by norm_num)
    have h5 : (2 : ℝ) / 2 ^ 53 * (32 / 10) + 1 / 2 ^ 200 ≤ 1 / 10 ^ 15 := by norm_num
    linarith
  have hu : |(F.rnd (M.atan2 s c - d) : ℝ) - (θ - D)| ≤ 102 / 10 ^ 15 := by
    refine rnd_real F (e := 101 / 10 ^ 15) (A := 4) ?_ ((abs_sub _ _).trans (by linarith)) (by norm_num)
    push_cast
    rw [abs_le] at *
    constructor <;> linarith [ha'.1, ha'.2, hd.1, hd.2]
  have s1 := sin_lib M.toLibm hu
  have c1 := cos_lib M.toLibm hu
  constructor
  · have := abs_sub_le (M.sin (F.rnd (M.atan2 s c - d)) : ℝ) (Real.sin (θ - D)) (Real.sin (atan2 S C - D))
    linarith
  · have := abs_sub_le (M.cos (F.rnd (M.atan2 s c - d)) : ℝ) (Real.cos (θ - D)) (Real.cos (atan2 S C - D))
    linarith

/-! ### The position from distance, argument of latitude, node and inclination -/

theorem orient_part (F : Fl64) {p q s t : ℚ} {P Q S T : ℝ} (hp : |(p : ℝ) - P| ≤ 205 / 10 ^ 15) (hP : |P| ≤ 1) (hs : |(s : ℝ) - S| ≤ 31 / 10 ^ 12) (hS : |S| ≤ 1)
    (hq : |(q : ℝ) - Q| ≤ 205 / 10 ^ 15) (hQ : |Q| ≤ 1) (ht : |(t : ℝ) - T| ≤ 31 / 10 ^ 12) (hT : |T| ≤ 1) :
    |(F.rnd (F.rnd (p * s) + F.rnd (q * t)) : ℝ) - (P * S + Q * T)| ≤ 63 / 10 ^ 12 ∧ |P * S + Q * T| ≤ 2 := by
  obtain ⟨a1, b1⟩ := mulr F hp hs hP hS (E := 313 / 10 ^ 13) (by norm_num)
  obtain ⟨a2, b2⟩ := mulr F hq ht hQ hT (E := 313 / 10 ^ 13) (by norm_num)
  have b : |P * S + Q * T| ≤ 2 := (abs_add_le _ _).trans (by linarith)
  refine ⟨rnd_real F (e := 626 / 10 ^ 13) (A := 2) ?_ b (by norm_num), b⟩
  push_cast
  rw [abs_le] at *
  constructor <;> linarith [a1.1, a1.2, a2.1, a2.2]

theorem scale_part (F : Fl64) {a rk u : ℚ} {RK U : ℝ} (ha : (9 / 10 : ℝ) ≤ a) (hr : |(rk : ℝ) - RK| ≤ 14 / 10 ^ 13 * a) (hR : |RK| ≤ 14 / 10 * a)
    (hu : |(u : ℝ) - U| ≤ 63 / 10 ^ 12) (hU : |U| ≤ 2) :
    |(F.rnd (F.rnd (rk * u) * F.rnd (6378135 / 1000)) : ℝ) - RK * U * earthRadius| ≤ 6 / 10 ^ 7 * a := by
  obtain ⟨a1, b1⟩ := mulr_scaled F ha hr hu hR hU (E := 912 / 10 ^ 13) (by norm_num)
  have hc : |(F.rnd (6378135 / 1000) : ℝ) - earthRadius| ≤ 1 / 10 ^ 12 := by
    have := const_real F (6378135 / 1000) (E := 1 / 10 ^ 12) (by norm_num [abs_of_pos])
    unfold earthRadius
    simpa using this
  have hc1 : |earthRadius| ≤ 6379 := by unfold earthRadius; norm_num [abs_of_pos]
  exact (mulr_scaled F ha a1 hc b1 hc1 (E := 6 / 10 ^ 7) (by norm_num)).1

theorem orient_near (F : Fl64) (M : Libm) {a rk uk xn xi : ℚ} {RK UK XN XI : ℝ} (ha : (9 / 10 : ℝ) ≤ a) (hr : |(rk : ℝ) - RK| ≤ 14 / 10 ^ 13 * a)
    (hR : |RK| ≤ 14 / 10 * a) (hs : |(M.sin uk : ℝ) - Real.sin UK| ≤ 31 / 10 ^ 12) (hc : |(M.cos uk : ℝ) - Real.cos UK| ≤ 31 / 10 ^ 12)
    (hn : |(xn : ℝ) - XN| ≤ 1 / 10 ^ 13) (hi : |(xi : ℝ) - XI| ≤ 1 / 10 ^ 13) :
    |((orientD F M rk uk xn xi).1 : ℝ) - RK * (orientU UK XN XI).x * earthRadius| ≤ 6 / 10 ^ 7 * a ∧
    |((orientD F M rk uk xn xi).2.1 : ℝ) - RK * (orientU UK XN XI).y * earthRadius| ≤ 6 / 10 ^ 7 * a ∧
    |((orientD F M rk uk xn xi).2.2 : ℝ) - RK * (orientU UK XN XI).z * earthRadius| ≤ 6 / 10 ^ 7 * a := by
  have sn : |(M.sin xn : ℝ) - Real.sin XN| ≤ 101 / 10 ^ 15 := (sin_lib M hn).trans (by norm_num)
  have cn : |(M.cos xn : ℝ) - Real.cos XN| ≤ 101 / 10 ^ 15 := (cos_lib M hn).trans (by norm_num)
  have si : |(M.sin xi : ℝ) - Real.sin XI| ≤ 101 / 10 ^ 15 := (sin_lib M hi).trans (by norm_num)
  have ci : |(M.cos xi : ℝ) - Real.cos XI| ≤ 101 / 10 ^ 15 := (cos_lib M hi).trans (by norm_num)
  have sn1 := Real.abs_sin_le_one XN
  have cn1 := Real.abs_cos_le_one XN
  have si1 := Real.abs_sin_le_one XI
  have ci1 := Real.abs_cos_le_one XI
  have su1 := Real.abs_sin_le_one UK
  have cu1 := Real.abs_cos_le_one UK
  have nsn : |((-M.sin xn : ℚ) : ℝ) - -Real.sin XN| ≤ 101 / 10 ^ 15 := by
    push_cast
    rw [show -(M.sin xn : ℝ) - -Real.sin XN = -(M.sin xn - Real.sin XN) by ring, abs_neg]
    exact sn
  obtain ⟨mx, mx1⟩ := mulr F nsn ci (A := 1) (by rw [abs_neg]; exact sn1) ci1 (E := 205 / 10 ^ 15) (by norm_num)
  obtain ⟨my, my1⟩ := mulr F cn ci cn1 ci1 (E := 205 / 10 ^ 15) (by norm_num)
  rw [one_mul] at mx1 my1
  have w : (101 : ℝ) / 10 ^ 15 ≤ 205 / 10 ^ 15 := by norm_num
  obtain ⟨ux, ux1⟩ := orient_part F mx mx1 hs su1 (cn.trans w) cn1 hc cu1
  obtain ⟨uy, uy1⟩ := orient_part F my my1 hs su1 (sn.trans w) sn1 hc cu1
  obtain ⟨uz, uz1⟩ := mulr F si hs si1 su1 (E := 63 / 10 ^ 12) (by norm_num)
  unfold orientD orientU
  dsimp only
  exact ⟨scale_part F ha hr hR ux ux1, scale_part F ha hr hR uy uy1, scale_part F ha hr hR uz (uz1.trans (by norm_num))⟩

/-! ### The short-period terms -/

theorem ck2_near (F : Fl64) : Rel (3 / 10 ^ 16) (ck2D F) ck2 := by
  have h1 : |(F.rnd (1082616 / 10 ^ 9) : ℝ) - 1082616 / 10 ^ 9| ≤ 1203 / 10 ^ 22 := by
    have := const_real F (1082616 / 10 ^ 9) (E := 1203 / 10 ^ 22) (by norm_num [abs_of_pos])
    simpa using this
  have h2 : |(ck2D F : ℝ) - 1 / 2 * (1082616 / 10 ^ 9)| ≤ 1204 / 10 ^ 22 := by
    unfold ck2D
    refine rnd_real F (e := 1203 / 10 ^ 22 / 2) (A := 5414 / 10 ^ 7) ?_ (by norm_num [abs_of_pos]) (by norm_num)
    push_cast
    rw [← mul_sub, abs_mul, abs_of_pos (by norm_num : (0 : ℝ) < 1 / 2)]
    linarith
  unfold Rel ck2 xj2
  refine h2.trans (by norm_num)

theorem pl_near (F : Fl64) {a x y : ℚ} (h : (x : ℝ) ^ 2 + (y : ℝ) ^ 2 ≤ (39 / 100) ^ 2) (ha : (9 / 10 : ℝ) ≤ a) :
    Rel (4 / 10 ^ 16) (plD F a x y) (a * (1 - (x * x + y * y))) := by
  obtain ⟨t, l0, l1⟩ := oneElsq_near F h
  unfold plD
  refine Rel.rnd F (a := 24 / 10 ^ 17) ?_ ?_ (by norm_num)
  · unfold Rel
    push_cast
    generalize (1 - (x * x + y * y) : ℝ) = T at *
    rw [← mul_sub, abs_mul, abs_of_pos (by linarith)]
    have := mul_le_mul_of_nonneg_left t (show (0 : ℝ) ≤ a by linarith)
    nlinarith
  · have : (9 / 10 : ℝ) * (8479 / 10000) ≤ a * (1 - (x * x + y * y)) := mul_le_mul ha l0 (by norm_num) (by linarith)
    refine le_trans ?_ this
    norm_num

theorem temps_near (F : Fl64) {a x y : ℚ} (h : (x : ℝ) ^ 2 + (y : ℝ) ^ 2 ≤ (39 / 100) ^ 2) (ha : (9 / 10 : ℝ) ≤ a) (ha1 : (a : ℝ) ≤ 100) :
    |(temp1D F (plD F a x y) : ℝ) - ck2 / (a * (1 - (x * x + y * y)))| ≤ 1 / 10 ^ 18 ∧
    |(temp2D F (plD F a x y) : ℝ) - ck2 / (a * (1 - (x * x + y * y))) / (a * (1 - (x * x + y * y)))| ≤ 2 / 10 ^ 18 ∧
    |ck2 / (a * (1 - (x * x + y * y) : ℝ))| ≤ 71 / 10 ^ 5 ∧
    |ck2 / (a * (1 - (x * x + y * y))) / (a * (1 - (x * x + y * y) : ℝ))| ≤ 94 / 10 ^ 5 := by
  obtain ⟨_, l0, l1⟩ := oneElsq_near F h
  have hp := pl_near F h ha
  have hk := ck2_near F
  have P0 : (763 / 1000 : ℝ) ≤ a * (1 - (x * x + y * y)) := by
    have : (9 / 10 : ℝ) * (8479 / 10000) ≤ a * (1 - (x * x + y * y)) := mul_le_mul ha l0 (by norm_num) (by linarith)
    linarith
  have P1 : (a * (1 - (x * x + y * y)) : ℝ) ≤ 100 := by nlinarith
  generalize (a * (1 - (x * x + y * y)) : ℝ) = P at *
  have hPp : 0 < P := by linarith
  have k0 : (541 / 10 ^ 6 : ℝ) ≤ ck2 := by unfold ck2 xj2; norm_num
  have k1 : ck2 ≤ 5414 / 10 ^ 7 := by unfold ck2 xj2; norm_num
  have kp : 0 < ck2 := by linarith
  have T1l : 5 / 10 ^ 6 ≤ ck2 / P := by rw [le_div_iff₀ hPp]; linarith
  have T1u : ck2 / P ≤ 71 / 10 ^ 5 := by rw [div_le_iff₀ hPp]; linarith
  have T2l : 5 / 10 ^ 8 ≤ ck2 / P / P := by rw [le_div_iff₀ hPp]; linarith
  have T2u : ck2 / P / P ≤ 94 / 10 ^ 5 := by rw [div_le_iff₀ hPp]; linarith
  have r1 : Rel (1 / 10 ^ 15) (temp1D F (plD F a x y)) (ck2 / P) := by
    unfold temp1D
    refine Rel.rnd F (a := 8 / 10 ^ 16) ?_ (le_trans (by norm_num) T1l) (by norm_num)
    push_cast
    exact Rel.div hk hp kp hPp (by norm_num) (by norm_num) (by norm_num)
  have r2 : Rel (2 / 10 ^ 15) (temp2D F (plD F a x y)) (ck2 / P / P) := by
    unfold temp2D
    refine Rel.rnd F (a := 15 / 10 ^ 16) ?_ (le_trans (by norm_num) T2l) (by norm_num)
    push_cast
    exact Rel.div r1 hp (by positivity) hPp (by norm_num) (by norm_num) (by norm_num)
  unfold Rel at r1 r2
  refine ⟨r1.trans ?_, r2.trans ?_, ?_, ?_⟩
  · linarith
  · linarith
  · rw [abs_of_pos (by positivity)]; exact T1u
  · rw [abs_of_pos (by positivity)]; exact T2u

theorem trig2_near (F : Fl64) {s c : ℚ} {S C : ℝ} (hs : |(s : ℝ) - S| ≤ 9 / 10 ^ 12) (hc : |(c : ℝ) - C| ≤ 9 / 10 ^ 12) (h1 : C ^ 2 + S ^ 2 = 1) :
    |(sin2uD F s c : ℝ) - 2 * S * C| ≤ 37 / 10 ^ 12 ∧ |2 * S * C| ≤ 1 ∧ |(cos2uD F c : ℝ) - (2 * C * C - 1)| ≤ 37 / 10 ^ 12 ∧ |2 * C * C - 1| ≤ 1 := by
  have hC : |C| ≤ 1 := abs_le_of_sq_le_sq (by nlinarith [sq_nonneg S]) (by norm_num)
  have hS : |S| ≤ 1 := abs_le_of_sq_le_sq (by nlinarith [sq_nonneg C]) (by norm_num)
  have two : ∀ {z : ℚ} {Z : ℝ}, |(z : ℝ) - Z| ≤ 9 / 10 ^ 12 → |Z| ≤ 1 → |(F.rnd (2 * z) : ℝ) - 2 * Z| ≤ 1801 / 10 ^ 14 ∧ |2 * Z| ≤ 2 := by
    intro z Z hz hZ
    have h2 : |2 * Z| ≤ 2 := by rw [abs_mul, abs_of_pos (by norm_num : (0 : ℝ) < 2)]; linarith
    refine ⟨rnd_real F (e := 18 / 10 ^ 12) (A := 2) ?_ h2 (by norm_num), h2⟩
    push_cast
    rw [← mul_sub, abs_mul, abs_of_pos (by norm_num : (0 : ℝ) < 2)]
    linarith
  obtain ⟨s1, s2⟩ := two hs hS
  obtain ⟨c1, c2⟩ := two hc hC
  have b1 : |2 * S * C| ≤ 1 := by rw [abs_le]; constructor <;> nlinarith [sq_nonneg (S + C), sq_nonneg (S - C)]
  have b2 : |2 * C * C - 1| ≤ 1 := by rw [abs_le]; constructor <;> nlinarith [sq_nonneg S, sq_nonneg C]
  refine ⟨(mulr F s1 hc s2 hC (by norm_num)).1, b1, ?_, b2⟩
  have m := (mulr F c1 hc c2 hC (E := 362 / 10 ^ 13) (by norm_num)).1
  unfold cos2uD
  refine rnd_real F (e := 362 / 10 ^ 13) (A := 1) ?_ b2 (by norm_num)
  push_cast
  rw [abs_le] at *
  constructor <;> linarith [m.1, m.2]

theorem incl_near (F : Fl64) {c : ℚ} (hc : |(c : ℝ)| ≤ 1) :
    |(F.rnd (F.rnd (3 * F.rnd (c * c)) - 1) : ℝ) - (3 * (c * c) - 1)| ≤ 1 / 10 ^ 15 ∧ |(3 * (c * c) - 1 : ℝ)| ≤ 2 ∧
    |(F.rnd (1 - F.rnd (c * c)) : ℝ) - (1 - c * c)| ≤ 3 / 10 ^ 16 ∧ |(1 - c * c : ℝ)| ≤ 1 ∧
    |(F.rnd (F.rnd (7 * F.rnd (c * c)) - 1) : ℝ) - (7 * (c * c) - 1)| ≤ 3 / 10 ^ 15 ∧ |(7 * (c * c) - 1 : ℝ)| ≤ 6 := by
  have q0 : (0 : ℝ) ≤ c * c := mul_self_nonneg _
  have q1 : (c * c : ℝ) ≤ 1 := by obtain ⟨u, v⟩ := abs_le.1 hc; nlinarith
  have hq : |(F.rnd (c * c) : ℝ) - c * c| ≤ 112 / 10 ^ 18 := by
    refine rnd_real F (e := 0) (A := 1) (by push_cast; simp) (by rw [abs_of_nonneg q0]; exact q1) (by norm_num)
  generalize F.rnd (c * c) = q at *
  generalize (c * c : ℝ) = Q at *
  have b3 : |3 * Q - 1| ≤ 2 := by rw [abs_le]; constructor <;> linarith
  have b1 : |1 - Q| ≤ 1 := by rw [abs_le]; constructor <;> linarith
  have b7 : |7 * Q - 1| ≤ 6 := by rw [abs_le]; constructor <;> linarith
  have m3 : |(F.rnd (3 * q) : ℝ) - 3 * Q| ≤ 7 / 10 ^ 16 := by
    refine rnd_real F (e := 336 / 10 ^ 18) (A := 3) ?_ (by rw [abs_of_nonneg (by linarith)]; linarith) (by norm_num)
    push_cast
    rw [← mul_sub, abs_mul, abs_of_pos (by norm_num : (0 : ℝ) < 3)]
    linarith
  have m7 : |(F.rnd (7 * q) : ℝ) - 7 * Q| ≤ 16 / 10 ^ 16 := by
    refine rnd_real F (e := 784 / 10 ^ 18) (A := 7) ?_ (by rw [abs_of_nonneg (by linarith)]; linarith) (by norm_num)
    push_cast
    rw [← mul_sub, abs_mul, abs_of_pos (by norm_num : (0 : ℝ) < 7)]
    linarith
  refine ⟨rnd_real F (e := 7 / 10 ^ 16) (A := 2) ?_ b3 (by norm_num), b3, rnd_real F (e := 112 / 10 ^ 18) (A := 1) ?_ b1 (by norm_num), b1,
    rnd_real F (e := 16 / 10 ^ 16) (A := 6) ?_ b7 (by norm_num), b7⟩ <;>
  · push_cast
    rw [abs_le] at *
    constructor <;> linarith [m3.1, m3.2, hq.1, hq.2, m7.1, m7.2]

theorem scal_near (F : Fl64) {t : ℚ} {T e A E : ℝ} (k : ℚ) (hk : 0 < k) (ht : |(t : ℝ) - T| ≤ e) (hT : |T| ≤ A)
    (hE : k * e + (k * A + k * e) / 2 ^ 53 + 1 / 2 ^ 200 ≤ E) : |(F.rnd (k * t) : ℝ) - k * T| ≤ E ∧ |k * T| ≤ k * A := by
  have hk' : (0 : ℝ) < k := by exact_mod_cast hk
  have h2 : |k * T| ≤ k * A := by rw [abs_mul, abs_of_pos hk']; exact mul_le_mul_of_nonneg_left hT hk'.le
  refine ⟨rnd_real F ?_ h2 hE, h2⟩
  push_cast
  rw [← mul_sub, abs_mul, abs_of_pos hk']
  exact mul_le_mul_of_nonneg_left ht hk'.le

theorem rk_near (F : Fl64) {a r pl b cosio c2 : ℚ} {W T1 T2 B C2 : ℝ} (ha : (9 / 10 : ℝ) ≤ a) (hr : |(r : ℝ) - a * W| ≤ 134 / 10 ^ 14 * a)
    (hW : |W| ≤ 139 / 100) (h1 : |(temp1D F pl : ℝ) - T1| ≤ 1 / 10 ^ 18) (h2 : |(temp2D F pl : ℝ) - T2| ≤ 2 / 10 ^ 18)
    (hT1 : |T1| ≤ 71 / 10 ^ 5) (hT2 : |T2| ≤ 94 / 10 ^ 5) (hb : |(b : ℝ) - B| ≤ 4 / 10 ^ 16) (hB : |B| ≤ 1) (hc : |(cosio : ℝ)| ≤ 1)
    (h3 : |(c2 : ℝ) - C2| ≤ 37 / 10 ^ 12) (hC2 : |C2| ≤ 1) :
    |(rkD F r pl b cosio c2 : ℝ) - (a * W * (1 - 3 / 2 * T2 * B * (3 * (cosio * cosio) - 1)) + 1 / 2 * T1 * (1 - cosio * cosio) * C2)| ≤ 14 / 10 ^ 13 * a ∧
    |a * W * (1 - 3 / 2 * T2 * B * (3 * (cosio * cosio) - 1)) + 1 / 2 * T1 * (1 - cosio * cosio) * C2| ≤ 14 / 10 * a := by
  obtain ⟨i3, i3b, i1, i1b, _, _⟩ := incl_near F hc
  generalize (3 * (cosio * cosio) - 1 : ℝ) = X3 at *
  generalize (1 - cosio * cosio : ℝ) = S2 at *
  obtain ⟨g1, g1b⟩ := scal_near F (3 / 2) (by norm_num) h2 hT2 (E := 4 / 10 ^ 18) (by norm_num)
  obtain ⟨g2, g2b⟩ := mulr F g1 hb g1b hB (E := 1 / 10 ^ 17) (by norm_num)
  obtain ⟨g3, g3b⟩ := mulr F g2 i3 g2b i3b (E := 3 / 10 ^ 17) (by norm_num)
  obtain ⟨f1, f1b⟩ := scal_near F (1 / 2) (by norm_num) h1 hT1 (E := 1 / 10 ^ 18) (by norm_num)
  obtain ⟨f2, f2b⟩ := mulr F f1 i1 f1b i1b (E := 2 / 10 ^ 18) (by norm_num)
  obtain ⟨f3, f3b⟩ := mulr F f2 h3 f2b hC2 (E := 2 / 10 ^ 14) (by norm_num)
  push_cast at g1 g1b g2 g2b g3 g3b f1 f1b f2 f2b f3 f3b
  unfold rkD
  dsimp only
  generalize F.rnd (F.rnd (F.rnd (3 / 2 * temp2D F pl) * b) * F.rnd (F.rnd (3 * F.rnd (cosio * cosio)) - 1)) = g at *
  generalize F.rnd (F.rnd (F.rnd (1 / 2 * temp1D F pl) * F.rnd (1 - F.rnd (cosio * cosio))) * c2) = f at *
  generalize 3 / 2 * T2 * B * X3 = G at *
  generalize 1 / 2 * T1 * S2 * C2 = H at *
  have g3b' : |G| ≤ 3 / 1000 := g3b.trans (by norm_num)
  have f3b' : |H| ≤ 4 / 10000 := f3b.trans (by norm_num)
  have kb : |1 - G| ≤ 1003 / 1000 := by rw [abs_le] at *; constructor <;> linarith [g3b'.1, g3b'.2]
  have k : |(F.rnd (1 - g) : ℝ) - (1 - G)| ≤ 2 / 10 ^ 16 := by
    refine rnd_real F (e := 3 / 10 ^ 17) (A := 1003 / 1000) ?_ kb (by norm_num)
    push_cast
    rw [show (1 - (g : ℝ) - (1 - G)) = -(g - G) by ring, abs_neg]
    exact g3
  have aW : |a * W| ≤ 139 / 100 * a := by
    rw [abs_mul, abs_of_pos (by linarith)]
    nlinarith
  obtain ⟨m, mb⟩ := mulr_scaled F ha hr k aW kb (E := 135 / 10 ^ 14) (by norm_num)
  have tot : |a * W * (1 - G) + H| ≤ 14 / 10 * a := by
    refine (abs_add_le _ _).trans ?_
    linarith
  refine ⟨rnd_scaled F (e := 138 / 10 ^ 14) (A := 14 / 10) ha ?_ tot (by norm_num), tot⟩
  push_cast
  rw [abs_le] at *
  constructor <;> linarith [m.1, m.2, f3.1, f3.2]

theorem ukterm_near (F : Fl64) {pl cosio s2 : ℚ} {T2 S2 : ℝ} (h2 : |(temp2D F pl : ℝ) - T2| ≤ 2 / 10 ^ 18) (hT2 : |T2| ≤ 94 / 10 ^ 5) (hc : |(cosio : ℝ)| ≤ 1)
    (h3 : |(s2 : ℝ) - S2| ≤ 37 / 10 ^ 12) (hS2 : |S2| ≤ 1) :
    |(F.rnd (F.rnd (F.rnd (1 / 4 * temp2D F pl) * F.rnd (F.rnd (7 * F.rnd (cosio * cosio)) - 1)) * s2) : ℝ) - 1 / 4 * T2 * (7 * (cosio * cosio) - 1) * S2|
      ≤ 1 / 10 ^ 13 ∧ |1 / 4 * T2 * (7 * (cosio * cosio) - 1) * S2| ≤ 1 / 100 := by
  obtain ⟨_, _, _, _, i7, i7b⟩ := incl_near F hc
  obtain ⟨g1, g1b⟩ := scal_near F (1 / 4) (by norm_num) h2 hT2 (E := 1 / 10 ^ 18) (by norm_num)
  obtain ⟨g2, g2b⟩ := mulr F g1 i7 g1b i7b (E := 1 / 10 ^ 17) (by norm_num)
  obtain ⟨g3, g3b⟩ := mulr F g2 h3 g2b hS2 (E := 1 / 10 ^ 13) (by norm_num)
  push_cast at g3 g3b
  exact ⟨g3, g3b.trans (by norm_num)⟩

theorem nodek_near (F : Fl64) {xnode pl cosio s2 : ℚ} {T2 S2 : ℝ} (hn : |(xnode : ℝ)| ≤ 100) (h2 : |(temp2D F pl : ℝ) - T2| ≤ 2 / 10 ^ 18) (hT2 : |T2| ≤ 94 / 10 ^ 5)
    (hc : |(cosio : ℝ)| ≤ 1) (h3 : |(s2 : ℝ) - S2| ≤ 37 / 10 ^ 12) (hS2 : |S2| ≤ 1) :
    |(nodekD F xnode pl cosio s2 : ℝ) - (xnode + 3 / 2 * T2 * cosio * S2)| ≤ 1 / 10 ^ 13 := by
  obtain ⟨g1, g1b⟩ := scal_near F (3 / 2) (by norm_num) h2 hT2 (E := 4 / 10 ^ 18) (by norm_num)
  obtain ⟨g2, g2b⟩ := mulr F g1 (y := cosio) (Y := cosio) (f := 0) (by simp) g1b hc (E := 5 / 10 ^ 18) (by norm_num)
  obtain ⟨g3, g3b⟩ := mulr F g2 h3 g2b hS2 (E := 53 / 10 ^ 15) (by norm_num)
  push_cast at g3 g3b
  unfold nodekD
  have tb : |(xnode : ℝ) + 3 / 2 * T2 * cosio * S2| ≤ 101 := (abs_add_le _ _).trans (by linarith)
  refine rnd_real F (e := 53 / 10 ^ 15) (A := 101) ?_ tb (by norm_num)
  push_cast
  rw [show (xnode : ℝ) + F.rnd (F.rnd (F.rnd (3 / 2 * temp2D F pl) * cosio) * s2) - (xnode + 3 / 2 * T2 * cosio * S2)
    = F.rnd (F.rnd (F.rnd (3 / 2 * temp2D F pl) * cosio) * s2) - 3 / 2 * T2 * cosio * S2 by ring]
  exact g3

theorem inck_near (F : Fl64) {xincl pl cosio sinio c2 : ℚ} {T2 C2 : ℝ} (hn : |(xincl : ℝ)| ≤ 100) (h2 : |(temp2D F pl : ℝ) - T2| ≤ 2 / 10 ^ 18) (hT2 : |T2| ≤ 94 / 10 ^ 5)
    (hc : |(cosio : ℝ)| ≤ 1) (hs : |(sinio : ℝ)| ≤ 1) (h3 : |(c2 : ℝ) - C2| ≤ 37 / 10 ^ 12) (hC2 : |C2| ≤ 1) :
    |(inckD F xincl pl cosio sinio c2 : ℝ) - (xincl + 3 / 2 * T2 * cosio * sinio * C2)| ≤ 1 / 10 ^ 13 := by
  obtain ⟨g1, g1b⟩ := scal_near F (3 / 2) (by norm_num) h2 hT2 (E := 4 / 10 ^ 18) (by norm_num)
  obtain ⟨g2, g2b⟩ := mulr F g1 (y := cosio) (Y := cosio) (f := 0) (by simp) g1b hc (E := 5 / 10 ^ 18) (by norm_num)
  obtain ⟨g2', g2b'⟩ := mulr F g2 (y := sinio) (Y := sinio) (f := 0) (by simp) g2b hs (E := 6 / 10 ^ 18) (by norm_num)
  obtain ⟨g3, g3b⟩ := mulr F g2' h3 g2b' hC2 (E := 53 / 10 ^ 15) (by norm_num)
  push_cast at g3 g3b
  unfold inckD
  have tb : |(xincl : ℝ) + 3 / 2 * T2 * cosio * sinio * C2| ≤ 101 := (abs_add_le _ _).trans (by linarith)
  refine rnd_real F (e := 53 / 10 ^ 15) (A := 101) ?_ tb (by norm_num)
  push_cast
  rw [show (xincl : ℝ) + F.rnd (F.rnd (F.rnd (F.rnd (3 / 2 * temp2D F pl) * cosio) * sinio) * c2) - (xincl + 3 / 2 * T2 * cosio * sinio * C2)
    = F.rnd (F.rnd (F.rnd (F.rnd (3 / 2 * temp2D F pl) * cosio) * sinio) * c2) - 3 / 2 * T2 * cosio * sinio * C2 by ring]
  exact g3

/-- The position for an eccentric longitude within `1.7 * 10 ^ -12` of `R`. -/
theorem shortPos_near (F : Fl64) (M : GeoLib) {a x y xnode xincl cosio sinio E : ℚ} {R : ℝ} (m : Mean) (hm : m.a = a ∧ m.xnode = xnode ∧ m.xincl = xincl ∧
    m.cosio = cosio ∧ m.sinio = sinio) (h : (x : ℝ) ^ 2 + (y : ℝ) ^ 2 ≤ (39 / 100) ^ 2) (hE : |(E : ℝ) - R| ≤ 17 / 10 ^ 13)
    (ha : (9 / 10 : ℝ) ≤ a) (ha1 : (a : ℝ) ≤ 100) (hn : |(xnode : ℝ)| ≤ 100) (hi : |(xincl : ℝ)| ≤ 100) (hc : |(cosio : ℝ)| ≤ 1) (hs : |(sinio : ℝ)| ≤ 1) :
    let p := shortPosD F M a x y xnode xincl cosio sinio E
    let P := (posVelOf ck2 x y m R).1
    |(p.1 : ℝ) - P.x| ≤ 6 / 10 ^ 7 * a ∧ |(p.2.1 : ℝ) - P.y| ≤ 6 / 10 ^ 7 * a ∧ |(p.2.2 : ℝ) - P.z| ≤ 6 / 10 ^ 7 * a := by
  obtain ⟨m1, m2, m3, m4, m5⟩ := hm
  intro p P
  have cu := cosu_near F M.toLibm h hE ha
  have su := sinu_near F M.toLibm h hE ha
  obtain ⟨dr, _, _, w0, w1⟩ := dist_near F M.toLibm h hE ha
  obtain ⟨t1, t2, t1b, t2b⟩ := temps_near F h ha ha1
  obtain ⟨b, b0, b1⟩ := betal_near F M.toLibm h
  have hell := C93_ellipse (a := a) (x := x) (y := y) (E := R) (by linarith) (by linarith)
  have hp : P = (posVelOf ck2 x y m R).1 := rfl
  unfold posVelOf at hp
  rw [m1, m2, m3, m4, m5] at hp
  have hr : (shortPrelim a x y R).1 = a * (1 - ec x y R) := rfl
  generalize shortPrelim a x y R = q at *
  obtain ⟨r, C, S⟩ := q
  dsimp only at hell hp hr cu su
  rw [hr] at hp
  have h1 := hell.2.1
  obtain ⟨s2, s2b, c2, c2b⟩ := trig2_near F su cu h1
  obtain ⟨rk, rkb⟩ := rk_near F ha dr (by rw [abs_of_pos (by linarith)]; exact w1) t1 t2 t1b t2b b (by rw [abs_of_pos (by linarith)]; exact b1) hc c2 c2b
  obtain ⟨ut, utb⟩ := ukterm_near F t2 t2b hc s2 s2b
  obtain ⟨us, uc⟩ := uk_near F M su cu h1 ut utb
  have nk := nodek_near F hn t2 t2b hc s2 s2b
  have ik := inck_near F hi t2 t2b hc hs c2 c2b
  have := orient_near F M.toLibm ha rk rkb us uc nk ik
  rw [hp]
  exact this

/-- **C205**: for eccentricities up to 0.39 and axes from 0.9 to 100 Earth radii `sxpx_posn_vel` finds in `double` a position that differs in each
coordinate by at most `6 * 10 ^ -7` km per Earth radius of the axis from the position of exact arithmetic for the exact solution of Kepler's equation. -/
theorem C205_position (F : Fl64) (M : GeoLib) {a x y w ecc xnode xincl cosio sinio : ℚ} (m : Mean) (hm : m.a = a ∧ m.xnode = xnode ∧ m.xincl = xincl ∧
    m.cosio = cosio ∧ m.sinio = sinio) (h : (x : ℝ) ^ 2 + (y : ℝ) ^ 2 ≤ (39 / 100) ^ 2)
    (ha : (9 / 10 : ℝ) ≤ a) (ha1 : (a : ℝ) ≤ 100) (hn : |(xnode : ℝ)| ≤ 100) (hi : |(xincl : ℝ)| ≤ 100) (hc : |(cosio : ℝ)| ≤ 1) (hs : |(sinio : ℝ)| ≤ 1) :
    ∃ (p : ℚ × ℚ × ℚ) (R : ℝ), posnD F M a x y w ecc xnode xincl cosio sinio = some p ∧ KeplerEq x y (centralizeD F w) R ∧
      |(p.1 : ℝ) - (posVelOf ck2 x y m R).1.x| ≤ 6 / 10 ^ 7 * a ∧ |(p.2.1 : ℝ) - (posVelOf ck2 x y m R).1.y| ≤ 6 / 10 ^ 7 * a ∧
      |(p.2.2 : ℝ) - (posVelOf ck2 x y m R).1.z| ≤ 6 / 10 ^ 7 * a := by
  obtain ⟨E, R, h1, h2, h3⟩ := C204_solved F M.toLibm x y w ecc h
  refine ⟨shortPosD F M a x y xnode xincl cosio sinio E, R, ?_, h2, shortPos_near F M m hm h h3 ha ha1 hn hi hc hs⟩
  unfold posnD
  rw [h1]
  rfl

/-- The oblateness terms in `double`, for a low orbit. -/
example : ⌊temp1D Fl64.ieee (plD Fl64.ieee (17 / 16) (1 / 8) 0) * 10 ^ 12⌋ = 517553120 ∧
    ⌊rkD Fl64.ieee 1 (17 / 16) 1 (1 / 2) (1 / 4) * 10 ^ 9⌋ = 1000227574 := by decide +kernel

/-- An orbit of 430 km height and an inclination of 60 degrees is within the hypotheses. -/
example (F : Fl64) (M : GeoLib) : ∃ p, posnD F M (171 / 160) (1 / 1000) (-1 / 2000) 7 (1 / 900) 2 (22 / 21) (1 / 2) (13 / 15) = some p := by
  obtain ⟨p, _, hp, _⟩ := C205_position F M (a := 171 / 160) (x := 1 / 1000) (y := -1 / 2000) (w := 7) (ecc := 1 / 900) (xnode := 2) (xincl := 22 / 21)
    (cosio := 1 / 2) (sinio := 13 / 15) ⟨2, 171 / 160, 1 / 900, 1 / 2, 13 / 15, 22 / 21, 0, 9⟩
    (by push_cast; exact ⟨rfl, rfl, rfl, rfl, rfl⟩) (by norm_num) (by norm_num) (by norm_num) (by norm_num [abs_of_pos])
    (by norm_num [abs_of_pos]) (by norm_num [abs_of_pos]) (by norm_num [abs_of_pos])
  exact ⟨p, hp⟩

end SatSky.Props
