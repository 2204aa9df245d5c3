import Verif.Model.LongDouble
import Verif.Props.PosnDouble

/-! C206: the position of `sxpx_posn_vel` in `double` arithmetic from its arguments, with the long-period terms. -/

namespace SatSky.Props

open SatSky.Spec SatSky.Geo SatSky.Relative SatSky.Sxp SatSky.Kep

/-! ### The position for a nearby eccentricity vector

The estimates of `PosnDouble` with room for the errors of the eccentricity vector and of the mean longitude. -/

theorem ecc_part2_w (F : Fl64) {x s : ℚ} {X S : ℝ} (hx : |X| ≤ 39 / 100) (ex : |(x : ℝ) - X| ≤ 3 / 10 ^ 15) (hs : |(s : ℝ) - S| ≤ 7001 / 10 ^ 15) (hS : |S| ≤ 1) :
    |(F.rnd (x * s) : ℝ) - X * S| ≤ 274 / 10 ^ 14 :=
  (mulr F ex hs hx hS (by norm_num)).1

theorem lib_at_w (M : Libm) {E : ℚ} {R : ℝ} (hE : |(E : ℝ) - R| ≤ 7 / 10 ^ 12) :
    |(M.sin E : ℝ) - Real.sin R| ≤ 7001 / 10 ^ 15 ∧ |(M.cos E : ℝ) - Real.cos R| ≤ 7001 / 10 ^ 15 :=
  ⟨(sin_lib M hE).trans (by norm_num), (cos_lib M hE).trans (by norm_num)⟩

theorem esinE_at_w (F : Fl64) (M : Libm) {x y E : ℚ} {X Y R : ℝ} (h : X ^ 2 + Y ^ 2 ≤ (39 / 100) ^ 2) (ex : |(x : ℝ) - X| ≤ 3 / 10 ^ 15)
    (ey : |(y : ℝ) - Y| ≤ 3 / 10 ^ 15) (hE : |(E : ℝ) - R| ≤ 7 / 10 ^ 12) :
    |(esinED F M x y E : ℝ) - es X Y R| ≤ 549 / 10 ^ 14 := by
  obtain ⟨hx, hy⟩ := comp_39 h
  obtain ⟨s1, c1⟩ := lib_at_w M hE
  have p1 := ecc_part2_w F hx ex s1 (Real.abs_sin_le_one _)
  have p2 := ecc_part2_w F hy ey c1 (Real.abs_cos_le_one _)
  have hb := abs_es (by norm_num) h R
  unfold esinED
  refine rnd_real F (e := 548 / 10 ^ 14) (A := 39 / 100) ?_ hb (by norm_num)
  unfold es
  push_cast
  rw [abs_le] at *
  constructor <;> linarith [p1.1, p1.2, p2.1, p2.2]

theorem ecosE_at_w (F : Fl64) (M : Libm) {x y E : ℚ} {X Y R : ℝ} (h : X ^ 2 + Y ^ 2 ≤ (39 / 100) ^ 2) (ex : |(x : ℝ) - X| ≤ 3 / 10 ^ 15)
    (ey : |(y : ℝ) - Y| ≤ 3 / 10 ^ 15) (hE : |(E : ℝ) - R| ≤ 7 / 10 ^ 12) :
    |(ecosED F M x y E : ℝ) - ec X Y R| ≤ 549 / 10 ^ 14 := by
  obtain ⟨hx, hy⟩ := comp_39 h
  obtain ⟨s1, c1⟩ := lib_at_w M hE
  have p1 := ecc_part2_w F hx ex c1 (Real.abs_cos_le_one _)
  have p2 := ecc_part2_w F hy ey s1 (Real.abs_sin_le_one _)
  have hb := abs_ec (by norm_num) h R
  unfold ecosED
  refine rnd_real F (e := 548 / 10 ^ 14) (A := 39 / 100) ?_ hb (by norm_num)
  unfold ec
  push_cast
  rw [abs_le] at *
  constructor <;> linarith [p1.1, p1.2, p2.1, p2.2]

theorem oneElsq_near_w (F : Fl64) {x y : ℚ} {X Y : ℝ} (h : X ^ 2 + Y ^ 2 ≤ (39 / 100) ^ 2) (ex : |(x : ℝ) - X| ≤ 3 / 10 ^ 15)
    (ey : |(y : ℝ) - Y| ≤ 3 / 10 ^ 15) :
    |(oneElsqD F x y : ℝ) - (1 - (X * X + Y * Y))| ≤ 6 / 10 ^ 15 ∧ 8479 / 10000 ≤ 1 - (X * X + Y * Y) ∧ 1 - (X * X + Y * Y) ≤ 1 := by
  obtain ⟨hx, hy⟩ := comp_39 h
  have px := sq_nonneg X
  have py := sq_nonneg Y
  have l0 : 8479 / 10000 ≤ 1 - (X * X + Y * Y) := by nlinarith
  have l1 : 1 - (X * X + Y * Y) ≤ 1 := by nlinarith
  refine ⟨?_, l0, l1⟩
  have a1 := (mulr F ex ex hx hx (E := 24 / 10 ^ 16) (by norm_num)).1
  have a2 := (mulr F ey ey hy hy (E := 24 / 10 ^ 16) (by norm_num)).1
  have a3 : |(F.rnd (F.rnd (x * x) + F.rnd (y * y)) : ℝ) - (X * X + Y * Y)| ≤ 5 / 10 ^ 15 := by
    refine rnd_real F (e := 48 / 10 ^ 16) (A := 16 / 100) ?_ (by rw [abs_of_nonneg (add_nonneg (mul_self_nonneg _) (mul_self_nonneg _))]; nlinarith) (by norm_num)
    push_cast
    rw [abs_le] at *
    constructor <;> linarith [a1.1, a1.2, a2.1, a2.2]
  unfold oneElsqD
  refine rnd_real F (e := 5 / 10 ^ 15) (A := 1) ?_ (by rw [abs_of_nonneg (by linarith)]; exact l1) (by norm_num)
  push_cast
  rw [abs_le] at *
  constructor <;> linarith [a3.1, a3.2]

theorem betal_near_w (F : Fl64) (M : Libm) {x y : ℚ} {X Y : ℝ} (h : X ^ 2 + Y ^ 2 ≤ (39 / 100) ^ 2) (ex : |(x : ℝ) - X| ≤ 3 / 10 ^ 15)
    (ey : |(y : ℝ) - Y| ≤ 3 / 10 ^ 15) :
    |(M.sqrt (oneElsqD F x y) : ℝ) - √(1 - (X * X + Y * Y))| ≤ 7 / 10 ^ 15 ∧ (92 / 100 : ℝ) ≤ √(1 - (X * X + Y * Y)) ∧ √(1 - (X * X + Y * Y) : ℝ) ≤ 1 := by
  obtain ⟨a, l0, l1⟩ := oneElsq_near_w F h ex ey
  have b0 : (92 / 100 : ℝ) ≤ √(1 - (X * X + Y * Y)) := Real.le_sqrt_of_sq_le (by linarith)
  have b1 : √(1 - (X * X + Y * Y) : ℝ) ≤ 1 := Real.sqrt_le_iff.2 ⟨by norm_num, by linarith⟩
  refine ⟨?_, b0, b1⟩
  have o0 : (81 / 100 : ℝ) ≤ oneElsqD F x y := by linarith [(abs_le.1 a).1]
  have o0' : 0 ≤ oneElsqD F x y := by
    have : (0 : ℝ) ≤ oneElsqD F x y := by linarith
    exact_mod_cast this
  have s1 := M.sqrt_err _ o0'
  have s2 := sqrt_near a o0 (by linarith)
  have s3 : √(oneElsqD F x y : ℝ) ≤ 11 / 10 := by
    have := (abs_le.1 s2).2
    linarith
  have s4 := mul_le_mul_of_nonneg_left s3 (show (0 : ℝ) ≤ 1 / 2 ^ 53 by norm_num)
  have := abs_sub_le (M.sqrt (oneElsqD F x y) : ℝ) √(oneElsqD F x y : ℝ) √(1 - (X * X + Y * Y) : ℝ)
  have n1 : (1 : ℝ) / 2 ^ 53 * (11 / 10) + 1 / 2 ^ 200 ≤ 2 / 10 ^ 16 := by norm_num
  linarith

theorem tempu_near_w (F : Fl64) (M : Libm) {x y E : ℚ} {X Y R : ℝ} (h : X ^ 2 + Y ^ 2 ≤ (39 / 100) ^ 2) (ex : |(x : ℝ) - X| ≤ 3 / 10 ^ 15)
    (ey : |(y : ℝ) - Y| ≤ 3 / 10 ^ 15) (hE : |(E : ℝ) - R| ≤ 7 / 10 ^ 12) :
    |(tempuD F M x y E : ℝ) - es X Y R / (1 + √(1 - (X * X + Y * Y)))| ≤ 289 / 10 ^ 14 ∧ |es X Y R / (1 + √(1 - (X * X + Y * Y) : ℝ))| ≤ 21 / 100 := by
  obtain ⟨b, b0, b1⟩ := betal_near_w F M h ex ey
  have s := esinE_at_w F M h ex ey hE
  have hs := abs_es (by norm_num) h R
  generalize √(1 - (X * X + Y * Y) : ℝ) = B at *
  have hQ : |es X Y R / (1 + B)| ≤ 21 / 100 := by
    rw [abs_div, abs_of_pos (by linarith : 0 < 1 + B), div_le_iff₀ (by linarith)]; linarith
  refine ⟨?_, hQ⟩
  have d : |(F.rnd (1 + M.sqrt (oneElsqD F x y)) : ℝ) - (1 + B)| ≤ 8 / 10 ^ 15 := by
    refine rnd_real F (e := 7 / 10 ^ 15) (A := 2) ?_ (by rw [abs_of_pos (by linarith)]; linarith) (by norm_num)
    push_cast
    rw [show (1 + (M.sqrt (oneElsqD F x y) : ℝ) - (1 + B)) = M.sqrt (oneElsqD F x y) - B by ring]
    exact b
  unfold tempuD
  refine rnd_real F (e := 288 / 10 ^ 14) (A := 21 / 100) ?_ hQ (by norm_num)
  push_cast
  exact quot_real s d (m := 191 / 100) (by linarith) (by norm_num) hQ (by norm_num)

theorem dist_near_w (F : Fl64) (M : Libm) {a x y E : ℚ} {X Y R : ℝ} (h : X ^ 2 + Y ^ 2 ≤ (39 / 100) ^ 2) (ex : |(x : ℝ) - X| ≤ 3 / 10 ^ 15)
    (ey : |(y : ℝ) - Y| ≤ 3 / 10 ^ 15) (hE : |(E : ℝ) - R| ≤ 7 / 10 ^ 12)
    (ha : (9 / 10 : ℝ) ≤ a) :
    |(distD F M a x y E : ℝ) - a * (1 - ec X Y R)| ≤ 551 / 10 ^ 14 * a ∧
    |(F.rnd (a / distD F M a x y E) : ℝ) - a / (a * (1 - ec X Y R))| ≤ 15 / 10 ^ 12 ∧ |a / (a * (1 - ec X Y R))| ≤ 164 / 100 ∧
    61 / 100 ≤ 1 - ec X Y R ∧ 1 - ec X Y R ≤ 139 / 100 := by
  have hc := abs_le.1 (abs_ec (by norm_num) h R)
  have c := ecosE_at_w F M h ex ey hE
  have w0 : 61 / 100 ≤ 1 - ec X Y R := by linarith [hc.2]
  have w1 : 1 - ec X Y R ≤ 139 / 100 := by linarith [hc.1]
  have w : |(F.rnd (1 - ecosED F M x y E) : ℝ) - (1 - ec X Y R)| ≤ 550 / 10 ^ 14 := by
    refine rnd_real F (e := 549 / 10 ^ 14) (A := 139 / 100) ?_ (by rw [abs_of_pos (by linarith)]; exact w1) (by norm_num)
    push_cast
    rw [show (1 - (ecosED F M x y E : ℝ) - (1 - ec X Y R)) = -(ecosED F M x y E - ec X Y R) by ring, abs_neg]
    exact c
  generalize 1 - ec X Y R = W at *
  have d : |(distD F M a x y E : ℝ) - a * W| ≤ 551 / 10 ^ 14 * a := by
    unfold distD
    refine rnd_real F (e := 550 / 10 ^ 14 * a) (A := 139 / 100 * a) ?_ ?_ ?_
    · push_cast
      rw [← mul_sub, abs_mul, abs_of_pos (by linarith)]
      nlinarith
    · rw [abs_of_pos (by nlinarith)]
      nlinarith
    · have : (1 : ℝ) / 2 ^ 200 ≤ 1 / 10 ^ 30 := by norm_num
      have : (139 / 100 * (a : ℝ) + 550 / 10 ^ 14 * a) / 2 ^ 53 ≤ 2 / 10 ^ 16 * a := by
        rw [div_le_iff₀ (by norm_num)]
        nlinarith
      linarith
  refine ⟨d, ?_, ?_, w0, w1⟩
  · refine rnd_real F (e := 149 / 10 ^ 13) (A := 164 / 100) ?_ ?_ (by norm_num)
    · push_cast
      have hW : (a : ℝ) / (a * W) = 1 / W := by field_simp
      have hd0 : 60 / 100 * (a : ℝ) ≤ distD F M a x y E := by nlinarith [(abs_le.1 d).1]
      have hdp : 0 < (distD F M a x y E : ℝ) := by linarith
      have e1 : (a : ℝ) / distD F M a x y E - a / (a * W) = -((distD F M a x y E : ℝ) - a * W) / (distD F M a x y E * W) := by
        rw [hW]; field_simp; ring
      rw [e1, abs_div, abs_neg, abs_of_pos (mul_pos hdp (by linarith)), div_le_iff₀ (mul_pos hdp (by linarith))]
      refine d.trans ?_
      have hd1 : (61 / 100 - 1 / 10 ^ 9) * (a : ℝ) ≤ distD F M a x y E := by nlinarith [(abs_le.1 d).1]
      have := mul_le_mul hd1 w0 (by norm_num) hdp.le
      nlinarith
    · have hW : (a : ℝ) / (a * W) = 1 / W := by field_simp
      rw [hW, abs_of_pos (by positivity), div_le_iff₀ (by linarith)]
      linarith
  · have hW : (a : ℝ) / (a * W) = 1 / W := by field_simp
    rw [hW, abs_of_pos (by positivity), div_le_iff₀ (by linarith)]
    linarith

theorem cosu_near_w (F : Fl64) (M : Libm) {a x y E : ℚ} {X Y R : ℝ} (h : X ^ 2 + Y ^ 2 ≤ (39 / 100) ^ 2) (ex : |(x : ℝ) - X| ≤ 3 / 10 ^ 15)
    (ey : |(y : ℝ) - Y| ≤ 3 / 10 ^ 15) (hE : |(E : ℝ) - R| ≤ 7 / 10 ^ 12)
    (ha : (9 / 10 : ℝ) ≤ a) : |(cosuD F M a x y E : ℝ) - (shortPrelim a X Y R).2.1| ≤ 36 / 10 ^ 12 := by
  obtain ⟨hx, hy⟩ := comp_39 h
  obtain ⟨_, c1⟩ := lib_at_w M hE
  obtain ⟨t, t1⟩ := tempu_near_w F M h ex ey hE
  obtain ⟨_, q, q1, _, _⟩ := dist_near_w F M h ex ey hE ha
  have hR := Real.abs_cos_le_one R
  unfold cosuD shortPrelim
  dsimp only
  rw [show X * Real.sin R - Y * Real.cos R = es X Y R from rfl, show X * Real.cos R + Y * Real.sin R = ec X Y R from rfl]
  generalize es X Y R / (1 + √(1 - (X * X + Y * Y) : ℝ)) = T at *
  generalize (a : ℝ) / (a * (1 - ec X Y R)) = Q at *
  have g0 : |Real.cos R - X| ≤ 139 / 100 := (abs_sub _ _).trans (by linarith)
  have g1 : |(F.rnd (M.cos E - x) : ℝ) - (Real.cos R - X)| ≤ 701 / 10 ^ 14 := by
    refine rnd_real F (e := 7004 / 10 ^ 15) (A := 139 / 100) ?_ g0 (by norm_num)
    push_cast
    rw [abs_le] at *
    constructor <;> linarith [c1.1, c1.2, ex.1, ex.2]
  have yT : |Y * T| ≤ 9 / 100 := by
    rw [abs_mul]
    have := mul_le_mul hy t1 (abs_nonneg _) (by norm_num)
    linarith
  have g2 := (mulr F ey t hy t1 (E := 114 / 10 ^ 14) (by norm_num)).1
  have k0 : |Real.cos R - X + Y * T| ≤ 148 / 100 := (abs_add_le _ _).trans (by linarith)
  have g3 : |(F.rnd (F.rnd (M.cos E - x) + F.rnd (y * tempuD F M x y E)) : ℝ) - (Real.cos R - X + Y * T)| ≤ 816 / 10 ^ 14 := by
    refine rnd_real F (e := 815 / 10 ^ 14) (A := 148 / 100) ?_ k0 (by norm_num)
    push_cast
    rw [abs_le] at *
    constructor <;> linarith [g1.1, g1.2, g2.1, g2.2]
  have p := mul_real q g3 q1 k0
  refine rnd_real F (e := 359 / 10 ^ 13) (A := 3) ?_ ?_ (by norm_num)
  · push_cast
    exact p.trans (by norm_num)
  · rw [abs_mul]
    have := mul_le_mul q1 k0 (abs_nonneg _) (by norm_num)
    linarith

theorem sinu_near_w (F : Fl64) (M : Libm) {a x y E : ℚ} {X Y R : ℝ} (h : X ^ 2 + Y ^ 2 ≤ (39 / 100) ^ 2) (ex : |(x : ℝ) - X| ≤ 3 / 10 ^ 15)
    (ey : |(y : ℝ) - Y| ≤ 3 / 10 ^ 15) (hE : |(E : ℝ) - R| ≤ 7 / 10 ^ 12)
    (ha : (9 / 10 : ℝ) ≤ a) : |(sinuD F M a x y E : ℝ) - (shortPrelim a X Y R).2.2| ≤ 36 / 10 ^ 12 := by
  obtain ⟨hx, hy⟩ := comp_39 h
  obtain ⟨c1, _⟩ := lib_at_w M hE
  obtain ⟨t, t1⟩ := tempu_near_w F M h ex ey hE
  obtain ⟨_, q, q1, _, _⟩ := dist_near_w F M h ex ey hE ha
  have hR := Real.abs_sin_le_one R
  unfold sinuD shortPrelim
  dsimp only
  rw [show X * Real.sin R - Y * Real.cos R = es X Y R from rfl, show X * Real.cos R + Y * Real.sin R = ec X Y R from rfl]
  generalize es X Y R / (1 + √(1 - (X * X + Y * Y) : ℝ)) = T at *
  generalize (a : ℝ) / (a * (1 - ec X Y R)) = Q at *
  have g0 : |Real.sin R - Y| ≤ 139 / 100 := (abs_sub _ _).trans (by linarith)
  have g1 : |(F.rnd (M.sin E - y) : ℝ) - (Real.sin R - Y)| ≤ 701 / 10 ^ 14 := by
    refine rnd_real F (e := 7004 / 10 ^ 15) (A := 139 / 100) ?_ g0 (by norm_num)
    push_cast
    rw [abs_le] at *
    constructor <;> linarith [c1.1, c1.2, ey.1, ey.2]
  have yT : |X * T| ≤ 9 / 100 := by
    rw [abs_mul]
    have := mul_le_mul hx t1 (abs_nonneg _) (by norm_num)
    linarith
  have g2 := (mulr F ex t hx t1 (E := 114 / 10 ^ 14) (by norm_num)).1
  have k0 : |Real.sin R - Y - X * T| ≤ 148 / 100 := (abs_sub _ _).trans (by linarith)
  have g3 : |(F.rnd (F.rnd (M.sin E - y) - F.rnd (x * tempuD F M x y E)) : ℝ) - (Real.sin R - Y - X * T)| ≤ 816 / 10 ^ 14 := by
    refine rnd_real F (e := 815 / 10 ^ 14) (A := 148 / 100) ?_ k0 (by norm_num)
    push_cast
    rw [abs_le] at *
    constructor <;> linarith [g1.1, g1.2, g2.1, g2.2]
  have p := mul_real q g3 q1 k0
  refine rnd_real F (e := 359 / 10 ^ 13) (A := 3) ?_ ?_ (by norm_num)
  · push_cast
    exact p.trans (by norm_num)
  · rw [abs_mul]
    have := mul_le_mul q1 k0 (abs_nonneg _) (by norm_num)
    linarith

theorem direction_near_w {s c S C : ℝ} (hs : |s - S| ≤ 36 / 10 ^ 12) (hc : |c - C| ≤ 36 / 10 ^ 12) (h1 : C ^ 2 + S ^ 2 = 1) :
    |Real.cos (atan2 s c) - C| ≤ 12 / 10 ^ 11 ∧ |Real.sin (atan2 s c) - S| ≤ 12 / 10 ^ 11 := by
  obtain ⟨p1, p2⟩ := atan2_polar s c
  have hC : |C| ≤ 1 := abs_le_of_sq_le_sq (by nlinarith [sq_nonneg S]) (by norm_num)
  have hS : |S| ≤ 1 := abs_le_of_sq_le_sq (by nlinarith [sq_nonneg C]) (by norm_num)
  have n1 := Real.abs_cos_le_one (atan2 s c)
  have n2 := Real.abs_sin_le_one (atan2 s c)
  generalize Real.cos (atan2 s c) = k at *
  generalize Real.sin (atan2 s c) = m at *
  have hq0 : 0 ≤ √(c * c + s * s) := Real.sqrt_nonneg _
  have hqq : √(c * c + s * s) * √(c * c + s * s) = c * c + s * s := Real.mul_self_sqrt (add_nonneg (mul_self_nonneg _) (mul_self_nonneg _))
  generalize √(c * c + s * s) = q at *
  have cc := mul_real hc hc hC hC
  have ss := mul_real hs hs hS hS
  have q1 : |q * q - 1| ≤ 145 / 10 ^ 12 := by
    rw [hqq, show (1 : ℝ) = C * C + S * S by nlinarith]
    rw [abs_le] at *
    constructor <;> linarith [cc.1, cc.2, ss.1, ss.2]
  have q2 : |1 - q| ≤ 8 / 10 ^ 11 := by
    obtain ⟨u, v⟩ := abs_le.1 q1
    rw [abs_le]
    constructor <;> nlinarith
  constructor
  · rw [show k - C = k * (1 - q) + (c - C) by rw [← p1]; ring]
    refine (abs_add_le _ _).trans ?_
    rw [abs_mul]
    have := mul_le_mul n1 q2 (abs_nonneg _) (by norm_num)
    linarith
  · rw [show m - S = m * (1 - q) + (s - S) by rw [← p2]; ring]
    refine (abs_add_le _ _).trans ?_
    rw [abs_mul]
    have := mul_le_mul n2 q2 (abs_nonneg _) (by norm_num)
    linarith

theorem turned_near_w {θ U D : ℝ} (hc : |Real.cos θ - Real.cos U| ≤ 12 / 10 ^ 11) (hs : |Real.sin θ - Real.sin U| ≤ 12 / 10 ^ 11) (hD : |D| ≤ 1 / 100) :
    |Real.cos (θ - D) - Real.cos (U - D)| ≤ 1213 / 10 ^ 13 ∧ |Real.sin (θ - D) - Real.sin (U - D)| ≤ 1213 / 10 ^ 13 := by
  have h1 := Real.abs_cos_le_one D
  have h2 : |Real.sin D| ≤ 1 / 100 := by
    have := Real.abs_sin_sub_sin_le D 0
    rw [Real.sin_zero, sub_zero, sub_zero] at this
    linarith
  rw [Real.cos_sub, Real.cos_sub, Real.sin_sub, Real.sin_sub]
  constructor
  · rw [show Real.cos θ * Real.cos D + Real.sin θ * Real.sin D - (Real.cos U * Real.cos D + Real.sin U * Real.sin D)
      = (Real.cos θ - Real.cos U) * Real.cos D + (Real.sin θ - Real.sin U) * Real.sin D by ring]
    refine (abs_add_le _ _).trans ?_
    rw [abs_mul (Real.cos θ - Real.cos U), abs_mul (Real.sin θ - Real.sin U)]
    have := mul_le_mul hc h1 (abs_nonneg _) (by norm_num)
    have := mul_le_mul hs h2 (abs_nonneg _) (by norm_num)
    linarith
  · rw [show Real.sin θ * Real.cos D - Real.cos θ * Real.sin D - (Real.sin U * Real.cos D - Real.cos U * Real.sin D)
      = (Real.sin θ - Real.sin U) * Real.cos D + -((Real.cos θ - Real.cos U) * Real.sin D) by ring]
    refine (abs_add_le _ _).trans ?_
    rw [abs_neg, abs_mul (Real.cos θ - Real.cos U), abs_mul (Real.sin θ - Real.sin U)]
    have := mul_le_mul hs h1 (abs_nonneg _) (by norm_num)
    have := mul_le_mul hc h2 (abs_nonneg _) (by norm_num)
    linarith

theorem uk_near_w (F : Fl64) (M : GeoLib) {s c d : ℚ} {S C D : ℝ} (hs : |(s : ℝ) - S| ≤ 36 / 10 ^ 12) (hc : |(c : ℝ) - C| ≤ 36 / 10 ^ 12) (h1 : C ^ 2 + S ^ 2 = 1)
    (hd : |(d : ℝ) - D| ≤ 3 / 10 ^ 13) (hD : |D| ≤ 1 / 100) :
    |(M.sin (F.rnd (M.atan2 s c - d)) : ℝ) - Real.sin (atan2 S C - D)| ≤ 122 / 10 ^ 12 ∧
    |(M.cos (F.rnd (M.atan2 s c - d)) : ℝ) - Real.cos (atan2 S C - D)| ≤ 122 / 10 ^ 12 := by
  obtain ⟨k1, k2⟩ := direction_near_w hs hc h1
  obtain ⟨e1, e2⟩ := atan2_polar S C
  rw [show C * C + S * S = 1 by nlinarith, Real.sqrt_one, one_mul] at e1 e2
  rw [← e1] at k1
  rw [← e2] at k2
  obtain ⟨t1, t2⟩ := turned_near_w k1 k2 hD
  have ha := M.atan2_err s c
  have hr := atan2_range (s : ℝ) c
  change |(M.atan2 s c : ℝ) - atan2 s c| ≤ 2 / 2 ^ 53 * |atan2 s c| + 1 / 2 ^ 200 at ha
  generalize atan2 (s : ℝ) c = θ at *
  have hp := Real.pi_lt_d2
  have hθ : |θ| ≤ 32 / 10 := by rw [abs_le]; constructor <;> linarith [hr.1, hr.2]
  have ha' : |(M.atan2 s c : ℝ) - θ| ≤ 1 / 10 ^ 15 := by
    have := mul_le_mul_of_nonneg_left hθ (show (0 : ℝ) ≤ 2 / 2 ^ 53 by norm_num)
    have h5 : (2 : ℝ) / 2 ^ 53 * (32 / 10) + 1 / 2 ^ 200 ≤ 1 / 10 ^ 15 := by norm_num
    linarith
  have hu : |(F.rnd (M.atan2 s c - d) : ℝ) - (θ - D)| ≤ 302 / 10 ^ 15 := by
    refine rnd_real F (e := 301 / 10 ^ 15) (A := 4) ?_ ((abs_sub _ _).trans (by linarith)) (by norm_num)
    push_cast
    rw [abs_le] at *
    constructor <;> linarith [ha'.1, ha'.2, hd.1, hd.2]
  have s1 := sin_lib M.toLibm hu
  have c1 := cos_lib M.toLibm hu
  constructor
  · have := abs_sub_le (M.sin (F.rnd (M.atan2 s c - d)) : ℝ) (Real.sin (θ - D)) (Real.sin (atan2 S C - D))
    linarith
  · have := abs_sub_le (M.cos (F.rnd (M.atan2 s c - d)) : ℝ) (Real.cos (θ - D)) (Real.cos (atan2 S C - D))
    linarith

theorem orient_part_w (F : Fl64) {p q s t : ℚ} {P Q S T : ℝ} (hp : |(p : ℝ) - P| ≤ 605 / 10 ^ 15) (hP : |P| ≤ 1) (hs : |(s : ℝ) - S| ≤ 122 / 10 ^ 12) (hS : |S| ≤ 1)
    (hq : |(q : ℝ) - Q| ≤ 605 / 10 ^ 15) (hQ : |Q| ≤ 1) (ht : |(t : ℝ) - T| ≤ 122 / 10 ^ 12) (hT : |T| ≤ 1) :
    |(F.rnd (F.rnd (p * s) + F.rnd (q * t)) : ℝ) - (P * S + Q * T)| ≤ 246 / 10 ^ 12 ∧ |P * S + Q * T| ≤ 2 := by
  obtain ⟨a1, b1⟩ := mulr F hp hs hP hS (E := 1227 / 10 ^ 13) (by norm_num)
  obtain ⟨a2, b2⟩ := mulr F hq ht hQ hT (E := 1227 / 10 ^ 13) (by norm_num)
  have b : |P * S + Q * T| ≤ 2 := (abs_add_le _ _).trans (by linarith)
  refine ⟨rnd_real F (e := 2454 / 10 ^ 13) (A := 2) ?_ b (by norm_num), b⟩
  push_cast
  rw [abs_le] at *
  constructor <;> linarith [a1.1, a1.2, a2.1, a2.2]

theorem scale_part_w (F : Fl64) {a rk u : ℚ} {RK U : ℝ} (ha : (9 / 10 : ℝ) ≤ a) (hr : |(rk : ℝ) - RK| ≤ 57 / 10 ^ 13 * a) (hR : |RK| ≤ 14 / 10 * a)
    (hu : |(u : ℝ) - U| ≤ 246 / 10 ^ 12) (hU : |U| ≤ 2) :
    |(F.rnd (F.rnd (rk * u) * F.rnd (6378135 / 1000)) : ℝ) - RK * U * earthRadius| ≤ 23 / 10 ^ 7 * a := by
  obtain ⟨a1, b1⟩ := mulr_scaled F ha hr hu hR hU (E := 356 / 10 ^ 12) (by norm_num)
  have hc : |(F.rnd (6378135 / 1000) : ℝ) - earthRadius| ≤ 1 / 10 ^ 12 := by
    have := const_real F (6378135 / 1000) (E := 1 / 10 ^ 12) (by norm_num [abs_of_pos])
    unfold earthRadius
    simpa using this
  have hc1 : |earthRadius| ≤ 6379 := by unfold earthRadius; norm_num [abs_of_pos]
  exact (mulr_scaled F ha a1 hc b1 hc1 (E := 23 / 10 ^ 7) (by norm_num)).1

theorem orient_near_w (F : Fl64) (M : Libm) {a rk uk xn xi : ℚ} {RK UK XN XI : ℝ} (ha : (9 / 10 : ℝ) ≤ a) (hr : |(rk : ℝ) - RK| ≤ 57 / 10 ^ 13 * a)
    (hR : |RK| ≤ 14 / 10 * a) (hs : |(M.sin uk : ℝ) - Real.sin UK| ≤ 122 / 10 ^ 12) (hc : |(M.cos uk : ℝ) - Real.cos UK| ≤ 122 / 10 ^ 12)
    (hn : |(xn : ℝ) - XN| ≤ 3 / 10 ^ 13) (hi : |(xi : ℝ) - XI| ≤ 3 / 10 ^ 13) :
    |((orientD F M rk uk xn xi).1 : ℝ) - RK * (orientU UK XN XI).x * earthRadius| ≤ 23 / 10 ^ 7 * a ∧
    |((orientD F M rk uk xn xi).2.1 : ℝ) - RK * (orientU UK XN XI).y * earthRadius| ≤ 23 / 10 ^ 7 * a ∧
    |((orientD F M rk uk xn xi).2.2 : ℝ) - RK * (orientU UK XN XI).z * earthRadius| ≤ 23 / 10 ^ 7 * a := by
  have sn : |(M.sin xn : ℝ) - Real.sin XN| ≤ 301 / 10 ^ 15 := (sin_lib M hn).trans (by norm_num)
  have cn : |(M.cos xn : ℝ) - Real.cos XN| ≤ 301 / 10 ^ 15 := (cos_lib M hn).trans (by norm_num)
  have si : |(M.sin xi : ℝ) - Real.sin XI| ≤ 301 / 10 ^ 15 := (sin_lib M hi).trans (by norm_num)
  have ci : |(M.cos xi : ℝ) - Real.cos XI| ≤ 301 / 10 ^ 15 := (cos_lib M hi).trans (by norm_num)
  have sn1 := Real.abs_sin_le_one XN
  have cn1 := Real.abs_cos_le_one XN
  have si1 := Real.abs_sin_le_one XI
  have ci1 := Real.abs_cos_le_one XI
  have su1 := Real.abs_sin_le_one UK
  have cu1 := Real.abs_cos_le_one UK
  have nsn : |((-M.sin xn : ℚ) : ℝ) - -Real.sin XN| ≤ 301 / 10 ^ 15 := by
    push_cast
    rw [show -(M.sin xn : ℝ) - -Real.sin XN = -(M.sin xn - Real.sin XN) by ring, abs_neg]
    exact sn
  obtain ⟨mx, mx1⟩ := mulr F nsn ci (A := 1) (by rw [abs_neg]; exact sn1) ci1 (E := 605 / 10 ^ 15) (by norm_num)
  obtain ⟨my, my1⟩ := mulr F cn ci cn1 ci1 (E := 605 / 10 ^ 15) (by norm_num)
  rw [one_mul] at mx1 my1
  have w : (301 : ℝ) / 10 ^ 15 ≤ 605 / 10 ^ 15 := by norm_num
  obtain ⟨ux, ux1⟩ := orient_part_w F mx mx1 hs su1 (cn.trans w) cn1 hc cu1
  obtain ⟨uy, uy1⟩ := orient_part_w F my my1 hs su1 (sn.trans w) sn1 hc cu1
  obtain ⟨uz, uz1⟩ := mulr F si hs si1 su1 (E := 246 / 10 ^ 12) (by norm_num)
  unfold orientD orientU
  dsimp only
  exact ⟨scale_part_w F ha hr hR ux ux1, scale_part_w F ha hr hR uy uy1, scale_part_w F ha hr hR uz (uz1.trans (by norm_num))⟩

theorem pl_near_w (F : Fl64) {a x y : ℚ} {X Y : ℝ} (h : X ^ 2 + Y ^ 2 ≤ (39 / 100) ^ 2) (ex : |(x : ℝ) - X| ≤ 3 / 10 ^ 15)
    (ey : |(y : ℝ) - Y| ≤ 3 / 10 ^ 15) (ha : (9 / 10 : ℝ) ≤ a) :
    Rel (8 / 10 ^ 15) (plD F a x y) (a * (1 - (X * X + Y * Y))) := by
  obtain ⟨t, l0, l1⟩ := oneElsq_near_w F h ex ey
  unfold plD
  refine Rel.rnd F (a := 75 / 10 ^ 16) ?_ ?_ (by norm_num)
  · unfold Rel
    push_cast
    generalize (1 - (X * X + Y * Y) : ℝ) = T at *
    rw [← mul_sub, abs_mul, abs_of_pos (by linarith)]
    have := mul_le_mul_of_nonneg_left t (show (0 : ℝ) ≤ a by linarith)
    nlinarith
  · have : (9 / 10 : ℝ) * (8479 / 10000) ≤ a * (1 - (X * X + Y * Y)) := mul_le_mul ha l0 (by norm_num) (by linarith)
    refine le_trans ?_ this
    norm_num

theorem temps_near_w (F : Fl64) {a x y : ℚ} {X Y : ℝ} (h : X ^ 2 + Y ^ 2 ≤ (39 / 100) ^ 2) (ex : |(x : ℝ) - X| ≤ 3 / 10 ^ 15)
    (ey : |(y : ℝ) - Y| ≤ 3 / 10 ^ 15) (ha : (9 / 10 : ℝ) ≤ a) (ha1 : (a : ℝ) ≤ 100) :
    |(temp1D F (plD F a x y) : ℝ) - ck2 / (a * (1 - (X * X + Y * Y)))| ≤ 1 / 10 ^ 17 ∧
    |(temp2D F (plD F a x y) : ℝ) - ck2 / (a * (1 - (X * X + Y * Y))) / (a * (1 - (X * X + Y * Y)))| ≤ 2 / 10 ^ 17 ∧
    |ck2 / (a * (1 - (X * X + Y * Y) : ℝ))| ≤ 71 / 10 ^ 5 ∧
    |ck2 / (a * (1 - (X * X + Y * Y))) / (a * (1 - (X * X + Y * Y) : ℝ))| ≤ 94 / 10 ^ 5 := by
  obtain ⟨_, l0, l1⟩ := oneElsq_near_w F h ex ey
  have hp := pl_near_w F h ex ey ha
  have hk := ck2_near F
  have P0 : (763 / 1000 : ℝ) ≤ a * (1 - (X * X + Y * Y)) := by
    have : (9 / 10 : ℝ) * (8479 / 10000) ≤ a * (1 - (X * X + Y * Y)) := mul_le_mul ha l0 (by norm_num) (by linarith)
    linarith
  have P1 : (a * (1 - (X * X + Y * Y)) : ℝ) ≤ 100 := by nlinarith
  generalize (a * (1 - (X * X + Y * Y)) : ℝ) = P at *
  have hPp : 0 < P := by linarith
  have k0 : (541 / 10 ^ 6 : ℝ) ≤ ck2 := by unfold ck2 xj2; norm_num
  have k1 : ck2 ≤ 5414 / 10 ^ 7 := by unfold ck2 xj2; norm_num
  have kp : 0 < ck2 := by linarith
  have T1l : 5 / 10 ^ 6 ≤ ck2 / P := by rw [le_div_iff₀ hPp]; linarith
  have T1u : ck2 / P ≤ 71 / 10 ^ 5 := by rw [div_le_iff₀ hPp]; linarith
  have T2l : 5 / 10 ^ 8 ≤ ck2 / P / P := by rw [le_div_iff₀ hPp]; linarith
  have T2u : ck2 / P / P ≤ 94 / 10 ^ 5 := by rw [div_le_iff₀ hPp]; linarith
  have r1 : Rel (1 / 10 ^ 14) (temp1D F (plD F a x y)) (ck2 / P) := by
    unfold temp1D
    refine Rel.rnd F (a := 9 / 10 ^ 15) ?_ (le_trans (by norm_num) T1l) (by norm_num)
    push_cast
    exact Rel.div hk hp kp hPp (by norm_num) (by norm_num) (by norm_num)
  have r2 : Rel (2 / 10 ^ 14) (temp2D F (plD F a x y)) (ck2 / P / P) := by
    unfold temp2D
    refine Rel.rnd F (a := 19 / 10 ^ 15) ?_ (le_trans (by norm_num) T2l) (by norm_num)
    push_cast
    exact Rel.div r1 hp (by positivity) hPp (by norm_num) (by norm_num) (by norm_num)
  unfold Rel at r1 r2
  refine ⟨r1.trans ?_, r2.trans ?_, ?_, ?_⟩
  · linarith
  · linarith
  · rw [abs_of_pos (by positivity)]; exact T1u
  · rw [abs_of_pos (by positivity)]; exact T2u

theorem trig2_near_w (F : Fl64) {s c : ℚ} {S C : ℝ} (hs : |(s : ℝ) - S| ≤ 36 / 10 ^ 12) (hc : |(c : ℝ) - C| ≤ 36 / 10 ^ 12) (h1 : C ^ 2 + S ^ 2 = 1) :
    |(sin2uD F s c : ℝ) - 2 * S * C| ≤ 145 / 10 ^ 12 ∧ |2 * S * C| ≤ 1 ∧ |(cos2uD F c : ℝ) - (2 * C * C - 1)| ≤ 145 / 10 ^ 12 ∧ |2 * C * C - 1| ≤ 1 := by
  have hC : |C| ≤ 1 := abs_le_of_sq_le_sq (by nlinarith [sq_nonneg S]) (by norm_num)
  have hS : |S| ≤ 1 := abs_le_of_sq_le_sq (by nlinarith [sq_nonneg C]) (by norm_num)
  have two : ∀ {z : ℚ} {Z : ℝ}, |(z : ℝ) - Z| ≤ 36 / 10 ^ 12 → |Z| ≤ 1 → |(F.rnd (2 * z) : ℝ) - 2 * Z| ≤ 7201 / 10 ^ 14 ∧ |2 * Z| ≤ 2 := by
    intro z Z hz hZ
    have h2 : |2 * Z| ≤ 2 := by rw [abs_mul, abs_of_pos (by norm_num : (0 : ℝ) < 2)]; linarith
    refine ⟨rnd_real F (e := 72 / 10 ^ 12) (A := 2) ?_ h2 (by norm_num), h2⟩
    push_cast
    rw [← mul_sub, abs_mul, abs_of_pos (by norm_num : (0 : ℝ) < 2)]
    linarith
  obtain ⟨s1, s2⟩ := two hs hS
  obtain ⟨c1, c2⟩ := two hc hC
  have b1 : |2 * S * C| ≤ 1 := by rw [abs_le]; constructor <;> nlinarith [sq_nonneg (S + C), sq_nonneg (S - C)]
  have b2 : |2 * C * C - 1| ≤ 1 := by rw [abs_le]; constructor <;> nlinarith [sq_nonneg S, sq_nonneg C]
  refine ⟨(mulr F s1 hc s2 hC (by norm_num)).1, b1, ?_, b2⟩
  have m := (mulr F c1 hc c2 hC (E := 1444 / 10 ^ 13) (by norm_num)).1
  unfold cos2uD
  refine rnd_real F (e := 1444 / 10 ^ 13) (A := 1) ?_ b2 (by norm_num)
  push_cast
  rw [abs_le] at *
  constructor <;> linarith [m.1, m.2]

theorem rk_near_w (F : Fl64) {a r pl b cosio c2 : ℚ} {W T1 T2 B C2 : ℝ} (ha : (9 / 10 : ℝ) ≤ a) (hr : |(r : ℝ) - a * W| ≤ 551 / 10 ^ 14 * a)
    (hW : |W| ≤ 139 / 100) (h1 : |(temp1D F pl : ℝ) - T1| ≤ 1 / 10 ^ 17) (h2 : |(temp2D F pl : ℝ) - T2| ≤ 2 / 10 ^ 17)
    (hT1 : |T1| ≤ 71 / 10 ^ 5) (hT2 : |T2| ≤ 94 / 10 ^ 5) (hb : |(b : ℝ) - B| ≤ 7 / 10 ^ 15) (hB : |B| ≤ 1) (hc : |(cosio : ℝ)| ≤ 1)
    (h3 : |(c2 : ℝ) - C2| ≤ 145 / 10 ^ 12) (hC2 : |C2| ≤ 1) :
    |(rkD F r pl b cosio c2 : ℝ) - (a * W * (1 - 3 / 2 * T2 * B * (3 * (cosio * cosio) - 1)) + 1 / 2 * T1 * (1 - cosio * cosio) * C2)| ≤ 57 / 10 ^ 13 * a ∧
    |a * W * (1 - 3 / 2 * T2 * B * (3 * (cosio * cosio) - 1)) + 1 / 2 * T1 * (1 - cosio * cosio) * C2| ≤ 14 / 10 * a := by
  obtain ⟨i3, i3b, i1, i1b, _, _⟩ := incl_near F hc
  generalize (3 * (cosio * cosio) - 1 : ℝ) = X3 at *
  generalize (1 - cosio * cosio : ℝ) = S2 at *
  obtain ⟨g1, g1b⟩ := scal_near F (3 / 2) (by norm_num) h2 hT2 (E := 31 / 10 ^ 18) (by norm_num)
  obtain ⟨g2, g2b⟩ := mulr F g1 hb g1b hB (E := 45 / 10 ^ 18) (by norm_num)
  obtain ⟨g3, g3b⟩ := mulr F g2 i3 g2b i3b (E := 1 / 10 ^ 16) (by norm_num)
  obtain ⟨f1, f1b⟩ := scal_near F (1 / 2) (by norm_num) h1 hT1 (E := 6 / 10 ^ 18) (by norm_num)
  obtain ⟨f2, f2b⟩ := mulr F f1 i1 f1b i1b (E := 7 / 10 ^ 18) (by norm_num)
  obtain ⟨f3, f3b⟩ := mulr F f2 h3 f2b hC2 (E := 6 / 10 ^ 14) (by norm_num)
  push_cast at g1 g1b g2 g2b g3 g3b f1 f1b f2 f2b f3 f3b
  unfold rkD
  dsimp only
  generalize F.rnd (F.rnd (F.rnd (3 / 2 * temp2D F pl) * b) * F.rnd (F.rnd (3 * F.rnd (cosio * cosio)) - 1)) = g at *
  generalize F.rnd (F.rnd (F.rnd (1 / 2 * temp1D F pl) * F.rnd (1 - F.rnd (cosio * cosio))) * c2) = f at *
  generalize 3 / 2 * T2 * B * X3 = G at *
  generalize 1 / 2 * T1 * S2 * C2 = H at *
  have g3b' : |G| ≤ 3 / 1000 := g3b.trans (by norm_num)
  have f3b' : |H| ≤ 4 / 10000 := f3b.trans (by norm_num)
  have kb : |1 - G| ≤ 1003 / 1000 := by rw [abs_le] at *; constructor <;> linarith [g3b'.1, g3b'.2]
  have k : |(F.rnd (1 - g) : ℝ) - (1 - G)| ≤ 3 / 10 ^ 16 := by
    refine rnd_real F (e := 1 / 10 ^ 16) (A := 1003 / 1000) ?_ kb (by norm_num)
    push_cast
    rw [show (1 - (g : ℝ) - (1 - G)) = -(g - G) by ring, abs_neg]
    exact g3
  have aW : |a * W| ≤ 139 / 100 * a := by
    rw [abs_mul, abs_of_pos (by linarith)]
    nlinarith
  obtain ⟨m, mb⟩ := mulr_scaled F ha hr k aW kb (E := 554 / 10 ^ 14) (by norm_num)
  have tot : |a * W * (1 - G) + H| ≤ 14 / 10 * a := by
    refine (abs_add_le _ _).trans ?_
    linarith
  refine ⟨rnd_scaled F (e := 561 / 10 ^ 14) (A := 14 / 10) ha ?_ tot (by norm_num), tot⟩
  push_cast
  rw [abs_le] at *
  constructor <;> linarith [m.1, m.2, f3.1, f3.2]

theorem ukterm_near_w (F : Fl64) {pl cosio s2 : ℚ} {T2 S2 : ℝ} (h2 : |(temp2D F pl : ℝ) - T2| ≤ 2 / 10 ^ 17) (hT2 : |T2| ≤ 94 / 10 ^ 5) (hc : |(cosio : ℝ)| ≤ 1)
    (h3 : |(s2 : ℝ) - S2| ≤ 145 / 10 ^ 12) (hS2 : |S2| ≤ 1) :
    |(F.rnd (F.rnd (F.rnd (1 / 4 * temp2D F pl) * F.rnd (F.rnd (7 * F.rnd (cosio * cosio)) - 1)) * s2) : ℝ) - 1 / 4 * T2 * (7 * (cosio * cosio) - 1) * S2|
      ≤ 3 / 10 ^ 13 ∧ |1 / 4 * T2 * (7 * (cosio * cosio) - 1) * S2| ≤ 1 / 100 := by
  obtain ⟨_, _, _, _, i7, i7b⟩ := incl_near F hc
  obtain ⟨g1, g1b⟩ := scal_near F (1 / 4) (by norm_num) h2 hT2 (E := 6 / 10 ^ 18) (by norm_num)
  obtain ⟨g2, g2b⟩ := mulr F g1 i7 g1b i7b (E := 4 / 10 ^ 17) (by norm_num)
  obtain ⟨g3, g3b⟩ := mulr F g2 h3 g2b hS2 (E := 3 / 10 ^ 13) (by norm_num)
  push_cast at g3 g3b
  exact ⟨g3, g3b.trans (by norm_num)⟩

theorem nodek_near_w (F : Fl64) {xnode pl cosio s2 : ℚ} {T2 S2 : ℝ} (hn : |(xnode : ℝ)| ≤ 100) (h2 : |(temp2D F pl : ℝ) - T2| ≤ 2 / 10 ^ 17) (hT2 : |T2| ≤ 94 / 10 ^ 5)
    (hc : |(cosio : ℝ)| ≤ 1) (h3 : |(s2 : ℝ) - S2| ≤ 145 / 10 ^ 12) (hS2 : |S2| ≤ 1) :
    |(nodekD F xnode pl cosio s2 : ℝ) - (xnode + 3 / 2 * T2 * cosio * S2)| ≤ 3 / 10 ^ 13 := by
  obtain ⟨g1, g1b⟩ := scal_near F (3 / 2) (by norm_num) h2 hT2 (E := 31 / 10 ^ 18) (by norm_num)
  obtain ⟨g2, g2b⟩ := mulr F g1 (y := cosio) (Y := cosio) (f := 0) (by simp) g1b hc (E := 32 / 10 ^ 18) (by norm_num)
  obtain ⟨g3, g3b⟩ := mulr F g2 h3 g2b hS2 (E := 21 / 10 ^ 14) (by norm_num)
  push_cast at g3 g3b
  unfold nodekD
  have tb : |(xnode : ℝ) + 3 / 2 * T2 * cosio * S2| ≤ 101 := (abs_add_le _ _).trans (by linarith)
  refine rnd_real F (e := 21 / 10 ^ 14) (A := 101) ?_ tb (by norm_num)
  push_cast
  rw [show (xnode : ℝ) + F.rnd (F.rnd (F.rnd (3 / 2 * temp2D F pl) * cosio) * s2) - (xnode + 3 / 2 * T2 * cosio * S2)
    = F.rnd (F.rnd (F.rnd (3 / 2 * temp2D F pl) * cosio) * s2) - 3 / 2 * T2 * cosio * S2 by ring]
  exact g3

theorem inck_near_w (F : Fl64) {xincl pl cosio sinio c2 : ℚ} {T2 C2 : ℝ} (hn : |(xincl : ℝ)| ≤ 100) (h2 : |(temp2D F pl : ℝ) - T2| ≤ 2 / 10 ^ 17) (hT2 : |T2| ≤ 94 / 10 ^ 5)
    (hc : |(cosio : ℝ)| ≤ 1) (hs : |(sinio : ℝ)| ≤ 1) (h3 : |(c2 : ℝ) - C2| ≤ 145 / 10 ^ 12) (hC2 : |C2| ≤ 1) :
    |(inckD F xincl pl cosio sinio c2 : ℝ) - (xincl + 3 / 2 * T2 * cosio * sinio * C2)| ≤ 3 / 10 ^ 13 := by
  obtain ⟨g1, g1b⟩ := scal_near F (3 / 2) (by norm_num) h2 hT2 (E := 31 / 10 ^ 18) (by norm_num)
  obtain ⟨g2, g2b⟩ := mulr F g1 (y := cosio) (Y := cosio) (f := 0) (by simp) g1b hc (E := 32 / 10 ^ 18) (by norm_num)
  obtain ⟨g2', g2b'⟩ := mulr F g2 (y := sinio) (Y := sinio) (f := 0) (by simp) g2b hs (E := 33 / 10 ^ 18) (by norm_num)
  obtain ⟨g3, g3b⟩ := mulr F g2' h3 g2b' hC2 (E := 21 / 10 ^ 14) (by norm_num)
  push_cast at g3 g3b
  unfold inckD
  have tb : |(xincl : ℝ) + 3 / 2 * T2 * cosio * sinio * C2| ≤ 101 := (abs_add_le _ _).trans (by linarith)
  refine rnd_real F (e := 21 / 10 ^ 14) (A := 101) ?_ tb (by norm_num)
  push_cast
  rw [show (xincl : ℝ) + F.rnd (F.rnd (F.rnd (F.rnd (3 / 2 * temp2D F pl) * cosio) * sinio) * c2) - (xincl + 3 / 2 * T2 * cosio * sinio * C2)
    = F.rnd (F.rnd (F.rnd (F.rnd (3 / 2 * temp2D F pl) * cosio) * sinio) * c2) - 3 / 2 * T2 * cosio * sinio * C2 by ring]
  exact g3

/-- The position for an eccentric longitude within `7 * 10 ^ -12` of `R` and an eccentricity vector within `3 * 10 ^ -15` of `(X, Y)`. -/
theorem shortPos_near_w (F : Fl64) (M : GeoLib) {a x y xnode xincl cosio sinio E : ℚ} {X Y R : ℝ} (m : Mean) (hm : m.a = a ∧ m.xnode = xnode ∧ m.xincl = xincl ∧
    m.cosio = cosio ∧ m.sinio = sinio) (h : X ^ 2 + Y ^ 2 ≤ (39 / 100) ^ 2) (ex : |(x : ℝ) - X| ≤ 3 / 10 ^ 15)
    (ey : |(y : ℝ) - Y| ≤ 3 / 10 ^ 15) (hE : |(E : ℝ) - R| ≤ 7 / 10 ^ 12)
    (ha : (9 / 10 : ℝ) ≤ a) (ha1 : (a : ℝ) ≤ 100) (hn : |(xnode : ℝ)| ≤ 100) (hi : |(xincl : ℝ)| ≤ 100) (hc : |(cosio : ℝ)| ≤ 1) (hs : |(sinio : ℝ)| ≤ 1) :
    let p := shortPosD F M a x y xnode xincl cosio sinio E
    let P := (posVelOf ck2 X Y m R).1
    |(p.1 : ℝ) - P.x| ≤ 23 / 10 ^ 7 * a ∧ |(p.2.1 : ℝ) - P.y| ≤ 23 / 10 ^ 7 * a ∧ |(p.2.2 : ℝ) - P.z| ≤ 23 / 10 ^ 7 * a := by
  obtain ⟨m1, m2, m3, m4, m5⟩ := hm
  intro p P
  have cu := cosu_near_w F M.toLibm h ex ey hE ha
  have su := sinu_near_w F M.toLibm h ex ey hE ha
  obtain ⟨dr, _, _, w0, w1⟩ := dist_near_w F M.toLibm h ex ey hE ha
  obtain ⟨t1, t2, t1b, t2b⟩ := temps_near_w F h ex ey ha ha1
  obtain ⟨b, b0, b1⟩ := betal_near_w F M.toLibm h ex ey
  have hell := C93_ellipse (a := a) (x := X) (y := Y) (E := R) (by linarith) (by linarith)
  have hp : P = (posVelOf ck2 X Y m R).1 := rfl
  unfold posVelOf at hp
  rw [m1, m2, m3, m4, m5] at hp
  have hr : (shortPrelim a X Y R).1 = a * (1 - ec X Y R) := rfl
  generalize shortPrelim a X Y R = q at *
  obtain ⟨r, C, S⟩ := q
  dsimp only at hell hp hr cu su
  rw [hr] at hp
  have h1 := hell.2.1
  obtain ⟨s2, s2b, c2, c2b⟩ := trig2_near_w F su cu h1
  obtain ⟨rk, rkb⟩ := rk_near_w F ha dr (by rw [abs_of_pos (by linarith)]; exact w1) t1 t2 t1b t2b b (by rw [abs_of_pos (by linarith)]; exact b1) hc c2 c2b
  obtain ⟨ut, utb⟩ := ukterm_near_w F t2 t2b hc s2 s2b
  obtain ⟨us, uc⟩ := uk_near_w F M su cu h1 ut utb
  have nk := nodek_near_w F hn t2 t2b hc s2 s2b
  have ik := inck_near_w F hi t2 t2b hc hs c2 c2b
  have := orient_near_w F M.toLibm ha rk rkb us uc nk ik
  rw [hp]
  exact this

/-! ### The long-period terms -/

theorem a3ovk2_near (F : Fl64) : |(a3ovk2D F : ℝ) - a3ovk2| ≤ 4 / 10 ^ 18 ∧ |a3ovk2| ≤ 47 / 10 ^ 4 := by
  have hk := ck2_near F
  have k0 : (0 : ℝ) < ck2 := by unfold ck2 xj2; norm_num
  have v0 : a3ovk2 = 253881 / 10 ^ 11 / ck2 := by rfl
  have vl : 46 / 10 ^ 4 ≤ a3ovk2 := by rw [v0]; unfold ck2 xj2; norm_num
  have vu : a3ovk2 ≤ 47 / 10 ^ 4 := by rw [v0]; unfold ck2 xj2; norm_num
  have c : Rel (2 / 10 ^ 16) (F.rnd (253881 / 10 ^ 11)) (253881 / 10 ^ 11) := by
    refine Rel.rnd F (a := 0) (X := 253881 / 10 ^ 11) ?_ (by norm_num) (by norm_num)
    push_cast
    exact Rel.refl _
  have r : Rel (7 / 10 ^ 16) (a3ovk2D F) a3ovk2 := by
    rw [v0]
    unfold a3ovk2D
    refine Rel.rnd F (a := 55 / 10 ^ 17) ?_ (by rw [← v0]; exact le_trans (by norm_num) vl) (by norm_num)
    push_cast
    exact Rel.div c hk (by norm_num) k0 (by norm_num) (by norm_num) (by norm_num)
  unfold Rel at r
  exact ⟨r.trans (by linarith), by rw [abs_of_pos (by linarith)]; exact vu⟩

theorem axn_near (F : Fl64) (M : Libm) {ecc omega : ℚ} (he : |(ecc : ℝ)| ≤ 4 / 10) :
    |(axnD F M ecc omega : ℝ) - ecc * Real.cos omega| ≤ 3 / 10 ^ 16 ∧ |(ecc : ℝ) * Real.cos omega| ≤ 4 / 10 ∧
    |(F.rnd (ecc * M.sin omega) : ℝ) - ecc * Real.sin omega| ≤ 3 / 10 ^ 16 ∧ |(ecc : ℝ) * Real.sin omega| ≤ 4 / 10 := by
  have c := cos_lib M (x := omega) (X := omega) (e := 0) (by simp)
  have s := sin_lib M (x := omega) (X := omega) (e := 0) (by simp)
  obtain ⟨a1, b1⟩ := mulr F (x := ecc) (X := ecc) (e := 0) (by simp) c he (Real.abs_cos_le_one _) (E := 3 / 10 ^ 16) (by norm_num)
  obtain ⟨a2, b2⟩ := mulr F (x := ecc) (X := ecc) (e := 0) (by simp) s he (Real.abs_sin_le_one _) (E := 3 / 10 ^ 16) (by norm_num)
  exact ⟨a1, b1.trans (by norm_num), a2, b2.trans (by norm_num)⟩

theorem ltemp_near (F : Fl64) {a ecc : ℚ} (he : |(ecc : ℝ)| ≤ 4 / 10) (ha : (9 / 10 : ℝ) ≤ a) (ha1 : (a : ℝ) ≤ 100) :
    |(ltempD F a ecc : ℝ) - 1 / (a * (1 - ecc * ecc))| ≤ 12 / 10 ^ 16 ∧ |1 / (a * (1 - ecc * ecc) : ℝ)| ≤ 134 / 100 := by
  obtain ⟨u, v⟩ := abs_le.1 he
  have q0 : (0 : ℝ) ≤ ecc * ecc := mul_self_nonneg _
  have q1 : (ecc * ecc : ℝ) ≤ 16 / 100 := by nlinarith
  have q : |(F.rnd (ecc * ecc) : ℝ) - ecc * ecc| ≤ 2 / 10 ^ 17 :=
    rnd_real F (e := 0) (A := 16 / 100) (by push_cast; simp) (by rw [abs_of_nonneg q0]; exact q1) (by norm_num)
  have w : |(F.rnd (1 - F.rnd (ecc * ecc)) : ℝ) - (1 - ecc * ecc)| ≤ 14 / 10 ^ 17 := by
    refine rnd_real F (e := 2 / 10 ^ 17) (A := 1) ?_ (by rw [abs_of_nonneg (by linarith)]; linarith) (by norm_num)
    push_cast
    rw [abs_le] at *
    constructor <;> linarith [q.1, q.2]
  have w0 : (84 / 100 : ℝ) ≤ 1 - ecc * ecc := by linarith
  have w1 : (1 - ecc * ecc : ℝ) ≤ 1 := by linarith
  have hp : 0 < (1 - ecc * ecc : ℝ) := by linarith
  have r1 : Rel (17 / 10 ^ 17) (F.rnd (1 - F.rnd (ecc * ecc))) (1 - ecc * ecc : ℝ) := by
    unfold Rel
    linarith
  have P0 : (75 / 100 : ℝ) ≤ a * (1 - ecc * ecc) := by
    have := mul_le_mul ha w0 (by norm_num) (by linarith)
    linarith
  have P1 : (a * (1 - ecc * ecc) : ℝ) ≤ 100 := by nlinarith
  have r2 : Rel (3 / 10 ^ 16) (F.rnd (a * F.rnd (1 - F.rnd (ecc * ecc)))) (a * (1 - ecc * ecc) : ℝ) := by
    refine Rel.rnd F (a := 17 / 10 ^ 17) ?_ (le_trans (by norm_num) P0) (by norm_num)
    push_cast
    exact Rel.mul (Rel.refl _) r1 (by linarith) hp le_rfl (by norm_num)
  have P2 : 1 / (a * (1 - ecc * ecc) : ℝ) ≤ 133334 / 100000 := by
    rw [div_le_iff₀ (by linarith)]; linarith
  have P3 : 1 / 100 ≤ 1 / (a * (1 - ecc * ecc) : ℝ) := by
    rw [le_div_iff₀ (by linarith)]; linarith
  have r3 : Rel (5 / 10 ^ 16) (ltempD F a ecc) (1 / (a * (1 - ecc * ecc) : ℝ)) := by
    unfold ltempD
    refine Rel.rnd F (a := 32 / 10 ^ 17) ?_ (le_trans (by norm_num) P3) (by norm_num)
    push_cast
    exact Rel.div (Rel.refl 1) r2 (by norm_num) (by linarith) (by norm_num) (by norm_num) (by norm_num)
  unfold Rel at r3
  exact ⟨r3.trans (by linarith), by rw [abs_of_pos (by linarith)]; linarith⟩

theorem ayn_near (F : Fl64) (M : Libm) {a ecc sinio omega : ℚ} (he : |(ecc : ℝ)| ≤ 4 / 10) (ha : (9 / 10 : ℝ) ≤ a) (ha1 : (a : ℝ) ≤ 100) (hs : |(sinio : ℝ)| ≤ 1) :
    |(aynD F M a ecc sinio omega : ℝ) - (ecc * Real.sin omega + 1 / (a * (1 - ecc * ecc)) * (1 / 4 * a3ovk2 * sinio))| ≤ 4 / 10 ^ 16 := by
  obtain ⟨k, kb⟩ := a3ovk2_near F
  obtain ⟨_, _, s, sb⟩ := axn_near F M (omega := omega) he
  obtain ⟨t, tb⟩ := ltemp_near F he ha ha1
  obtain ⟨g1, g1b⟩ := scal_near F (1 / 4) (by norm_num) k kb (E := 2 / 10 ^ 18) (by norm_num)
  obtain ⟨g2, g2b⟩ := mulr F g1 (y := sinio) (Y := sinio) (f := 0) (by simp) g1b hs (E := 3 / 10 ^ 18) (by norm_num)
  obtain ⟨g3, g3b⟩ := mulr F t g2 tb g2b (E := 1 / 10 ^ 17) (by norm_num)
  push_cast at g3 g3b
  unfold aynD
  refine rnd_real F (e := 31 / 10 ^ 17) (A := 41 / 100) ?_ ((abs_add_le _ _).trans (by linarith)) (by norm_num)
  push_cast
  rw [abs_le] at *
  constructor <;> linarith [s.1, s.2, g3.1, g3.2]

theorem xlcof_near (F : Fl64) {cosio sinio : ℚ} (hc : |(cosio : ℝ)| ≤ 1) (hc1 : (-9 / 10 : ℝ) ≤ cosio) (hs : |(sinio : ℝ)| ≤ 1) :
    |(xlcofD F cosio sinio : ℝ) - 1 / 8 * a3ovk2 * sinio * (3 + 5 * cosio) / (1 + cosio)| ≤ 4 / 10 ^ 16 ∧
    |1 / 8 * a3ovk2 * sinio * (3 + 5 * cosio) / (1 + cosio : ℝ)| ≤ 5 / 100 := by
  obtain ⟨k, kb⟩ := a3ovk2_near F
  obtain ⟨c0, c1⟩ := abs_le.1 hc
  obtain ⟨g1, g1b⟩ := scal_near F (1 / 8) (by norm_num) k kb (E := 1 / 10 ^ 18) (by norm_num)
  obtain ⟨g2, g2b⟩ := mulr F g1 (y := sinio) (Y := sinio) (f := 0) (by simp) g1b hs (E := 2 / 10 ^ 18) (by norm_num)
  obtain ⟨f, fb⟩ := scal_near F 5 (by norm_num) (t := cosio) (T := cosio) (e := 0) (by simp) hc (E := 6 / 10 ^ 16) (by norm_num)
  push_cast at f fb
  have n0 : |3 + 5 * (cosio : ℝ)| ≤ 8 := by rw [abs_le]; constructor <;> linarith
  have n : |(F.rnd (3 + F.rnd (5 * cosio)) : ℝ) - (3 + 5 * cosio)| ≤ 15 / 10 ^ 16 := by
    refine rnd_real F (e := 6 / 10 ^ 16) (A := 8) ?_ n0 (by norm_num)
    push_cast
    rw [abs_le] at *
    constructor <;> linarith [f.1, f.2]
  obtain ⟨g3, g3b⟩ := mulr F g2 n g2b n0 (E := 2 / 10 ^ 17) (by norm_num)
  push_cast at g3 g3b
  have d : |(F.rnd (1 + cosio) : ℝ) - (1 + cosio)| ≤ 23 / 10 ^ 17 :=
    rnd_real F (e := 0) (A := 2) (by push_cast; simp) (by rw [abs_of_nonneg (by linarith)]; linarith) (by norm_num)
  generalize 1 / 8 * a3ovk2 * sinio * (3 + 5 * (cosio : ℝ)) = N at *
  have hQ : |N / (1 + cosio)| ≤ 5 / 100 := by
    rw [abs_div, abs_of_pos (by linarith : (0 : ℝ) < 1 + cosio), div_le_iff₀ (by linarith)]
    linarith
  refine ⟨?_, hQ⟩
  unfold xlcofD
  refine rnd_real F (e := 32 / 10 ^ 17) (A := 5 / 100) ?_ hQ (by norm_num)
  push_cast
  exact quot_real g3 d (m := 99 / 1000) (by linarith) (by norm_num) hQ (by norm_num)

theorem long_near (F : Fl64) (M : Libm) {xnode a ecc cosio sinio omega xl : ℚ} (he : |(ecc : ℝ)| ≤ 4 / 10) (ha : (9 / 10 : ℝ) ≤ a) (ha1 : (a : ℝ) ≤ 100)
    (hc : |(cosio : ℝ)| ≤ 1) (hc1 : (-9 / 10 : ℝ) ≤ cosio) (hs : |(sinio : ℝ)| ≤ 1) (hl : |(xl : ℝ)| ≤ 10000) (hn : |(xnode : ℝ)| ≤ 100) :
    |(longD F M xnode a ecc cosio sinio omega xl : ℝ) -
      (xl + 1 / (a * (1 - ecc * ecc)) * (1 / 8 * a3ovk2 * sinio * (3 + 5 * cosio) / (1 + cosio)) * (ecc * Real.cos omega) - xnode)| ≤ 23 / 10 ^ 13 ∧
    |xl + 1 / (a * (1 - ecc * ecc)) * (1 / 8 * a3ovk2 * sinio * (3 + 5 * cosio) / (1 + cosio)) * (ecc * Real.cos omega) - xnode| ≤ 10101 := by
  obtain ⟨x, xb, _, _⟩ := axn_near F M (omega := omega) he
  obtain ⟨t, tb⟩ := ltemp_near F he ha ha1
  obtain ⟨k, kb⟩ := xlcof_near F hc hc1 hs
  obtain ⟨g1, g1b⟩ := mulr F t k tb kb (E := 1 / 10 ^ 15) (by norm_num)
  obtain ⟨g2, g2b⟩ := mulr F g1 x g1b xb (E := 1 / 10 ^ 15) (by norm_num)
  unfold longD
  generalize 1 / (a * (1 - ecc * ecc)) * (1 / 8 * a3ovk2 * sinio * (3 + 5 * cosio) / (1 + cosio)) * (ecc * Real.cos omega) = G at *
  have b1 : |xl + G| ≤ 10001 := (abs_add_le _ _).trans (by linarith)
  have b2 : |xl + G - xnode| ≤ 10101 := (abs_sub _ _).trans (by linarith)
  have s1 : |(F.rnd (xl + F.rnd (F.rnd (ltempD F a ecc * xlcofD F cosio sinio) * axnD F M ecc omega)) : ℝ) - (xl + G)| ≤ 1113 / 10 ^ 15 := by
    refine rnd_real F (e := 1 / 10 ^ 15) (A := 10001) ?_ b1 (by norm_num)
    push_cast
    rw [abs_le] at *
    constructor <;> linarith [g2.1, g2.2]
  refine ⟨rnd_real F (e := 1113 / 10 ^ 15) (A := 10101) ?_ b2 (by norm_num), b2⟩
  push_cast
  rw [abs_le] at *
  constructor <;> linarith [s1.1, s1.2]

/-- The mean longitude after the reduction. -/
theorem capu_near (F : Fl64) {w : ℚ} {W : ℝ} (hw : |(w : ℝ) - W| ≤ 23 / 10 ^ 13) (hW : |W| ≤ 10101) :
    ∃ k : ℤ, |(centralizeD F w : ℝ) - (centralize_angle W + 2 * Real.pi * k)| ≤ 3 / 10 ^ 12 := by
  obtain ⟨hb, k, hk⟩ := C203_centralize F w
  obtain ⟨_, _, j, hj⟩ := C40_centralize W
  have hb' : |(centralizeD F w : ℝ)| ≤ 32 / 10 := by
    have := abs_real (x := centralizeD F w) (E := 32 / 10) (hb.trans (by unfold piD; norm_num))
    simpa using this
  have hp3 := Real.pi_gt_three
  have hkb : |(k : ℝ)| ≤ 1700 := by
    have h1 : 2 * 3 * |(k : ℝ)| ≤ |2 * Real.pi * k| := by
      rw [abs_mul, abs_of_pos (by linarith : 0 < 2 * Real.pi)]
      exact mul_le_mul_of_nonneg_right (by linarith) (abs_nonneg _)
    have k0 := abs_nonneg (k : ℝ)
    generalize |(k : ℝ)| = K at *
    have h2 : |2 * Real.pi * k| ≤ 4 / 10 ^ 16 * K + 10106 := by
      rw [abs_le] at *
      constructor <;> linarith [hk.1, hk.2, hb'.1, hb'.2, hw.1, hw.2, hW.1, hW.2]
    linarith
  refine ⟨k - j, ?_⟩
  have e : (centralizeD F w : ℝ) - (centralize_angle W + 2 * Real.pi * ((k - j : ℤ) : ℝ)) = (centralizeD F w - (w + 2 * Real.pi * k)) + (w - W) := by
    rw [hj]; push_cast; ring
  rw [e]
  refine (abs_add_le _ _).trans ?_
  linarith

theorem posVelOf_turn (x y : ℝ) (m : Mean) (R : ℝ) (k : ℤ) : (posVelOf ck2 x y m (R + 2 * Real.pi * k)).1 = (posVelOf ck2 x y m R).1 := by
  have c : Real.cos (R + 2 * Real.pi * k) = Real.cos R := by rw [mul_comm (2 * Real.pi)]; exact Real.cos_add_int_mul_two_pi R k
  have s : Real.sin (R + 2 * Real.pi * k) = Real.sin R := by rw [mul_comm (2 * Real.pi)]; exact Real.sin_add_int_mul_two_pi R k
  have p : shortPrelim m.a x y (R + 2 * Real.pi * k) = shortPrelim m.a x y R := by
    unfold shortPrelim
    rw [c, s]
  unfold posVelOf
  dsimp only
  rw [p]

/-- **C206**: from its arguments — the node, axis, eccentricity, inclination, argument of the perigee and mean longitude — `sxpx_posn_vel` finds in
`double` a position that differs in each coordinate by at most `2.3 * 10 ^ -6` km per Earth radius of the axis from the position of exact arithmetic for
the exact solution of Kepler's equation, for axes from 0.9 to 100 Earth radii, an eccentricity up to 0.38 with the long-period terms, inclinations up to
154 degrees, and mean longitudes up to 10000 radians. -/
theorem C206_position (F : Fl64) (M : GeoLib) {xnode a ecc cosio sinio xincl omega xl : ℚ} (m : Mean)
    (hm : m = ⟨xnode, a, ecc, cosio, sinio, xincl, omega, xl⟩) (h : m.axn ^ 2 + m.ayn ^ 2 ≤ (38 / 100) ^ 2)
    (he : |(ecc : ℝ)| ≤ 4 / 10) (ha : (9 / 10 : ℝ) ≤ a) (ha1 : (a : ℝ) ≤ 100) (hn : |(xnode : ℝ)| ≤ 100) (hi : |(xincl : ℝ)| ≤ 100)
    (hc : |(cosio : ℝ)| ≤ 1) (hc1 : (-9 / 10 : ℝ) ≤ cosio) (hs : |(sinio : ℝ)| ≤ 1) (hl : |(xl : ℝ)| ≤ 10000) :
    ∃ (p : ℚ × ℚ × ℚ) (R : ℝ), sxpxPosD F M xnode a ecc cosio sinio xincl omega xl = some p ∧ KeplerEq m.axn m.ayn m.capu R ∧
      |(p.1 : ℝ) - (posVelOf ck2 m.axn m.ayn m R).1.x| ≤ 23 / 10 ^ 7 * a ∧ |(p.2.1 : ℝ) - (posVelOf ck2 m.axn m.ayn m R).1.y| ≤ 23 / 10 ^ 7 * a ∧
      |(p.2.2 : ℝ) - (posVelOf ck2 m.axn m.ayn m R).1.z| ≤ 23 / 10 ^ 7 * a := by
  have ex : |(axnD F M.toLibm ecc omega : ℝ) - m.axn| ≤ 3 / 10 ^ 16 := by rw [hm]; exact (axn_near F M.toLibm he).1
  have ey : |(aynD F M.toLibm a ecc sinio omega : ℝ) - m.ayn| ≤ 4 / 10 ^ 16 := by rw [hm]; exact ayn_near F M.toLibm he ha ha1 hs
  obtain ⟨k, hk⟩ : ∃ k : ℤ, |(centralizeD F (longD F M.toLibm xnode a ecc cosio sinio omega xl) : ℝ) - (m.capu + 2 * Real.pi * k)| ≤ 3 / 10 ^ 12 := by
    obtain ⟨l1, l2⟩ := long_near F M.toLibm (omega := omega) he ha ha1 hc hc1 hs hl hn
    rw [hm]
    exact capu_near F l1 l2
  unfold sxpxPosD posnD
  generalize axnD F M.toLibm ecc omega = x at *
  generalize aynD F M.toLibm a ecc sinio omega = y at *
  generalize longD F M.toLibm xnode a ecc cosio sinio omega xl = w at *
  have hm' : m.a = a ∧ m.xnode = xnode ∧ m.xincl = xincl ∧ m.cosio = cosio ∧ m.sinio = sinio := by rw [hm]; exact ⟨rfl, rfl, rfl, rfl, rfl⟩
  have hpv := posVelOf_turn m.axn m.ayn m
  generalize m.capu = L at *
  generalize hX : m.axn = X at *
  generalize hY : m.ayn = Y at *
  have h39 : X ^ 2 + Y ^ 2 ≤ (39 / 100) ^ 2 := h.trans (by norm_num)
  obtain ⟨bx, by'⟩ := comp_39 h39
  have hxy : (x : ℝ) ^ 2 + (y : ℝ) ^ 2 ≤ (39 / 100) ^ 2 := by
    have q1 := mul_real ex ex bx bx
    have q2 := mul_real ey ey by' by'
    have := (abs_le.1 q1).2
    have := (abs_le.1 q2).2
    nlinarith
  obtain ⟨R0, hR0⟩ := root_exists L (by norm_num) (by norm_num) h39
  obtain ⟨E, R1, h1, h2, h3⟩ := C204_solved F M.toLibm x y w ecc hxy
  rw [keplerEq_iff] at h2
  have hnear := near (e := 39 / 100) (by norm_num) (by norm_num) hxy (E := R0 + 2 * Real.pi * k) h2
  have hcos : Real.cos (R0 + 2 * Real.pi * k) = Real.cos R0 := by rw [mul_comm (2 * Real.pi)]; exact Real.cos_add_int_mul_two_pi R0 k
  have hsin : Real.sin (R0 + 2 * Real.pi * k) = Real.sin R0 := by rw [mul_comm (2 * Real.pi)]; exact Real.sin_add_int_mul_two_pi R0 k
  have hres : |keplerRes x y (centralizeD F w) (R0 + 2 * Real.pi * k)| ≤ 3001 / 10 ^ 15 := by
    have p1 : |((x : ℝ) - X) * Real.sin R0| ≤ 3 / 10 ^ 16 := by
      rw [abs_mul]
      exact (mul_le_mul ex (Real.abs_sin_le_one R0) (abs_nonneg _) (by norm_num)).trans (by norm_num)
    have p2 : |((y : ℝ) - Y) * Real.cos R0| ≤ 4 / 10 ^ 16 := by
      rw [abs_mul]
      exact (mul_le_mul ey (Real.abs_cos_le_one R0) (abs_nonneg _) (by norm_num)).trans (by norm_num)
    unfold keplerRes at hR0 ⊢
    rw [hcos, hsin]
    rw [abs_le] at *
    constructor <;> linarith [p1.1, p1.2, p2.1, p2.2, hk.1, hk.2]
  have hE : |(E : ℝ) - (R0 + 2 * Real.pi * k)| ≤ 7 / 10 ^ 12 := by
    have e1 : |keplerRes x y (centralizeD F w) (R0 + 2 * Real.pi * k)| / (1 - 39 / 100) ≤ 5 / 10 ^ 12 := by
      rw [div_le_iff₀ (by norm_num)]; linarith
    rw [abs_le] at *
    constructor <;> linarith [h3.1, h3.2, hnear.1, hnear.2, e1]
  have key := shortPos_near_w F M m hm' h39 (ex.trans (by norm_num)) (ey.trans (by norm_num)) hE ha ha1 hn hi hc hs
  rw [hpv R0 k] at key
  refine ⟨_, R0, ?_, (keplerEq_iff _ _ _ _).2 hR0, key⟩
  rw [h1]
  rfl

/-- The long-period coefficients in `double` for an inclination of 60 degrees. -/
example : ⌊a3ovk2D Fl64.ieee * 10 ^ 12⌋ = 4690139440 ∧ ⌊xlcofD Fl64.ieee (1 / 2) (13 / 15) * 10 ^ 12⌋ = 1863027610 ∧
    ⌊ltempD Fl64.ieee (17 / 16) (1 / 4) * 10 ^ 12⌋ = 1003921568627 := by decide +kernel

/-- An orbit of 430 km height and an inclination of 60 degrees, 1000 radians after the epoch, is within the hypotheses. -/
example (F : Fl64) (M : GeoLib) : ∃ p, sxpxPosD F M 2 (171 / 160) (1 / 900) (1 / 2) (13 / 15) (22 / 21) 0 1000 = some p := by
  have hb : ((⟨(2 : ℚ), (171 / 160 : ℚ), (1 / 900 : ℚ), (1 / 2 : ℚ), (13 / 15 : ℚ), (22 / 21 : ℚ), (0 : ℚ), (1000 : ℚ)⟩ : Mean).axn) ^ 2 +
      ((⟨(2 : ℚ), (171 / 160 : ℚ), (1 / 900 : ℚ), (1 / 2 : ℚ), (13 / 15 : ℚ), (22 / 21 : ℚ), (0 : ℚ), (1000 : ℚ)⟩ : Mean).ayn) ^ 2 ≤ (38 / 100 : ℝ) ^ 2 := by
    unfold Mean.axn Mean.ayn Mean.temp a3ovk2 ck2 xj2
    push_cast
    rw [Real.cos_zero, Real.sin_zero]
    norm_num
  obtain ⟨p, _, hp, _⟩ := C206_position F M (xnode := 2) (a := 171 / 160) (ecc := 1 / 900) (cosio := 1 / 2) (sinio := 13 / 15) (xincl := 22 / 21) (omega := 0)
    (xl := 1000) _ rfl hb (by norm_num [abs_of_pos]) (by norm_num) (by norm_num) (by norm_num [abs_of_pos]) (by norm_num [abs_of_pos]) (by norm_num [abs_of_pos])
    (by norm_num) (by norm_num [abs_of_pos]) (by norm_num [abs_of_pos])
  exact ⟨p, hp⟩

end SatSky.Props
