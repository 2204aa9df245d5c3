import Verif.Model.EccDouble
import Verif.Props.CoefDouble

/-! C213: the drag coefficient `c4` of the eccentricity in `double` arithmetic. -/

namespace SatSky.Props

open SatSky.Spec SatSky.Geo SatSky.Relative SatSky.Sxp SatSky.Kep

theorem sub_bd {x y A B C : ℝ} (hx : |x| ≤ A) (hy : |y| ≤ B) (h : A + B ≤ C) : |x - y| ≤ C := (abs_sub _ _).trans (by linarith)

section

variable (F : Fl64) {p : RatePar} {eo : ℚ} {N : ℝ} (n : |(etaD F p.aodp eo : ℝ) - N| ≤ 424 / 10 ^ 16) (nb : |N| ≤ 9 / 10)
  (q : |(etasqD F p.aodp eo : ℝ) - N * N| ≤ 77 / 10 ^ 15) (qb : |N * N| ≤ 81 / 100) (e1 : |(eo : ℝ)| ≤ 1)

include n nb q qb e1

theorem c4First_near : |(c4FirstD F p eo : ℝ) - (N * (2 + 1 / 2 * (N * N)) + eo * (1 / 2 + 2 * (N * N)))| ≤ 297 / 10 ^ 15 ∧
    |N * (2 + 1 / 2 * (N * N)) + eo * (1 / 2 + 2 * (N * N))| ≤ 43 / 10 := by
  have h2 : |((2 : ℚ) : ℝ) - 2| ≤ 0 := by norm_num
  have hh : |((1 / 2 : ℚ) : ℝ) - 1 / 2| ≤ 0 := by norm_num
  obtain ⟨a1, b1⟩ := mulr F hh q (A := 1 / 2) (by norm_num [abs_of_pos]) qb (E := 39 / 10 ^ 15) (by norm_num)
  have b2 : |2 + 1 / 2 * (N * N)| ≤ 2405 / 1000 := add_bd (A := 2) (by norm_num [abs_of_pos]) b1 (by norm_num)
  have a2 := addr F h2 a1 b2 (E := 40 / 10 ^ 15) (by norm_num)
  obtain ⟨a3, b3⟩ := mulr F n a2 nb b2 (E := 139 / 10 ^ 15) (by norm_num)
  obtain ⟨a4, b4⟩ := mulr F h2 q (A := 2) (by norm_num [abs_of_pos]) qb (E := 155 / 10 ^ 15) (by norm_num)
  have b5 : |1 / 2 + 2 * (N * N)| ≤ 212 / 100 := add_bd (A := 1 / 2) (by norm_num [abs_of_pos]) b4 (by norm_num)
  have a5 := addr F hh a4 b5 (E := 156 / 10 ^ 15) (by norm_num)
  obtain ⟨a6, b6⟩ := mulr F (self0 eo) a5 e1 b5 (E := 157 / 10 ^ 15) (by norm_num)
  have b7 := add_bd b3 b6 (C := 43 / 10) (by norm_num)
  exact ⟨addr F a3 a6 b7 (by norm_num), b7⟩

omit q qb in
theorem eeta_near : |(eetaD F p.aodp eo : ℝ) - eo * N| ≤ 426 / 10 ^ 16 ∧ |(eo : ℝ) * N| ≤ 1 * (9 / 10) :=
  mulr F (self0 eo) n e1 nb (by norm_num)

theorem c4Zonal_near (c0 : (0 : ℝ) ≤ p.cosio2) (c1 : (p.cosio2 : ℝ) ≤ 1) :
    |(c4ZonalD F p eo : ℝ) - -3 * (3 * p.cosio2 - 1) * (1 - 2 * (eo * N) + N * N * (3 / 2 - 1 / 2 * (eo * N)))| ≤ 18 / 10 ^ 13 ∧
    |-3 * (3 * (p.cosio2 : ℝ) - 1) * (1 - 2 * (eo * N) + N * N * (3 / 2 - 1 / 2 * (eo * N)))| ≤ 27 := by
  obtain ⟨x, xb⟩ := eeta_near F n nb e1
  obtain ⟨y, yb⟩ := x3thm1_near F c0 c1
  have h2 : |((2 : ℚ) : ℝ) - 2| ≤ 0 := by norm_num
  have h1 : |((1 : ℚ) : ℝ) - 1| ≤ 0 := by norm_num
  have hh : |((1 / 2 : ℚ) : ℝ) - 1 / 2| ≤ 0 := by norm_num
  have h3 : |((3 / 2 : ℚ) : ℝ) - 3 / 2| ≤ 0 := by norm_num
  have hm : |((-3 : ℚ) : ℝ) - -3| ≤ 0 := by norm_num
  obtain ⟨a1, b1⟩ := mulr F h2 x (A := 2) (by norm_num [abs_of_pos]) xb (E := 86 / 10 ^ 15) (by norm_num)
  have b2 : |1 - 2 * (eo * N)| ≤ 28 / 10 := sub_bd (A := 1) (by norm_num) b1 (by norm_num)
  have a2 := subr F h1 a1 b2 (E := 87 / 10 ^ 15) (by norm_num)
  obtain ⟨a3, b3⟩ := mulr F hh x (A := 1 / 2) (by norm_num [abs_of_pos]) xb (E := 22 / 10 ^ 15) (by norm_num)
  have b4 : |3 / 2 - 1 / 2 * (eo * N)| ≤ 195 / 100 := sub_bd (A := 3 / 2) (by norm_num [abs_of_pos]) b3 (by norm_num)
  have a4 := subr F h3 a3 b4 (E := 23 / 10 ^ 15) (by norm_num)
  obtain ⟨a5, b5⟩ := mulr F q a4 qb b4 (E := 170 / 10 ^ 15) (by norm_num)
  have b6 := add_bd b2 b5 (C := 44 / 10) (by norm_num)
  have a6 := addr F a2 a5 b6 (E := 258 / 10 ^ 15) (by norm_num)
  obtain ⟨a7, b7⟩ := mulr F hm y (A := 3) (by norm_num) yb (E := 26 / 10 ^ 16) (by norm_num)
  obtain ⟨a8, b8⟩ := mulr F a7 a6 b7 b6 (E := 18 / 10 ^ 13) (by norm_num)
  exact ⟨a8, b8.trans (by norm_num)⟩

theorem c4Perigee_near (M : PowLib) (c0 : (0 : ℝ) ≤ p.cosio2) (c1 : (p.cosio2 : ℝ) ≤ 1) {omegao : ℚ} (ho : |(omegao : ℝ)| ≤ 7) :
    |(c4PerigeeD F M p eo omegao : ℝ) - 3 / 4 * (1 - p.cosio2) * (2 * (N * N) - eo * N * (1 + N * N)) * Real.cos (2 * omegao)| ≤ 237 / 10 ^ 15 ∧
    |3 / 4 * (1 - (p.cosio2 : ℝ)) * (2 * (N * N) - eo * N * (1 + N * N)) * Real.cos (2 * omegao)| ≤ 25 / 10 := by
  obtain ⟨x, xb⟩ := eeta_near F n nb e1
  have h2 : |((2 : ℚ) : ℝ) - 2| ≤ 0 := by norm_num
  have h1 : |((1 : ℚ) : ℝ) - 1| ≤ 0 := by norm_num
  have h3 : |((3 / 4 : ℚ) : ℝ) - 3 / 4| ≤ 0 := by norm_num
  have b1 : |1 - (p.cosio2 : ℝ)| ≤ 1 := by rw [abs_le]; constructor <;> linarith
  have a1 := subr F h1 (self0 p.cosio2) b1 (E := 12 / 10 ^ 17) (by norm_num)
  obtain ⟨a2, b2⟩ := mulr F h3 a1 (A := 3 / 4) (by norm_num [abs_of_pos]) b1 (E := 2 / 10 ^ 16) (by norm_num)
  obtain ⟨a3, b3⟩ := mulr F h2 q (A := 2) (by norm_num [abs_of_pos]) qb (E := 155 / 10 ^ 15) (by norm_num)
  have b4 : |1 + N * N| ≤ 181 / 100 := add_bd (A := 1) (by norm_num) qb (by norm_num)
  have a4 := addr F h1 q b4 (E := 78 / 10 ^ 15) (by norm_num)
  obtain ⟨a5, b5⟩ := mulr F x a4 xb b4 (E := 148 / 10 ^ 15) (by norm_num)
  have b6 := sub_bd b3 b5 (C := 325 / 100) (by norm_num)
  have a6 := subr F a3 a5 b6 (E := 304 / 10 ^ 15) (by norm_num)
  obtain ⟨a7, b7⟩ := mulr F a2 a6 b2 b6 (E := 230 / 10 ^ 15) (by norm_num)
  obtain ⟨a8, _⟩ := mulr F h2 (self0 omegao) (A := 2) (by norm_num [abs_of_pos]) ho (E := 16 / 10 ^ 16) (by norm_num)
  have a9 : |(M.cos (F.rnd (2 * omegao)) : ℝ) - Real.cos (2 * omegao)| ≤ 2 / 10 ^ 15 := (cos_lib M.toLibm a8).trans (by norm_num)
  obtain ⟨a10, b10⟩ := mulr F a7 a9 b7 (Real.abs_cos_le_one _) (E := 237 / 10 ^ 15) (by norm_num)
  exact ⟨a10, b10.trans (by norm_num)⟩

end

theorem c4Ratio_near (F : Fl64) {p : RatePar} {eo : ℚ} {T P : ℝ} (a0 : (9 / 10 : ℝ) ≤ p.aodp) (a1 : (p.aodp : ℝ) ≤ 100) (t : Rel (46 / 10 ^ 15) (tsiD F p.aodp eo) T)
    (t0 : 1 / 100 ≤ T) (t1 : T ≤ 50) (s : Rel (42 / 10 ^ 14) (psisqD F p.aodp eo) P) (s0 : 19 / 100 ≤ P) (s1 : P ≤ 1) :
    |(c4RatioD F p eo : ℝ) - 2 * ck2 * T / (p.aodp * P)| ≤ 153 / 10 ^ 15 ∧ |2 * ck2 * T / (p.aodp * P)| ≤ 318 / 1000 := by
  have k := ck2_near F
  have kv : ck2 = 1 / 2 * (1082616 / 10 ^ 9) := rfl
  have k0 : (541 / 10 ^ 6 : ℝ) ≤ ck2 := by rw [kv]; norm_num
  have k1 : ck2 ≤ 542 / 10 ^ 6 := by rw [kv]; norm_num
  generalize ck2 = K at *
  have P0 : 0 < P := by linarith
  have K0 : 0 < K := lt_of_lt_of_le (by norm_num) k0
  have T0 : 0 < T := by linarith
  have r1 : Rel (42 / 10 ^ 17) (F.rnd (2 * ck2D F)) (2 * K) := by
    refine Rel.rnd F (a := 3 / 10 ^ 16) ?_ (le_trans (by norm_num) (show (1 / 1000 : ℝ) ≤ 2 * K by linarith)) (by norm_num)
    push_cast
    exact Rel.mul (Rel.refl 2) k (by norm_num) K0 le_rfl (by norm_num)
  have u0 : 1 / 10 ^ 5 ≤ 2 * K * T := le_trans (by norm_num) (mul_le_mul (show (1 / 1000 : ℝ) ≤ 2 * K by linarith) t0 (by norm_num) (by linarith))
  have u1 : 2 * K * T ≤ 542 / 10 ^ 4 := (mul_le_mul (show 2 * K ≤ 1084 / 10 ^ 6 by linarith) t1 T0.le (by norm_num)).trans (by norm_num)
  have r2 : Rel (466 / 10 ^ 16) (F.rnd (F.rnd (2 * ck2D F) * tsiD F p.aodp eo)) (2 * K * T) := by
    refine Rel.rnd F (a := 4643 / 10 ^ 17) ?_ (le_trans (by norm_num) u0) (by norm_num)
    push_cast
    exact Rel.mul r1 t (by linarith) T0 (by norm_num) (by norm_num)
  have v0 : 171 / 1000 ≤ p.aodp * P := le_trans (by norm_num) (mul_le_mul a0 s0 (by norm_num) (by linarith))
  have v1 : p.aodp * P ≤ 100 := by nlinarith
  have r3 : Rel (421 / 10 ^ 15) (F.rnd (p.aodp * psisqD F p.aodp eo)) (p.aodp * P) := by
    refine Rel.rnd F (a := 42 / 10 ^ 14) ?_ (le_trans (by norm_num) v0) (by norm_num)
    push_cast
    exact Rel.mul (Rel.refl _) s (by linarith) P0 le_rfl (by norm_num)
  generalize (p.aodp : ℝ) * P = V at *
  generalize 2 * K * T = U at *
  have w0 : 1 / 10 ^ 7 ≤ U / V := by rw [le_div_iff₀ (by linarith)]; linarith
  have w1 : U / V ≤ 318 / 1000 := by rw [div_le_iff₀ (by linarith)]; linarith
  have r4 : Rel (48 / 10 ^ 14) (c4RatioD F p eo) (U / V) := by
    unfold c4RatioD
    refine Rel.rnd F (a := 478 / 10 ^ 15) ?_ (le_trans (by norm_num) w0) (by norm_num)
    push_cast
    exact Rel.div r2 r3 (lt_of_lt_of_le (by norm_num) u0) (by linarith) (by norm_num) (by norm_num) (by norm_num)
  unfold Rel at r4
  refine ⟨r4.trans ?_, ?_⟩
  · linarith
  · rw [abs_of_nonneg (le_trans (by norm_num) w0)]; exact w1

theorem c4_product (F : Fl64) {y b : ℚ} {X W : ℝ} (X0 : 1 / 10 ^ 30 ≤ X) (x : Rel (26 / 10 ^ 13) y X) (B1 : |(b : ℝ) - W| ≤ 6 / 10 ^ 12)
    (B2 : |W| ≤ 14) : |(F.rnd (y * b) : ℝ) - X * W| ≤ 5 / 10 ^ 11 * X := by
  unfold Rel at x
  have Xp : 0 < X := lt_of_lt_of_le (by norm_num) X0
  have z1 : |X * W| ≤ 14 * X := by
    rw [abs_mul, abs_of_pos Xp]
    have := mul_le_mul_of_nonneg_left B2 Xp.le
    linarith
  have z2 : |(y * b : ℝ) - X * W| ≤ 43 / 10 ^ 12 * X := by
    have q1 : |((y : ℝ) - X) * W| ≤ 26 / 10 ^ 13 * X * 14 := by
      rw [abs_mul]; exact mul_le_mul x B2 (abs_nonneg _) (by positivity)
    have q2 : |X * ((b : ℝ) - W)| ≤ X * (6 / 10 ^ 12) := by
      rw [abs_mul, abs_of_pos Xp]; exact mul_le_mul_of_nonneg_left B1 Xp.le
    have q3 : |((y : ℝ) - X) * (b - W)| ≤ 26 / 10 ^ 13 * X * (6 / 10 ^ 12) := by
      rw [abs_mul]; exact mul_le_mul x B1 (abs_nonneg _) (by positivity)
    have e : (y * b : ℝ) - X * W = (y - X) * W + X * (b - W) + (y - X) * (b - W) := by ring
    rw [e]
    generalize ((y : ℝ) - X) * W = g1 at *
    generalize X * ((b : ℝ) - W) = g2 at *
    generalize ((y : ℝ) - X) * (b - W) = g3 at *
    clear x B1 B2 z1 e
    rw [abs_le] at *
    constructor <;> linarith [q1.1, q1.2, q2.1, q2.2, q3.1, q3.2]
  refine rnd_real F (e := 43 / 10 ^ 12 * X) (by push_cast; exact z2) z1 ?_
  norm_num at X0 ⊢
  linarith

theorem c4Unit_near (F : Fl64) (M : PowLib) {p : RatePar} {eo : ℚ} {C : ℝ} (a0 : (9 / 10 : ℝ) ≤ p.aodp) (b0 : (1 / 100 : ℝ) ≤ p.betao2) (n0 : (1 / 10 ^ 6 : ℝ) ≤ p.xnodp)
    (C0 : 1 / 10 ^ 18 ≤ C) (g : Rel (25 / 10 ^ 13) (coef1D F M p.aodp eo) C) :
    Rel (26 / 10 ^ 13) (c4UnitD F M p eo) (2 * p.xnodp * C * p.aodp * p.betao2) ∧ 1 / 10 ^ 30 ≤ 2 * p.xnodp * C * p.aodp * p.betao2 := by
  have np : (0 : ℝ) < p.xnodp := lt_of_lt_of_le (by norm_num) n0
  have Cp : 0 < C := lt_of_lt_of_le (by norm_num) C0
  have ap : (0 : ℝ) < p.aodp := by linarith
  have bp : (0 : ℝ) < p.betao2 := by linarith
  have d1 : (1 / 10 ^ 6 : ℝ) ≤ 2 * p.xnodp := by linarith
  have r1 : Rel (12 / 10 ^ 17) (F.rnd (2 * p.xnodp)) (2 * p.xnodp) := by
    refine Rel.rnd F (a := 0) ?_ (le_trans (by norm_num) d1) (by norm_num)
    push_cast
    exact Rel.refl _
  have d2 : (1 / 10 ^ 24 : ℝ) ≤ 2 * p.xnodp * C := le_trans (by norm_num) (mul_le_mul d1 C0 (by norm_num) (by positivity))
  have r2 : Rel (2501 / 10 ^ 15) (F.rnd (F.rnd (2 * p.xnodp) * coef1D F M p.aodp eo)) (2 * p.xnodp * C) := by
    refine Rel.rnd F (a := 25002 / 10 ^ 16) ?_ (le_trans (by norm_num) d2) (by norm_num)
    push_cast
    exact Rel.mul r1 g (by positivity) Cp (by norm_num) (by norm_num)
  have d3 : (1 / 10 ^ 25 : ℝ) ≤ 2 * p.xnodp * C * p.aodp := le_trans (by norm_num) (mul_le_mul d2 a0 (by norm_num) (by positivity))
  have r3 : Rel (2502 / 10 ^ 15) (F.rnd (F.rnd (F.rnd (2 * p.xnodp) * coef1D F M p.aodp eo) * p.aodp)) (2 * p.xnodp * C * p.aodp) := by
    refine Rel.rnd F (a := 2501 / 10 ^ 15) ?_ (le_trans (by norm_num) d3) (by norm_num)
    push_cast
    exact Rel.mul r2 (Rel.refl _) (by positivity) ap (by norm_num) (by norm_num)
  have d4 : (1 / 10 ^ 27 : ℝ) ≤ 2 * p.xnodp * C * p.aodp * p.betao2 := le_trans (by norm_num) (mul_le_mul d3 b0 (by norm_num) (by positivity))
  refine ⟨?_, le_trans (by norm_num) d4⟩
  unfold c4UnitD
  refine Rel.rnd F (a := 2502 / 10 ^ 15) ?_ (le_trans (by norm_num) d4) (by norm_num)
  push_cast
  exact Rel.mul r3 (Rel.refl _) (by positivity) bp (by norm_num) (by norm_num)

/-- **C213**: in `double` arithmetic the drag coefficient `c4` of `sxpx_common_init` is within `5 * 10 ^ -11` of exact arithmetic, in units of
`2 * xnodp * coef1 * aodp * betao2`. -/
theorem C213_eccentricity (F : Fl64) (M : PowLib) {p : RatePar} {eo omegao : ℚ} {r : Recov} (m : RateMatch p r) {S T N C : ℝ} (hS : S = s4Of (perige r eo))
    (hT : T = 1 / (r.aodp - S)) (hN : N = r.aodp * eo * T) (hC : C = qoms24Of (perige r eo) * (T * T) * (T * T) / |1 - N * N| ^ (7 / 2 : ℝ))
    (h : DragOk p.aodp eo S) (c0 : (0 : ℝ) ≤ p.cosio2) (c1 : (p.cosio2 : ℝ) ≤ 1) (n0 : (1 / 10 ^ 6 : ℝ) ≤ p.xnodp) (b0 : (1 / 100 : ℝ) ≤ p.betao2)
    (ho : |(omegao : ℝ)| ≤ 7) :
    |(c4D F M p eo omegao : ℝ) - c4Of ck2 r eo omegao T C| ≤ 5 / 10 ^ 11 * (2 * r.xnodp * C * r.aodp * r.betao2) := by
  have hd := C210_density F (by linarith [h.a0]) h.a1 h.nonneg h.e1 m.aodp
  have d1 := hd.1
  rw [← hS] at d1
  have hg := C211_drag F M m.aodp hS hT hN rfl h
  have g := hg.2.2.2
  rw [← hC] at g
  have hT' : T = 1 / (p.aodp - S) := by rw [hT, m.aodp]
  have hN' : N = p.aodp * eo * (1 / (p.aodp - S)) := by rw [hN, hT, m.aodp]
  obtain ⟨t, t0, t1⟩ := tsi_near F h d1
  obtain ⟨s, s0, s1⟩ := psisq_near F h d1 hN'
  obtain ⟨⟨n, nb⟩, q, qb⟩ := etasq_near F h d1 hN'
  rw [← hT'] at t t0 t1
  have C0 : 1 / 10 ^ 18 ≤ C := by rw [hC]; exact coef1_low t0 s0 s1
  obtain ⟨x, X0⟩ := c4Unit_near F M h.a0 b0 n0 C0 g
  have e1 : |(eo : ℝ)| ≤ 1 := by rw [abs_of_nonneg h.nonneg]; exact h.e1
  obtain ⟨f, fb⟩ := c4First_near F n nb q qb e1
  obtain ⟨z, zb⟩ := c4Zonal_near F n nb q qb e1 c0 c1
  obtain ⟨w, wb⟩ := c4Perigee_near F n nb q qb e1 M c0 c1 ho
  obtain ⟨k, kb⟩ := c4Ratio_near F h.a0 h.a1 t t0 t1 s s0 s1
  have b1 := add_bd zb wb (C := 295 / 10) (by norm_num)
  have a1 := addr F z w b1 (E := 21 / 10 ^ 13) (by norm_num)
  obtain ⟨a2, b2⟩ := mulr F k a1 kb b1 (E := 53 / 10 ^ 13) (by norm_num)
  have b3 := sub_bd fb b2 (C := 14) (by norm_num)
  have a3 := subr F f a2 b3 (E := 6 / 10 ^ 12) (by norm_num)
  have key := c4_product F X0 x a3 b3
  have hc : c4Of ck2 r eo omegao T C = 2 * p.xnodp * C * p.aodp * p.betao2 * (N * (2 + 1 / 2 * (N * N)) + eo * (1 / 2 + 2 * (N * N)) -
      2 * ck2 * T / (p.aodp * |1 - N * N|) * (-3 * (3 * p.cosio2 - 1) * (1 - 2 * (eo * N) + N * N * (3 / 2 - 1 / 2 * (eo * N))) +
        3 / 4 * (1 - p.cosio2) * (2 * (N * N) - eo * N * (1 + N * N)) * Real.cos (2 * omegao))) := by
    unfold c4Of
    dsimp only
    rw [← hN, m.xnodp, m.aodp, m.cosio2, m.betao2]
  rw [hc, m.xnodp, m.aodp, m.betao2]
  exact key

/-- `c4` of the exact `sxpx_common_init` is the one of the theorem. -/
example (e : Elem) : (sxpx_common_init e).c4 = c4Of ck2 (sxpall_common_init e) e.eo e.omegao (sxpx_common_init e).tsi (sxpx_common_init e).coef1 := rfl

/-- A perigee at 293 km and an apogee at 505 km, inclined by 60 degrees. -/
example : ⌊c4FirstD Fl64.ieee ⟨1 / 2, 1 / 4, 1, 1, 17 / 256, 17 / 16⟩ (1 / 64) * 10 ^ 12⌋ = 689715260765 ∧
    ⌊c4ZonalD Fl64.ieee ⟨1 / 2, 1 / 4, 1, 1, 17 / 256, 17 / 16⟩ (1 / 64) * 10 ^ 12⌋ = 864742020774 ∧
    ⌊c4RatioD Fl64.ieee ⟨1 / 2, 1 / 4, 1, 1, 17 / 256, 17 / 16⟩ (1 / 64) * 10 ^ 12⌋ = 22750042582 := by decide +kernel

/-- That orbit is within the hypotheses of the theorem. -/
example (F : Fl64) (M : PowLib) {r : Recov} (m : RateMatch ⟨1 / 2, 1 / 4, 1, 1, 17 / 256, 17 / 16⟩ r) (T N C : ℝ) (hT : T = 1 / (r.aodp - s4Of (perige r (1 / 64 : ℚ))))
    (hN : N = r.aodp * (1 / 64 : ℚ) * T) (hC : C = qoms24Of (perige r (1 / 64 : ℚ)) * (T * T) * (T * T) / |1 - N * N| ^ (7 / 2 : ℝ)) :
    |(c4D F M ⟨1 / 2, 1 / 4, 1, 1, 17 / 256, 17 / 16⟩ (1 / 64) 1 : ℝ) - c4Of ck2 r (1 / 64 : ℚ) (1 : ℚ) T C| ≤ 5 / 10 ^ 11 * (2 * r.xnodp * C * r.aodp * r.betao2) := by
  have e : s4Of (perige r (1 / 64 : ℚ)) = 1 + 78 / (6378135 / 1000) := by
    have hp : ¬ perige r (1 / 64 : ℚ) < 156 := by unfold perige earthRadius; rw [m.aodp]; norm_num
    unfold s4Of
    rw [if_neg hp]
    rfl
  refine C213_eccentricity F M m rfl hT hN hC ?_ (by norm_num) (by norm_num) (by norm_num) (by norm_num) (by norm_num)
  rw [e]
  constructor <;> norm_num

end SatSky.Props
