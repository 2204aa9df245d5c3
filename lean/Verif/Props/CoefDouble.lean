import Verif.Model.CoefDouble
import Verif.Props.DragDouble

/-! C212: the drag coefficients `c2` and `c1` in `double` arithmetic. -/

namespace SatSky.Props

open SatSky.Spec SatSky.Geo SatSky.Relative SatSky.Sxp SatSky.Kep

theorem etasq_near (F : Fl64) {aodp eo : ℚ} {S : ℝ} (h : DragOk aodp eo S) (hs : |(s4D F (perigeD F aodp eo) : ℝ) - S| ≤ 9 / 10 ^ 16) {N : ℝ}
    (hN : N = aodp * eo * (1 / (aodp - S))) : (|(etaD F aodp eo : ℝ) - N| ≤ 424 / 10 ^ 16 ∧ |N| ≤ 9 / 10) ∧
      |(etasqD F aodp eo : ℝ) - N * N| ≤ 77 / 10 ^ 15 ∧ |N * N| ≤ 81 / 100 := by
  have k := eta_near F h hs
  have N1 : N ≤ 9 / 10 := by rw [hN]; exact h.eta
  have N0 : 0 ≤ N := by
    obtain ⟨_, t0, _⟩ := tsi_near F h hs
    rw [hN]
    exact mul_nonneg (mul_nonneg (by linarith [h.a0]) h.nonneg) (le_trans (by norm_num) t0)
  rw [← hN] at k
  have ka : |(etaD F aodp eo : ℝ) - N| ≤ 424 / 10 ^ 16 := by
    unfold RelS at k
    rw [abs_of_nonneg N0] at k
    exact k.trans (by linarith)
  have nb : |N| ≤ 9 / 10 := by rw [abs_of_nonneg N0]; exact N1
  obtain ⟨q, qb⟩ := mulr F ka ka nb nb (E := 77 / 10 ^ 15) (by norm_num)
  exact ⟨⟨ka, nb⟩, q, qb.trans (by norm_num)⟩

theorem c2First_near (F : Fl64) {p : RatePar} {eo : ℚ} {S : ℝ} (h : DragOk p.aodp eo S) (hs : |(s4D F (perigeD F p.aodp eo) : ℝ) - S| ≤ 9 / 10 ^ 16) {N : ℝ}
    (hN : N = p.aodp * eo * (1 / (p.aodp - S))) :
    |(c2FirstD F p eo : ℝ) - p.aodp * (1 + 3 / 2 * (N * N) + eo * N * (4 + N * N))| ≤ 396 / 10 ^ 15 * p.aodp ∧
    |(p.aodp : ℝ) * (1 + 3 / 2 * (N * N) + eo * N * (4 + N * N))| ≤ 66 / 10 * p.aodp := by
  obtain ⟨⟨n, nb⟩, q, qb⟩ := etasq_near F h hs hN
  have a0 := h.a0
  have e1 : |(eo : ℝ)| ≤ 1 := by rw [abs_of_nonneg h.nonneg]; exact h.e1
  have c32 : |((3 / 2 : ℚ) : ℝ) - 3 / 2| ≤ 0 := by norm_num
  have c1 : |((1 : ℚ) : ℝ) - 1| ≤ 0 := by norm_num
  have c4 : |((4 : ℚ) : ℝ) - 4| ≤ 0 := by norm_num
  obtain ⟨x, xb⟩ := mulr F (self0 eo) n e1 nb (E := 426 / 10 ^ 16) (by norm_num)
  obtain ⟨u, ub⟩ := mulr F c32 q (A := 3 / 2) (by norm_num [abs_of_pos]) qb (E := 116 / 10 ^ 15) (by norm_num)
  have vb : |1 + 3 / 2 * (N * N)| ≤ 2215 / 1000 := add_bd (A := 1) (by norm_num) ub (by norm_num)
  have v := addr F c1 u vb (E := 117 / 10 ^ 15) (by norm_num)
  have wb : |4 + N * N| ≤ 481 / 100 := add_bd (A := 4) (by norm_num [abs_of_pos]) qb (by norm_num)
  have w := addr F c4 q wb (E := 78 / 10 ^ 15) (by norm_num)
  obtain ⟨y, yb⟩ := mulr F x w xb wb (E := 276 / 10 ^ 15) (by norm_num)
  have zb : |1 + 3 / 2 * (N * N) + eo * N * (4 + N * N)| ≤ 66 / 10 := add_bd vb yb (by norm_num)
  have z := addr F v y zb (E := 394 / 10 ^ 15) (by norm_num)
  have ab : |(p.aodp : ℝ)| ≤ 1 * p.aodp := by rw [abs_of_nonneg (by linarith), one_mul]
  obtain ⟨f, fb⟩ := mulr_scaled F (a := p.aodp) a0 (x := p.aodp) (X := p.aodp) (e := 0) (by simp) z ab zb (E := 396 / 10 ^ 15) (by norm_num)
  exact ⟨f, by rw [one_mul] at fb; exact fb⟩

theorem x3thm1_near (F : Fl64) {p : RatePar} (c0 : (0 : ℝ) ≤ p.cosio2) (c1 : (p.cosio2 : ℝ) ≤ 1) :
    |(x3thm1D F p : ℝ) - (3 * p.cosio2 - 1)| ≤ 6 / 10 ^ 16 ∧ |3 * (p.cosio2 : ℝ) - 1| ≤ 2 := by
  have a : |(F.rnd (3 * p.cosio2) : ℝ) - 3 * p.cosio2| ≤ 34 / 10 ^ 17 :=
    rnd0 F (A := 3) (by push_cast; ring) (by rw [abs_of_nonneg (by linarith)]; linarith) (by norm_num)
  have b : |3 * (p.cosio2 : ℝ) - 1| ≤ 2 := by rw [abs_le]; constructor <;> linarith
  exact ⟨subr F a (y := 1) (f := 0) (by norm_num) b (by norm_num), b⟩

theorem c2Second_near (F : Fl64) {p : RatePar} {eo : ℚ} {S : ℝ} (h : DragOk p.aodp eo S) (hs : |(s4D F (perigeD F p.aodp eo) : ℝ) - S| ≤ 9 / 10 ^ 16)
    (c0 : (0 : ℝ) ≤ p.cosio2) (c1 : (p.cosio2 : ℝ) ≤ 1) {N T : ℝ} (hN : N = p.aodp * eo * (1 / (p.aodp - S))) (hT : T = 1 / (p.aodp - S)) :
    |(c2SecondD F p eo : ℝ) - 3 / 4 * ck2 * T / |1 - N * N| * (3 * p.cosio2 - 1) * (8 + 3 * (N * N) * (8 + N * N))| ≤ 17 / 10 ^ 12 ∧
    |3 / 4 * ck2 * T / |1 - N * N| * (3 * p.cosio2 - 1) * (8 + 3 * (N * N) * (8 + N * N))| ≤ 631 / 100 := by
  obtain ⟨_, q, qb⟩ := etasq_near F h hs hN
  obtain ⟨t, t0, t1⟩ := tsi_near F h hs
  obtain ⟨s, s0, s1⟩ := psisq_near F h hs hN
  obtain ⟨x, xb⟩ := x3thm1_near F c0 c1
  obtain ⟨k, kb⟩ := ck2_abs F
  rw [← hT] at t t0 t1
  have ta : |(tsiD F p.aodp eo : ℝ) - T| ≤ 23 / 10 ^ 13 := by unfold Rel at t; exact t.trans (by linarith)
  have tb : |T| ≤ 50 := by rw [abs_of_nonneg (by linarith)]; exact t1
  have sa : abs ((psisqD F p.aodp eo : ℝ) - |1 - N * N|) ≤ 42 / 10 ^ 14 := by unfold Rel at s; exact s.trans (by linarith)
  have c34 : |((3 / 4 : ℚ) : ℝ) - 3 / 4| ≤ 0 := by norm_num
  have c3 : |((3 : ℚ) : ℝ) - 3| ≤ 0 := by norm_num
  have c8 : |((8 : ℚ) : ℝ) - 8| ≤ 0 := by norm_num
  obtain ⟨a1, b1⟩ := mulr F c34 k (A := 3 / 4) (by norm_num [abs_of_pos]) kb (E := 2 / 10 ^ 19) (by norm_num)
  obtain ⟨a2, b2⟩ := mulr F a1 ta b1 tb (E := 95 / 10 ^ 17) (by norm_num)
  have b3 : abs (3 / 4 * ck2 * T / |1 - N * N|) ≤ 1072 / 10 ^ 4 := by
    rw [abs_div, abs_abs, div_le_iff₀ (by linarith)]
    exact b2.trans (by linarith)
  have a3 : abs ((F.rnd (F.rnd (F.rnd (3 / 4 * ck2D F) * tsiD F p.aodp eo) / psisqD F p.aodp eo) : ℝ) - 3 / 4 * ck2 * T / |1 - N * N|) ≤ 27 / 10 ^ 14 := by
    refine rnd_real F (e := 26 / 10 ^ 14) ?_ b3 (by norm_num)
    push_cast
    exact quot_real (m := 18 / 100) a2 sa (by linarith) (by norm_num) b3 (by norm_num)
  obtain ⟨a4, b4⟩ := mulr F a3 x b3 xb (E := 55 / 10 ^ 14) (by norm_num)
  have b5 : |8 + N * N| ≤ 881 / 100 := add_bd (A := 8) (by norm_num [abs_of_pos]) qb (by norm_num)
  have a5 := addr F c8 q b5 (E := 79 / 10 ^ 15) (by norm_num)
  obtain ⟨a6, b6⟩ := mulr F c3 q (A := 3) (by norm_num [abs_of_pos]) qb (E := 232 / 10 ^ 15) (by norm_num)
  obtain ⟨a7, b7⟩ := mulr F a6 a5 b6 b5 (E := 2240 / 10 ^ 15) (by norm_num)
  have b8 : |8 + 3 * (N * N) * (8 + N * N)| ≤ 2942 / 100 := add_bd (A := 8) (by norm_num [abs_of_pos]) b7 (by norm_num)
  have a8 := addr F c8 a7 b8 (E := 2250 / 10 ^ 15) (by norm_num)
  obtain ⟨a9, b9⟩ := mulr F a4 a8 b4 b8 (E := 17 / 10 ^ 12) (by norm_num)
  exact ⟨a9, b9.trans (by norm_num)⟩

theorem coef1_low {h T P : ℝ} (t0 : 1 / 100 ≤ T) (p0 : 19 / 100 ≤ P) (p1 : P ≤ 1) : 1 / 10 ^ 18 ≤ qoms24Of h * (T * T) * (T * T) / P ^ (7 / 2 : ℝ) := by
  have hQ : 1 / 10 ^ 10 ≤ qoms24Of h := by
    obtain ⟨x, T0⟩ := qoms_exact h rfl
    obtain ⟨_, r1⟩ := sKm_range h
    have Tl : 6 / 10 ^ 3 ≤ (120 - sKm h) / (6378135 / 1000 : ℝ) := by rw [le_div_iff₀ (by norm_num)]; linarith
    generalize (120 - sKm h) / (6378135 / 1000 : ℝ) = U at *
    have u1 : 36 / 10 ^ 6 ≤ U * U := by nlinarith
    have u2 : 12 / 10 ^ 10 ≤ U * U * (U * U) := by nlinarith
    linarith [(abs_le.1 x).1]
  generalize qoms24Of h = Q at *
  have wp : 0 < P ^ (7 / 2 : ℝ) := Real.rpow_pos_of_pos (by linarith) _
  have w1 : P ^ (7 / 2 : ℝ) ≤ 1 := Real.rpow_le_one (by linarith) p1 (by norm_num)
  have Q0 : 0 ≤ Q := le_trans (by norm_num) hQ
  have b1 : 1 / 10 ^ 4 ≤ T * T := by nlinarith
  have b2 : 1 / 10 ^ 14 ≤ Q * (T * T) := le_trans (by norm_num) (mul_le_mul hQ b1 (by norm_num) Q0)
  have b3 : 1 / 10 ^ 18 ≤ Q * (T * T) * (T * T) := le_trans (by norm_num) (mul_le_mul b2 b1 (by norm_num) (mul_nonneg Q0 (mul_self_nonneg T)))
  rw [le_div_iff₀ wp]
  exact le_trans (by linarith) b3

theorem c2_product (F : Fl64) {y b : ℚ} {X W A : ℝ} (a0 : 9 / 10 ≤ A) (X0 : 1 / 10 ^ 24 ≤ X) (x : Rel (26 / 10 ^ 13) y X) (B1 : |(b : ℝ) - W| ≤ 195 / 10 ^ 13 * A)
    (B2 : |W| ≤ 137 / 10 * A) : |(F.rnd (y * b) : ℝ) - X * W| ≤ 6 / 10 ^ 11 * (X * A) ∧ |X * W| ≤ 137 / 10 * (X * A) := by
  unfold Rel at x
  have Xp : 0 < X := lt_of_lt_of_le (by norm_num) X0
  have XA : 9 / 10 ^ 25 ≤ X * A := le_trans (by norm_num) (mul_le_mul X0 a0 (by norm_num) Xp.le)
  have z1 : |X * W| ≤ 137 / 10 * (X * A) := by
    rw [abs_mul, abs_of_pos Xp]
    have := mul_le_mul_of_nonneg_left B2 Xp.le
    linarith
  refine ⟨?_, z1⟩
  have z2 : |(y * b : ℝ) - X * W| ≤ 552 / 10 ^ 13 * (X * A) := by
    have q1 : |((y : ℝ) - X) * W| ≤ 26 / 10 ^ 13 * X * (137 / 10 * A) := by
      rw [abs_mul]; exact mul_le_mul x B2 (abs_nonneg _) (by positivity)
    have q2 : |X * ((b : ℝ) - W)| ≤ X * (195 / 10 ^ 13 * A) := by
      rw [abs_mul, abs_of_pos Xp]; exact mul_le_mul_of_nonneg_left B1 Xp.le
    have q3 : |((y : ℝ) - X) * (b - W)| ≤ 26 / 10 ^ 13 * X * (195 / 10 ^ 13 * A) := by
      rw [abs_mul]; exact mul_le_mul x B1 (abs_nonneg _) (by positivity)
    have l1 : 26 / 10 ^ 13 * X * (137 / 10 * A) = 26 * 137 / 10 ^ 14 * (X * A) := by ring
    have l2 : X * (195 / 10 ^ 13 * A) = 195 / 10 ^ 13 * (X * A) := by ring
    have l3 : 26 / 10 ^ 13 * X * (195 / 10 ^ 13 * A) = 26 * 195 / 10 ^ 26 * (X * A) := by ring
    have e : (y * b : ℝ) - X * W = (y - X) * W + X * (b - W) + (y - X) * (b - W) := by ring
    rw [l1] at q1; rw [l2] at q2; rw [l3] at q3
    rw [e]
    generalize ((y : ℝ) - X) * W = g1 at *
    generalize X * ((b : ℝ) - W) = g2 at *
    generalize ((y : ℝ) - X) * (b - W) = g3 at *
    generalize X * A = Z at *
    clear x B1 B2 z1 e
    rw [abs_le] at *
    constructor <;> linarith [q1.1, q1.2, q2.1, q2.2, q3.1, q3.2]
  refine rnd_real F (e := 552 / 10 ^ 13 * (X * A)) (by push_cast; exact z2) z1 ?_
  generalize X * A = Z at *
  norm_num at XA ⊢
  linarith

theorem c1_product (F : Fl64) {bstar k : ℚ} {c Z : ℝ} (k1 : |(k : ℝ) - c| ≤ 6 / 10 ^ 11 * Z) (k2 : |c| ≤ 137 / 10 * Z) (Z0 : 0 ≤ Z) :
    |(F.rnd (bstar * k) : ℝ) - bstar * c| ≤ |(bstar : ℝ)| * (61 / 10 ^ 12 * Z) + 1 / 2 ^ 200 := by
  have e1 : |((bstar * k : ℚ) : ℝ) - bstar * c| ≤ |(bstar : ℝ)| * (6 / 10 ^ 11 * Z) := by
    push_cast
    rw [← mul_sub, abs_mul]
    exact mul_le_mul_of_nonneg_left k1 (abs_nonneg _)
  have e2 : |(bstar : ℝ) * c| ≤ |(bstar : ℝ)| * (137 / 10 * Z) := by
    rw [abs_mul]; exact mul_le_mul_of_nonneg_left k2 (abs_nonneg _)
  refine rnd_real F e1 e2 ?_
  have bz : 0 ≤ |(bstar : ℝ)| * Z := mul_nonneg (abs_nonneg _) Z0
  have l1 : |(bstar : ℝ)| * (6 / 10 ^ 11 * Z) = 6 / 10 ^ 11 * (|(bstar : ℝ)| * Z) := by ring
  have l2 : |(bstar : ℝ)| * (137 / 10 * Z) = 137 / 10 * (|(bstar : ℝ)| * Z) := by ring
  have l3 : |(bstar : ℝ)| * (61 / 10 ^ 12 * Z) = 61 / 10 ^ 12 * (|(bstar : ℝ)| * Z) := by ring
  rw [l1, l2, l3]
  generalize |(bstar : ℝ)| * Z = w at *
  norm_num
  linarith

theorem c2_near (F : Fl64) (M : PowLib) {p : RatePar} {eo : ℚ} {r : Recov} (m : RateMatch p r) {S T N C : ℝ} (hS : S = s4Of (perige r eo))
    (hT : T = 1 / (r.aodp - S)) (hN : N = r.aodp * eo * T) (hC : C = qoms24Of (perige r eo) * (T * T) * (T * T) / |1 - N * N| ^ (7 / 2 : ℝ))
    (h : DragOk p.aodp eo S) (c0 : (0 : ℝ) ≤ p.cosio2) (c1 : (p.cosio2 : ℝ) ≤ 1) (n0 : (1 / 10 ^ 6 : ℝ) ≤ p.xnodp) :
    (|(c2D F M p eo : ℝ) - c2Of ck2 r eo T C| ≤ 6 / 10 ^ 11 * (C * r.xnodp * r.aodp) ∧ |c2Of ck2 r eo T C| ≤ 137 / 10 * (C * r.xnodp * r.aodp)) ∧
    0 ≤ C * r.xnodp * r.aodp := by
  have hd := C210_density F (by linarith [h.a0]) h.a1 h.nonneg h.e1 m.aodp
  have d1 := hd.1
  rw [← hS] at d1
  have hg := C211_drag F M m.aodp hS hT hN rfl h
  have g := hg.2.2.2
  rw [← hC] at g
  have hT' : T = 1 / (p.aodp - S) := by rw [hT, m.aodp]
  have hN' : N = p.aodp * eo * (1 / (p.aodp - S)) := by rw [hN, hT, m.aodp]
  obtain ⟨f, fb⟩ := c2First_near F h d1 hN'
  obtain ⟨s, sb⟩ := c2Second_near F h d1 c0 c1 hN' hT'
  have a0 := h.a0
  have C0 : 1 / 10 ^ 18 ≤ C := by
    obtain ⟨_, t0, _⟩ := tsi_near F h d1
    obtain ⟨_, p0, p1⟩ := psisq_near F h d1 hN'
    rw [← hT'] at t0
    rw [hC]
    exact coef1_low t0 p0 p1
  have Cp : 0 < C := lt_of_lt_of_le (by norm_num) C0
  have np : (0 : ℝ) < p.xnodp := lt_of_lt_of_le (by norm_num) n0
  have X0 : 1 / 10 ^ 24 ≤ C * p.xnodp := le_trans (by norm_num) (mul_le_mul C0 n0 (by norm_num) Cp.le)
  have x : Rel (26 / 10 ^ 13) (F.rnd (coef1D F M p.aodp eo * p.xnodp)) (C * p.xnodp) := by
    refine Rel.rnd F (a := 25 / 10 ^ 13) ?_ (le_trans (by norm_num) X0) (by norm_num)
    push_cast
    exact Rel.mul (a := 25 / 10 ^ 13) (b := 0) g (Rel.refl _) Cp np (by norm_num) (by norm_num)
  have B : |(F.rnd (c2FirstD F p eo + c2SecondD F p eo) : ℝ) - (p.aodp * (1 + 3 / 2 * (N * N) + eo * N * (4 + N * N)) +
      3 / 4 * ck2 * T / |1 - N * N| * (3 * p.cosio2 - 1) * (8 + 3 * (N * N) * (8 + N * N)))| ≤ 195 / 10 ^ 13 * p.aodp ∧
      |(p.aodp : ℝ) * (1 + 3 / 2 * (N * N) + eo * N * (4 + N * N)) +
      3 / 4 * ck2 * T / |1 - N * N| * (3 * p.cosio2 - 1) * (8 + 3 * (N * N) * (8 + N * N))| ≤ 137 / 10 * p.aodp := by
    generalize (p.aodp : ℝ) * (1 + 3 / 2 * (N * N) + eo * N * (4 + N * N)) = U at *
    generalize 3 / 4 * ck2 * T / |1 - N * N| * (3 * (p.cosio2 : ℝ) - 1) * (8 + 3 * (N * N) * (8 + N * N)) = V at *
    have ub : |U + V| ≤ 137 / 10 * p.aodp := add_bd fb sb (by linarith)
    refine ⟨rnd_scaled F a0 (e := 193 / 10 ^ 13) (A := 137 / 10) ?_ ub (by norm_num), ub⟩
    push_cast
    rw [abs_le] at *
    constructor <;> linarith [f.1, f.2, s.1, s.2]
  have hc : c2Of ck2 r eo T C = C * p.xnodp * (p.aodp * (1 + 3 / 2 * (N * N) + eo * N * (4 + N * N)) +
      3 / 4 * ck2 * T / |1 - N * N| * (3 * p.cosio2 - 1) * (8 + 3 * (N * N) * (8 + N * N))) := by
    unfold c2Of
    dsimp only
    rw [← hN, m.xnodp, m.aodp, m.cosio2]
  have key : |(c2D F M p eo : ℝ) - c2Of ck2 r eo T C| ≤ 6 / 10 ^ 11 * (C * r.xnodp * r.aodp) ∧ |c2Of ck2 r eo T C| ≤ 137 / 10 * (C * r.xnodp * r.aodp) := by
    rw [hc, m.xnodp, m.aodp]
    unfold c2D
    generalize F.rnd (c2FirstD F p eo + c2SecondD F p eo) = b at *
    generalize F.rnd (coef1D F M p.aodp eo * p.xnodp) = y at *
    generalize (p.aodp : ℝ) * (1 + 3 / 2 * (N * N) + eo * N * (4 + N * N)) +
      3 / 4 * ck2 * T / |1 - N * N| * (3 * p.cosio2 - 1) * (8 + 3 * (N * N) * (8 + N * N)) = W at *
    generalize C * (p.xnodp : ℝ) = X at *
    obtain ⟨B1, B2⟩ := B
    exact c2_product F a0 X0 x B1 B2
  refine ⟨key, ?_⟩
  rw [m.xnodp, m.aodp]
  exact mul_nonneg (mul_nonneg Cp.le np.le) (by linarith)

/-- **C212**: in `double` arithmetic the drag coefficient `c2` of `sxpx_common_init` is within `6 * 10 ^ -11` of exact arithmetic, in units of
`coef1 * xnodp * aodp` (its value for a circular orbit over a spherical Earth), and `c1` within `bstar` times that. -/
theorem C212_coefficients (F : Fl64) (M : PowLib) {p : RatePar} {eo bstar : ℚ} {r : Recov} (m : RateMatch p r) {S T N C : ℝ} (hS : S = s4Of (perige r eo))
    (hT : T = 1 / (r.aodp - S)) (hN : N = r.aodp * eo * T) (hC : C = qoms24Of (perige r eo) * (T * T) * (T * T) / |1 - N * N| ^ (7 / 2 : ℝ))
    (h : DragOk p.aodp eo S) (c0 : (0 : ℝ) ≤ p.cosio2) (c1 : (p.cosio2 : ℝ) ≤ 1) (n0 : (1 / 10 ^ 6 : ℝ) ≤ p.xnodp) :
    |(c2D F M p eo : ℝ) - c2Of ck2 r eo T C| ≤ 6 / 10 ^ 11 * (C * r.xnodp * r.aodp) ∧
    |(c1D F M p eo bstar : ℝ) - bstar * c2Of ck2 r eo T C| ≤ |(bstar : ℝ)| * (61 / 10 ^ 12 * (C * r.xnodp * r.aodp)) + 1 / 2 ^ 200 := by
  obtain ⟨key, Z0⟩ := c2_near F M m hS hT hN hC h c0 c1 n0
  exact ⟨key.1, c1_product F key.1 key.2 Z0⟩

/-- `c1` of the exact `sxpx_common_init` is the one of the theorem. -/
example (e : Elem) : (sxpx_common_init e).c1 = e.bstar * c2Of ck2 (sxpall_common_init e) e.eo (sxpx_common_init e).tsi (sxpx_common_init e).coef1 := rfl

/-- A perigee at 293 km and an apogee at 505 km, inclined by 60 degrees. -/
example : ⌊c2FirstD Fl64.ieee ⟨1 / 2, 1 / 4, 1, 1, 17 / 256, 17 / 16⟩ (1 / 64) * 10 ^ 12⌋ = 1258843408531 ∧
    ⌊c2SecondD Fl64.ieee ⟨1 / 2, 1 / 4, 1, 1, 17 / 256, 17 / 16⟩ (1 / 64) * 10 ^ 12⌋ = -24141258273 := by decide +kernel

/-- That orbit is within the hypotheses of the theorem. -/
example (F : Fl64) (M : PowLib) {r : Recov} (m : RateMatch ⟨1 / 2, 1 / 4, 1, 1, 17 / 256, 17 / 16⟩ r) (T N C : ℝ) (hT : T = 1 / (r.aodp - s4Of (perige r (1 / 64 : ℚ))))
    (hN : N = r.aodp * (1 / 64 : ℚ) * T) (hC : C = qoms24Of (perige r (1 / 64 : ℚ)) * (T * T) * (T * T) / |1 - N * N| ^ (7 / 2 : ℝ)) :
    |(c2D F M ⟨1 / 2, 1 / 4, 1, 1, 17 / 256, 17 / 16⟩ (1 / 64) : ℝ) - c2Of ck2 r (1 / 64 : ℚ) T C| ≤ 6 / 10 ^ 11 * (C * r.xnodp * r.aodp) := by
  have e : s4Of (perige r (1 / 64 : ℚ)) = 1 + 78 / (6378135 / 1000) := by
    have hp : ¬ perige r (1 / 64 : ℚ) < 156 := by unfold perige earthRadius; rw [m.aodp]; norm_num
    unfold s4Of
    rw [if_neg hp]
    rfl
  refine (C212_coefficients F M (bstar := 0) m rfl hT hN hC ?_ (by norm_num) (by norm_num) (by norm_num)).1
  rw [e]
  constructor <;> norm_num

end SatSky.Props
