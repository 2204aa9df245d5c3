import Verif.Model.RateDouble
import Verif.Props.CodeDouble

/-! C209: the secular rates of the mean anomaly, the perigee and the node in `double` arithmetic. -/

namespace SatSky.Props

open SatSky.Spec SatSky.Geo SatSky.Relative SatSky.Sxp SatSky.Kep

/-- An orbit of more than 0.9 and at most 100 Earth radii with an eccentricity of at most 0.44, whatever its inclination. -/
structure RateOk (p : RatePar) : Prop where
  ci : |(p.cosio : ℝ)| ≤ 1
  c0 : (0 : ℝ) ≤ p.cosio2
  c1 : (p.cosio2 : ℝ) ≤ 1
  b0 : (8 / 10 : ℝ) ≤ p.betao2
  b1 : (p.betao2 : ℝ) ≤ 1
  be : |(p.betao : ℝ)| ≤ 1
  n : |(p.xnodp : ℝ)| ≤ 1 / 10
  a0 : (9 / 10 : ℝ) ≤ p.aodp
  a1 : (p.aodp : ℝ) ≤ 100

/-- The record of the exact model with the same values. -/
structure RateMatch (p : RatePar) (r : Recov) : Prop where
  cosio : r.cosio = p.cosio
  cosio2 : r.cosio2 = p.cosio2
  betao2 : r.betao2 = p.betao2
  betao : r.betao = p.betao
  xnodp : r.xnodp = p.xnodp
  aodp : r.aodp = p.aodp

theorem add_bd {x y A B C : ℝ} (hx : |x| ≤ A) (hy : |y| ≤ B) (h : A + B ≤ C) : |x + y| ≤ C := (abs_add_le _ _).trans (by linarith)

theorem neg_near {x X e : ℝ} (h : |x - X| ≤ e) : |(-x) - (-X)| ≤ e := by
  rw [show -x - -X = -(x - X) by ring, abs_neg]; exact h

/-- Division by a power of two, which the abstract rounding may round. -/
theorem halfr (F : Fl64) {x : ℚ} {X e A E : ℝ} (k : ℚ) (hk : (1 : ℝ) ≤ k) (hx : |(x : ℝ) - X| ≤ e) (hX : |X| ≤ A)
    (hE : e / k + (A / k + e / k) / 2 ^ 53 + 1 / 2 ^ 200 ≤ E) : |(F.rnd (x / k) : ℝ) - X / k| ≤ E ∧ |X / k| ≤ A / k := by
  have k0 : (0 : ℝ) < k := by linarith
  have h2 : |X / k| ≤ A / k := by rw [abs_div, abs_of_pos k0]; exact div_le_div_of_nonneg_right hX k0.le
  refine ⟨rnd_real F (e := e / k) (A := A / k) ?_ h2 hE, h2⟩
  push_cast
  rw [← sub_div, abs_div, abs_of_pos k0]
  exact div_le_div_of_nonneg_right hx k0.le

theorem lin_near (F : Fl64) {c : ℚ} (h0 : (0 : ℝ) ≤ c) (h1 : (c : ℝ) ≤ 1) (k0 k1 : ℚ) {A B E : ℝ} (hk : (0 : ℝ) ≤ k1) (hB : (k1 : ℝ) ≤ B)
    (hA0 : (k0 : ℝ) ≤ A) (hA1 : (k1 : ℝ) - k0 ≤ A) (hE : (B / 2 ^ 53 + 1 / 2 ^ 200) + (A + (B / 2 ^ 53 + 1 / 2 ^ 200)) / 2 ^ 53 + 1 / 2 ^ 200 ≤ E) :
    |(linD F c k0 k1 : ℝ) - (k0 - k1 * c)| ≤ E ∧ |(k0 : ℝ) - k1 * c| ≤ A := by
  have p0 : 0 ≤ (k1 * c : ℝ) := mul_nonneg hk h0
  have p1 : (k1 * c : ℝ) ≤ k1 := by nlinarith
  have m : |(F.rnd (k1 * c) : ℝ) - k1 * c| ≤ B / 2 ^ 53 + 1 / 2 ^ 200 :=
    rnd0 F (A := B) (by push_cast; ring) (by rw [abs_of_nonneg p0]; linarith) le_rfl
  have b : |(k0 : ℝ) - k1 * c| ≤ A := by rw [abs_le]; constructor <;> linarith
  exact ⟨subr F (self0 k0) m b (by linarith), b⟩

theorem quad_near (F : Fl64) {c : ℚ} (h0 : (0 : ℝ) ≤ c) (h1 : (c : ℝ) ≤ 1) (k0 k1 k2 : ℚ) (a0 : (0 : ℝ) ≤ k0) (a1 : (k0 : ℝ) ≤ 13) (b0 : (0 : ℝ) ≤ k1) (b1 : (k1 : ℝ) ≤ 114)
    (d0 : (0 : ℝ) ≤ k2) (d1 : (k2 : ℝ) ≤ 395) :
    |(quadD F c k0 k1 k2 : ℝ) - (k0 - k1 * c + k2 * (c * c))| ≤ 2 / 10 ^ 13 ∧ |(k0 : ℝ) - k1 * c + k2 * (c * c)| ≤ 509 := by
  obtain ⟨l, lb⟩ := lin_near F h0 h1 k0 k1 (A := 114) (B := 114) (E := 26 / 10 ^ 15) b0 b1 (by linarith) (by linarith) (by norm_num)
  have hc : |(c : ℝ)| ≤ 1 := by rw [abs_of_nonneg h0]; exact h1
  obtain ⟨q, qb⟩ := mulr F (self0 c) (self0 c) hc hc (E := 12 / 10 ^ 17) (by norm_num)
  obtain ⟨m, mb⟩ := mulr F (self0 k2) q (A := 395) (by rw [abs_of_nonneg d0]; exact d1) qb (E := 93 / 10 ^ 15) (by norm_num)
  have s : |(k0 : ℝ) - k1 * c + k2 * (c * c)| ≤ 509 := add_bd lb mb (by norm_num)
  exact ⟨addr F l m s (by norm_num), s⟩

theorem pinvsq_near (F : Fl64) {p : RatePar} (h : RateOk p) :
    |(pinvsqD F p : ℝ) - 1 / (p.aodp * p.betao2) * (1 / (p.aodp * p.betao2))| ≤ 14 / 10 ^ 16 ∧
    |1 / (p.aodp * p.betao2 : ℝ) * (1 / (p.aodp * p.betao2))| ≤ 139 / 100 * (139 / 100) := by
  have a0 := h.a0; have a1 := h.a1; have b0 := h.b0; have b1 := h.b1
  have P0 : (72 / 100 : ℝ) ≤ p.aodp * p.betao2 := by
    have := mul_le_mul a0 b0 (by norm_num) (by linarith)
    linarith
  have P1 : (p.aodp * p.betao2 : ℝ) ≤ 100 := by nlinarith
  have r2 : Rel (12 / 10 ^ 17) (F.rnd (p.aodp * p.betao2)) (p.aodp * p.betao2 : ℝ) := by
    refine Rel.rnd F (a := 0) ?_ (le_trans (by norm_num) P0) (by norm_num)
    push_cast
    exact Rel.refl _
  have P2 : 1 / (p.aodp * p.betao2 : ℝ) ≤ 139 / 100 := by
    rw [div_le_iff₀ (by linarith)]; linarith
  have P3 : 1 / 100 ≤ 1 / (p.aodp * p.betao2 : ℝ) := by
    rw [le_div_iff₀ (by linarith)]; linarith
  have r3 : Rel (25 / 10 ^ 17) (F.rnd (1 / F.rnd (p.aodp * p.betao2))) (1 / (p.aodp * p.betao2 : ℝ)) := by
    refine Rel.rnd F (a := 13 / 10 ^ 17) ?_ (le_trans (by norm_num) P3) (by norm_num)
    push_cast
    exact Rel.div (Rel.refl 1) r2 (by norm_num) (by linarith) (by norm_num) (by norm_num) (by norm_num)
  unfold Rel at r3
  have e : |(F.rnd (1 / F.rnd (p.aodp * p.betao2)) : ℝ) - 1 / (p.aodp * p.betao2 : ℝ)| ≤ 4 / 10 ^ 16 := r3.trans (by linarith)
  have b : |1 / (p.aodp * p.betao2 : ℝ)| ≤ 139 / 100 := by rw [abs_of_pos (by linarith)]; exact P2
  exact mulr F e e b b (by norm_num)

theorem ck2_abs (F : Fl64) : |(ck2D F : ℝ) - ck2| ≤ 2 / 10 ^ 19 ∧ |ck2| ≤ 542 / 10 ^ 6 := by
  have hk := ck2_near F
  have v : ck2 = 1 / 2 * (1082616 / 10 ^ 9) := rfl
  unfold Rel at hk
  exact ⟨hk.trans (by rw [v]; norm_num), by rw [v]; norm_num [abs_of_pos]⟩

theorem ck4_abs (F : Fl64) : |(ck4D F : ℝ) - ck4| ≤ 15 / 10 ^ 23 ∧ |ck4| ≤ 6211 / 10 ^ 10 := by
  have h1 : |(F.rnd (165597 / 10 ^ 11) : ℝ) - 165597 / 10 ^ 11| ≤ 185 / 10 ^ 24 := by
    have := const_real F (165597 / 10 ^ 11) (E := 185 / 10 ^ 24) (by norm_num [abs_of_pos])
    push_cast at this
    exact this
  have v : ck4 = -(375 / 1000) * -(165597 / 10 ^ 11) := rfl
  refine ⟨?_, by rw [v]; norm_num [abs_of_pos]⟩
  unfold ck4D
  refine rnd_real F (e := 70 / 10 ^ 24) (A := 6211 / 10 ^ 10) ?_ (by rw [v]; norm_num [abs_of_pos]) (by norm_num)
  rw [v]
  push_cast
  rw [abs_le] at *
  constructor <;> linarith [h1.1, h1.2]

/-- The three factors of the rates. -/
theorem rates_near (F : Fl64) {p : RatePar} (h : RateOk p) {P : ℝ} (hP : P = 1 / (p.aodp * p.betao2) * (1 / (p.aodp * p.betao2))) :
    (|(rate1D F p : ℝ) - 3 * ck2 * P * p.xnodp| ≤ 6 / 10 ^ 19 ∧ |3 * ck2 * P * p.xnodp| ≤ 315 / 10 ^ 6) ∧
    (|(rate2D F p : ℝ) - 3 * ck2 * P * p.xnodp * ck2 * P| ≤ 13 / 10 ^ 22 ∧ |3 * ck2 * P * p.xnodp * ck2 * P| ≤ 331 / 10 ^ 9) ∧
    (|(rate3D F p : ℝ) - 5 / 4 * ck4 * P * P * p.xnodp| ≤ 8 / 10 ^ 22 ∧ |5 / 4 * ck4 * P * P * p.xnodp| ≤ 290 / 10 ^ 9) := by
  obtain ⟨q, qb⟩ := pinvsq_near F h
  rw [← hP] at q qb
  obtain ⟨k, kb⟩ := ck2_abs F
  obtain ⟨g, gb⟩ := ck4_abs F
  have three : |((3 : ℚ) : ℝ) - 3| ≤ 0 := by norm_num
  have five : |((5 / 4 : ℚ) : ℝ) - 5 / 4| ≤ 0 := by norm_num
  obtain ⟨u1, v1⟩ := mulr F three k (A := 3) (by norm_num [abs_of_pos]) kb (E := 8 / 10 ^ 19) (by norm_num)
  obtain ⟨u2, v2⟩ := mulr F u1 q v1 qb (E := 5 / 10 ^ 18) (by norm_num)
  obtain ⟨u3, v3⟩ := mulr F u2 (self0 p.xnodp) v2 h.n (E := 6 / 10 ^ 19) (by norm_num)
  have w3 : |3 * ck2 * P * p.xnodp| ≤ 315 / 10 ^ 6 := v3.trans (by norm_num)
  obtain ⟨u4, v4⟩ := mulr F u3 k w3 kb (E := 5 / 10 ^ 22) (by norm_num)
  obtain ⟨u5, v5⟩ := mulr F u4 q v4 qb (E := 13 / 10 ^ 22) (by norm_num)
  obtain ⟨x1, y1⟩ := mulr F five g (A := 5 / 4) (by norm_num [abs_of_pos]) gb (E := 3 / 10 ^ 22) (by norm_num)
  obtain ⟨x2, y2⟩ := mulr F x1 q y1 qb (E := 2 / 10 ^ 21) (by norm_num)
  obtain ⟨x3, y3⟩ := mulr F x2 q y2 qb (E := 7 / 10 ^ 21) (by norm_num)
  obtain ⟨x4, y4⟩ := mulr F x3 (self0 p.xnodp) y3 h.n (E := 8 / 10 ^ 22) (by norm_num)
  exact ⟨⟨u3, w3⟩, ⟨u5, v5.trans (by norm_num)⟩, x4, y4.trans (by norm_num)⟩

/-- **C209**: in `double` arithmetic `sxpx_common_init` finds the secular rate of the mean anomaly to `2.4 * 10 ^ -17`, of the perigee to
`2.4 * 10 ^ -18` and of the node to `8 * 10 ^ -19` radians per minute, for all orbits of more than 0.9 and at most 100 Earth radii with an eccentricity of
at most 0.44 at any inclination, the values that `sxpall_common_init` stored being taken as they are. -/
theorem C209_rates (F : Fl64) {p : RatePar} (h : RateOk p) {r : Recov} (m : RateMatch p r) :
    |(xmdotD F p : ℝ) - xmdotOf ck2 r| ≤ 24 / 10 ^ 18 ∧ |(omgdotD F p : ℝ) - omgdotOf ck2 ck4 r| ≤ 24 / 10 ^ 19 ∧
    |(xnodotD F p : ℝ) - xnodotOf ck2 ck4 r| ≤ 8 / 10 ^ 19 ∧ |(xhdot1D F p : ℝ) - xhdot1Of ck2 r| ≤ 65 / 10 ^ 20 := by
  have c0 := h.c0; have c1 := h.c1
  obtain ⟨⟨t1, t1b⟩, ⟨t2, t2b⟩, t3, t3b⟩ := rates_near F h rfl
  unfold xmdotOf omgdotOf xnodotOf xhdot1Of
  dsimp only
  rw [m.cosio, m.cosio2, m.betao2, m.betao, m.xnodp, m.aodp]
  unfold xmdotD omgdotD xnodotD xhdot1D
  generalize 1 / (p.aodp * p.betao2 : ℝ) * (1 / (p.aodp * p.betao2)) = P at *
  generalize 3 * ck2 * P * (p.xnodp : ℝ) * ck2 * P = T2 at *
  generalize 3 * ck2 * P * (p.xnodp : ℝ) = T1 at *
  generalize 5 / 4 * ck4 * P * P * (p.xnodp : ℝ) = T3 at *
  have hh : |(F.rnd (-rate1D F p * p.cosio) : ℝ) - -T1 * p.cosio| ≤ 65 / 10 ^ 20 ∧ |-T1 * (p.cosio : ℝ)| ≤ 315 / 10 ^ 6 * 1 := by
    refine mulr F (e := 6 / 10 ^ 19) ?_ (self0 p.cosio) (by rw [abs_neg]; exact t1b) h.ci (by norm_num)
    push_cast
    exact neg_near t1
  have n1 : |((-rate1D F p : ℚ) : ℝ) - -T1| ≤ 6 / 10 ^ 19 := by push_cast; exact neg_near t1
  have n1b : |-T1| ≤ 315 / 10 ^ 6 := by rw [abs_neg]; exact t1b
  refine ⟨?_, ?_, ?_, hh.1⟩
  · have x3 : |(x3thm1D F p : ℝ) - (3 * p.cosio2 - 1)| ≤ 6 / 10 ^ 16 ∧ |3 * (p.cosio2 : ℝ) - 1| ≤ 2 := by
      have a : |(F.rnd (3 * p.cosio2) : ℝ) - 3 * p.cosio2| ≤ 34 / 10 ^ 17 :=
        rnd0 F (A := 3) (by push_cast; ring) (by rw [abs_of_nonneg (by linarith)]; linarith) (by norm_num)
      have b : |3 * (p.cosio2 : ℝ) - 1| ≤ 2 := by rw [abs_le]; constructor <;> linarith
      exact ⟨subr F a (y := 1) (f := 0) (by norm_num) b (by norm_num), b⟩
    obtain ⟨q, qb⟩ := quad_near F c0 c1 13 78 137 (by norm_num) (by norm_num) (by norm_num) (by norm_num) (by norm_num) (by norm_num)
    obtain ⟨a1, b1⟩ := mulr F t1 (self0 p.betao) t1b h.be (E := 65 / 10 ^ 20) (by norm_num)
    obtain ⟨a2, b2⟩ := mulr F a1 x3.1 b1 x3.2 (E := 16 / 10 ^ 19) (by norm_num)
    obtain ⟨a3, b3⟩ := halfr F 2 (by norm_num) a2 b2 (E := 84 / 10 ^ 20) (by norm_num)
    have b4 := add_bd h.n b3 (C := 10032 / 10 ^ 5) (by norm_num)
    have a4 := addr F (self0 p.xnodp) a3 b4 (E := 12 / 10 ^ 18) (by norm_num)
    obtain ⟨a5, b5⟩ := mulr F t2 (self0 p.betao) t2b h.be (E := 14 / 10 ^ 22) (by norm_num)
    obtain ⟨a6, b6⟩ := mulr F a5 q b5 qb (E := 9 / 10 ^ 19) (by norm_num)
    obtain ⟨a7, b7⟩ := halfr F 16 (by norm_num) a6 b6 (E := 6 / 10 ^ 20) (by norm_num)
    have a8 := addr F a4 a7 (add_bd b4 b7 (C := 101 / 10 ^ 3) (by norm_num)) (E := 24 / 10 ^ 18) (by norm_num)
    push_cast at a8
    exact a8
  · obtain ⟨l, lb⟩ := lin_near F c0 c1 1 5 (A := 4) (B := 5) (E := 11 / 10 ^ 16) (by norm_num) (by norm_num) (by norm_num) (by norm_num) (by norm_num)
    obtain ⟨q, qb⟩ := quad_near F c0 c1 7 114 395 (by norm_num) (by norm_num) (by norm_num) (by norm_num) (by norm_num) (by norm_num)
    obtain ⟨s, sb⟩ := quad_near F c0 c1 3 36 49 (by norm_num) (by norm_num) (by norm_num) (by norm_num) (by norm_num) (by norm_num)
    obtain ⟨a2, b2⟩ := mulr F n1 l n1b lb (E := 3 / 10 ^ 18) (by norm_num)
    obtain ⟨a3, b3⟩ := halfr F 2 (by norm_num) a2 b2 (E := 16 / 10 ^ 19) (by norm_num)
    obtain ⟨a6, b6⟩ := mulr F t2 q t2b qb (E := 8 / 10 ^ 19) (by norm_num)
    obtain ⟨a7, b7⟩ := halfr F 16 (by norm_num) a6 b6 (E := 6 / 10 ^ 20) (by norm_num)
    have b8 := add_bd b3 b7 (C := 65 / 10 ^ 5) (by norm_num)
    have a8 := addr F a3 a7 b8 (E := 18 / 10 ^ 19) (by norm_num)
    obtain ⟨a9, b9⟩ := mulr F t3 s t3b sb (E := 49 / 10 ^ 20) (by norm_num)
    have a10 := addr F a8 a9 (add_bd b8 b9 (C := 8 / 10 ^ 4) (by norm_num)) (E := 24 / 10 ^ 19) (by norm_num)
    push_cast at a10
    exact a10
  · obtain ⟨l, lb⟩ := lin_near F c0 c1 4 19 (A := 15) (B := 19) (E := 4 / 10 ^ 15) (by norm_num) (by norm_num) (by norm_num) (by norm_num) (by norm_num)
    obtain ⟨w, wb⟩ := lin_near F c0 c1 3 7 (A := 4) (B := 7) (E := 13 / 10 ^ 16) (by norm_num) (by norm_num) (by norm_num) (by norm_num) (by norm_num)
    obtain ⟨a1, b1⟩ := mulr F t2 l t2b lb (E := 22 / 10 ^ 21) (by norm_num)
    obtain ⟨a2, b2⟩ := halfr F 2 (by norm_num) a1 b1 (E := 12 / 10 ^ 21) (by norm_num)
    have two : |((2 : ℚ) : ℝ) - 2| ≤ 0 := by norm_num
    obtain ⟨a3, b3⟩ := mulr F two t3 (A := 2) (by norm_num [abs_of_pos]) t3b (E := 17 / 10 ^ 22) (by norm_num)
    obtain ⟨a4, b4⟩ := mulr F a3 w b3 wb (E := 8 / 10 ^ 21) (by norm_num)
    have b5 := add_bd b2 b4 (C := 49 / 10 ^ 7) (by norm_num)
    have a5 := addr F a2 a4 b5 (E := 21 / 10 ^ 21) (by norm_num)
    obtain ⟨a6, b6⟩ := mulr F a5 (self0 p.cosio) b5 h.ci (E := 22 / 10 ^ 21) (by norm_num)
    have a7 := addr F hh.1 a6 (add_bd hh.2 b6 (C := 32 / 10 ^ 5) (by norm_num)) (E := 8 / 10 ^ 19) (by norm_num)
    push_cast at a7
    exact a7

/-- An orbit at 400 km and 60 degrees: in a million minutes the node moves back by 47.7 and the perigee forward by 11.8 radians. -/
example : ⌊xmdotD Fl64.ieee ⟨1 / 2, 1 / 4, 1, 1, 17 / 256, 17 / 16⟩ * 10 ^ 12⌋ = 66394315286 ∧
    ⌊omgdotD Fl64.ieee ⟨1 / 2, 1 / 4, 1, 1, 17 / 256, 17 / 16⟩ * 10 ^ 12⌋ = 11830929 ∧
    ⌊xnodotD Fl64.ieee ⟨1 / 2, 1 / 4, 1, 1, 17 / 256, 17 / 16⟩ * 10 ^ 12⌋ = -47720501 := by decide +kernel

/-- That orbit is within the hypotheses. -/
example : RateOk ⟨1 / 2, 1 / 4, 1, 1, 17 / 256, 17 / 16⟩ := by
  constructor <;> norm_num [abs_of_pos]

/-- The rates that the exact `sxpx_common_init` stores are those of the theorem. -/
example (e : Elem) : (sxpx_common_init e).xmdot = xmdotOf ck2 (sxpall_common_init e) ∧ (sxpx_common_init e).omgdot = omgdotOf ck2 ck4 (sxpall_common_init e) ∧
    (sxpx_common_init e).xnodot = xnodotOf ck2 ck4 (sxpall_common_init e) := ⟨rfl, rfl, rfl⟩

end SatSky.Props
