import Verif.Model.NodeDouble
import Verif.Props.CoefDouble

/-! C214: the quadratic drag terms `xnodcf` and `t2cof` in `double` arithmetic. -/

namespace SatSky.Props

open SatSky.Spec SatSky.Geo SatSky.Relative SatSky.Sxp SatSky.Kep

theorem xhdot1_bd (F : Fl64) {p : RatePar} (h : RateOk p) {r : Recov} (m : RateMatch p r) : |xhdot1Of ck2 r| ≤ 315 / 10 ^ 6 := by
  obtain ⟨⟨_, t1b⟩, _⟩ := rates_near F h rfl
  unfold xhdot1Of
  dsimp only
  rw [m.cosio, m.betao2, m.xnodp, m.aodp, abs_mul, abs_neg]
  exact (mul_le_mul t1b h.ci (abs_nonneg _) (by norm_num)).trans (by norm_num)

theorem node_product (F : Fl64) {y c : ℚ} {Y C w : ℝ} (w0 : 0 ≤ w) (y1 : |(y : ℝ) - Y| ≤ 26 / 10 ^ 19) (y2 : |Y| ≤ 1103 / 10 ^ 6)
    (h1 : |(c : ℝ) - C| ≤ 61 / 10 ^ 12 * w + 1 / 2 ^ 200) (h2 : |C| ≤ 137 / 10 * w) : |(F.rnd (y * c) : ℝ) - Y * C| ≤ 7 / 10 ^ 14 * w + 1 / 2 ^ 199 := by
  refine (mulr F y1 h1 y2 h2 ?_).1
  norm_num
  linarith

theorem t2_product (F : Fl64) {c : ℚ} {C w : ℝ} (w0 : 0 ≤ w) (h1 : |(c : ℝ) - C| ≤ 61 / 10 ^ 12 * w + 1 / 2 ^ 200) (h2 : |C| ≤ 137 / 10 * w) :
    |(F.rnd (3 / 2 * c) : ℝ) - 3 / 2 * C| ≤ 92 / 10 ^ 12 * w + 1 / 2 ^ 198 := by
  have h3 : |((3 / 2 : ℚ) : ℝ) - 3 / 2| ≤ 0 := by norm_num
  refine (mulr F h3 h1 (A := 3 / 2) (by norm_num [abs_of_pos]) h2 ?_).1
  norm_num
  linarith

/-- **C214**: in `double` arithmetic the quadratic drag terms of `sxpx_common_init` are within `7 * 10 ^ -14` (`xnodcf`, node) and `9.2 * 10 ^ -11`
(`t2cof`, mean longitude) of exact arithmetic, in units of `bstar * coef1 * xnodp * aodp`, apart from underflow. -/
theorem C214_quadratic (F : Fl64) (M : PowLib) {p : RatePar} {eo bstar : ℚ} (ok : RateOk p) {r : Recov} (m : RateMatch p r) {S T N C : ℝ}
    (hS : S = s4Of (perige r eo)) (hT : T = 1 / (r.aodp - S)) (hN : N = r.aodp * eo * T)
    (hC : C = qoms24Of (perige r eo) * (T * T) * (T * T) / |1 - N * N| ^ (7 / 2 : ℝ)) (h : DragOk p.aodp eo S) (n0 : (1 / 10 ^ 6 : ℝ) ≤ p.xnodp) :
    |(xnodcfD F M p eo bstar : ℝ) - 7 / 2 * r.betao2 * xhdot1Of ck2 r * (bstar * c2Of ck2 r eo T C)| ≤
      7 / 10 ^ 14 * (|(bstar : ℝ)| * (C * r.xnodp * r.aodp)) + 1 / 2 ^ 199 ∧
    |(t2cofD F M p eo bstar : ℝ) - 3 / 2 * (bstar * c2Of ck2 r eo T C)| ≤ 92 / 10 ^ 12 * (|(bstar : ℝ)| * (C * r.xnodp * r.aodp)) + 1 / 2 ^ 198 := by
  obtain ⟨key, Z0⟩ := c2_near F M m hS hT hN hC h ok.c0 ok.c1 n0
  have c := c1_product F (bstar := bstar) key.1 key.2 Z0
  have cb : |bstar * c2Of ck2 r eo T C| ≤ 137 / 10 * (|(bstar : ℝ)| * (C * r.xnodp * r.aodp)) := by
    rw [abs_mul]
    exact (mul_le_mul_of_nonneg_left key.2 (abs_nonneg _)).trans (le_of_eq (by ring))
  have w0 : 0 ≤ |(bstar : ℝ)| * (C * r.xnodp * r.aodp) := mul_nonneg (abs_nonneg _) Z0
  have e : |(bstar : ℝ)| * (61 / 10 ^ 12 * (C * r.xnodp * r.aodp)) = 61 / 10 ^ 12 * (|(bstar : ℝ)| * (C * r.xnodp * r.aodp)) := by ring
  rw [e] at c
  have x := (C209_rates F ok m).2.2.2
  have xb := xhdot1_bd F ok m
  have h7 : |((7 / 2 : ℚ) : ℝ) - 7 / 2| ≤ 0 := by norm_num
  have bb : |(p.betao2 : ℝ)| ≤ 1 := by rw [abs_of_nonneg (by linarith [ok.b0])]; exact ok.b1
  obtain ⟨a1, b1⟩ := mulr F h7 (self0 p.betao2) (A := 7 / 2) (by norm_num [abs_of_pos]) bb (E := 39 / 10 ^ 17) (by norm_num)
  obtain ⟨a2, b2⟩ := mulr F a1 x b1 xb (E := 26 / 10 ^ 19) (by norm_num)
  rw [m.betao2] at *
  exact ⟨node_product F w0 a2 (b2.trans (by norm_num)) c cb, t2_product F w0 c cb⟩

/-- `xnodcf` and `t2cof` of the exact `sxpx_common_init` are the ones of the theorem. -/
example (e : Elem) : (sxpx_common_init e).xnodcf = 7 / 2 * (sxpall_common_init e).betao2 * xhdot1Of ck2 (sxpall_common_init e) *
      (e.bstar * c2Of ck2 (sxpall_common_init e) e.eo (sxpx_common_init e).tsi (sxpx_common_init e).coef1) ∧
    (sxpx_common_init e).t2cof = 3 / 2 * (e.bstar * c2Of ck2 (sxpall_common_init e) e.eo (sxpx_common_init e).tsi (sxpx_common_init e).coef1) := ⟨rfl, rfl⟩

/-- A perigee at 293 km and an apogee at 505 km, inclined by 60 degrees, are within the hypotheses of the theorem. -/
example (F : Fl64) (M : PowLib) {r : Recov} (m : RateMatch ⟨1 / 2, 1 / 4, 1, 1, 17 / 256, 17 / 16⟩ r) (T N C : ℝ) (hT : T = 1 / (r.aodp - s4Of (perige r (1 / 64 : ℚ))))
    (hN : N = r.aodp * (1 / 64 : ℚ) * T) (hC : C = qoms24Of (perige r (1 / 64 : ℚ)) * (T * T) * (T * T) / |1 - N * N| ^ (7 / 2 : ℝ)) :
    |(t2cofD F M ⟨1 / 2, 1 / 4, 1, 1, 17 / 256, 17 / 16⟩ (1 / 64) (1 / 1024) : ℝ) - 3 / 2 * ((1 / 1024 : ℚ) * c2Of ck2 r (1 / 64 : ℚ) T C)| ≤
      92 / 10 ^ 12 * (|((1 / 1024 : ℚ) : ℝ)| * (C * r.xnodp * r.aodp)) + 1 / 2 ^ 198 := by
  have e : s4Of (perige r (1 / 64 : ℚ)) = 1 + 78 / (6378135 / 1000) := by
    have hp : ¬ perige r (1 / 64 : ℚ) < 156 := by unfold perige earthRadius; rw [m.aodp]; norm_num
    unfold s4Of
    rw [if_neg hp]
    rfl
  refine (C214_quadratic F M ?_ m rfl hT hN hC ?_ (by norm_num)).2
  · constructor <;> norm_num [abs_of_pos]
  · rw [e]
    constructor <;> norm_num

/-- The rate of the node that enters `xnodcf` for this orbit. -/
example : ⌊xhdot1D Fl64.ieee ⟨1 / 2, 1 / 4, 1, 1, 17 / 256, 17 / 16⟩ * 10 ^ 14⌋ = -4776247059 := by decide +kernel

end SatSky.Props
