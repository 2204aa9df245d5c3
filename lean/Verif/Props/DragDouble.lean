import Verif.Model.DragDouble
import Verif.Props.DensDouble
import Verif.Props.SelectDouble

/-! C211: the drag coefficient `coef1` and what it is made of, in `double` arithmetic. -/

namespace SatSky.Props

open SatSky.Spec SatSky.Geo SatSky.Relative SatSky.Sxp SatSky.Kep

theorem rel_half {x X e : ℝ} (h : Rel e x X) (hX : 0 < X) (he : e < 1) : Rel e (x ^ (1 / 2 : ℝ)) (X ^ (1 / 2 : ℝ)) := by
  have x0 := h.pos hX he
  have t : |x / X - 1| ≤ e := by
    unfold Rel at h
    rw [div_sub_one hX.ne', abs_div, abs_of_pos hX, div_le_iff₀ hX]
    exact h
  have k := rpow_near_base t he (y := 1 / 2) (by norm_num) (by norm_num)
  rw [Real.div_rpow x0.le hX.le] at k
  have p := Real.rpow_pos_of_pos hX (1 / 2)
  rw [div_sub_one p.ne', abs_div, abs_of_pos p, div_le_iff₀ p] at k
  exact k

theorem rpow_seven_halves {x : ℝ} (h : 0 < x) : x ^ (7 / 2 : ℝ) = x * x * (x * x ^ (1 / 2 : ℝ)) := by
  rw [show (7 / 2 : ℝ) = 1 + 1 + (1 + 1 / 2) by norm_num, Real.rpow_add h, Real.rpow_add h, Real.rpow_add h, Real.rpow_one]

theorem coef1_pow (M : PowLib) {x : ℚ} {X : ℝ} (h : Rel (42 / 10 ^ 14) x X) (hX : 19 / 100 ≤ X) (hX1 : X ≤ 1) :
    Rel (170 / 10 ^ 14) (M.pow x (7 / 2)) (X ^ (7 / 2 : ℝ)) ∧ 1 / 1000 ≤ X ^ (7 / 2 : ℝ) ∧ X ^ (7 / 2 : ℝ) ≤ 1 := by
  have X0 : 0 < X := by linarith
  have x0 : (0 : ℝ) < x := h.pos X0 (by norm_num)
  have h0 := rel_half h X0 (by norm_num)
  have p := Real.rpow_pos_of_pos X0 (1 / 2)
  have r1 := Rel.mul h h X0 X0 (by norm_num) (c := 841 / 10 ^ 15) (by norm_num)
  have r2 := Rel.mul h h0 X0 p (by norm_num) (c := 841 / 10 ^ 15) (by norm_num)
  have r3 := Rel.mul r1 r2 (by positivity) (by positivity) (by norm_num) (c := 1683 / 10 ^ 15) (by norm_num)
  rw [← rpow_seven_halves X0, ← rpow_seven_halves x0] at r3
  have l : (1 / 1000 : ℝ) ≤ X ^ (7 / 2 : ℝ) := by
    have q : X ≤ X ^ (1 / 2 : ℝ) := by
      have := Real.rpow_le_rpow_of_exponent_ge X0 hX1 (show (1 / 2 : ℝ) ≤ 1 by norm_num)
      rwa [Real.rpow_one] at this
    rw [rpow_seven_halves X0]
    have a : (19 / 100) * (19 / 100) ≤ X * X := mul_le_mul hX hX (by norm_num) X0.le
    have b : (19 / 100) * (19 / 100) ≤ X * X ^ (1 / 2 : ℝ) := mul_le_mul hX (hX.trans q) (by norm_num) X0.le
    have := mul_le_mul a b (by norm_num) (by positivity)
    norm_num at this ⊢
    linarith
  refine ⟨?_, l, Real.rpow_le_one X0.le hX1 (by norm_num)⟩
  have m := M.pow_err x (7 / 2) (by exact_mod_cast x0)
  push_cast at m
  unfold Rel at r3 ⊢
  generalize (M.pow x (7 / 2) : ℝ) = w at *
  generalize (x : ℝ) ^ (7 / 2 : ℝ) = v at *
  generalize X ^ (7 / 2 : ℝ) = V at *
  clear r1 r2 h h0
  norm_num at m r3 ⊢
  rw [abs_le] at *
  constructor <;> linarith [m.1, m.2, r3.1, r3.2]

/-- An orbit of at least 0.9 Earth radii that is at least a fiftieth of a radius above the level `s4`. -/
structure DragOk (aodp eo : ℚ) (S : ℝ) : Prop where
  a0 : (9 / 10 : ℝ) ≤ aodp
  a1 : (aodp : ℝ) ≤ 100
  e0 : eo = 0 ∨ (1 / 10 ^ 10 : ℝ) ≤ eo
  e1 : (eo : ℝ) ≤ 1
  gap : 1 / 50 ≤ (aodp : ℝ) - S
  low : 0 ≤ S
  eta : (aodp : ℝ) * eo * (1 / (aodp - S)) ≤ 9 / 10

theorem DragOk.nonneg {aodp eo : ℚ} {S : ℝ} (h : DragOk aodp eo S) : (0 : ℝ) ≤ eo := by
  rcases h.e0 with x | x
  · rw [x]; simp
  · linarith [show (0 : ℝ) ≤ 1 / 10 ^ 10 by norm_num]

theorem tsi_near (F : Fl64) {aodp eo : ℚ} {S : ℝ} (h : DragOk aodp eo S) (hs : |(s4D F (perigeD F aodp eo) : ℝ) - S| ≤ 9 / 10 ^ 16) :
    Rel (46 / 10 ^ 15) (tsiD F aodp eo) (1 / (aodp - S)) ∧ 1 / 100 ≤ 1 / (aodp - S) ∧ 1 / (aodp - S) ≤ 50 := by
  have g := h.gap
  have g1 : (aodp : ℝ) - S ≤ 100 := by linarith [h.a1, h.low]
  have r1 : Rel (452 / 10 ^ 16) (F.rnd (aodp - s4D F (perigeD F aodp eo))) (aodp - S) := by
    refine Rel.rnd F (a := 45 / 10 ^ 15) ?_ (le_trans (by norm_num) g) (by norm_num)
    unfold Rel
    push_cast
    rw [show (aodp : ℝ) - s4D F (perigeD F aodp eo) - (aodp - S) = -(s4D F (perigeD F aodp eo) - S) by ring, abs_neg]
    linarith
  have P3 : 1 / 100 ≤ 1 / (aodp - S) := by rw [le_div_iff₀ (by linarith)]; linarith
  have P2 : 1 / (aodp - S) ≤ 50 := by rw [div_le_iff₀ (by linarith)]; linarith
  refine ⟨?_, P3, P2⟩
  unfold tsiD
  refine Rel.rnd F (a := 453 / 10 ^ 16) ?_ (le_trans (by norm_num) P3) (by norm_num)
  push_cast
  exact Rel.div (Rel.refl 1) r1 (by norm_num) (by linarith) (by norm_num) (by norm_num) (by norm_num)

theorem eta_near (F : Fl64) {aodp eo : ℚ} {S : ℝ} (h : DragOk aodp eo S) (hs : |(s4D F (perigeD F aodp eo) : ℝ) - S| ≤ 9 / 10 ^ 16) :
    RelS (47 / 10 ^ 15) (etaD F aodp eo) (aodp * eo * (1 / (aodp - S))) := by
  obtain ⟨t, t0, _⟩ := tsi_near F h hs
  have ts : RelS (46 / 10 ^ 15) (tsiD F aodp eo) (1 / (aodp - S)) := by
    unfold RelS
    rw [abs_of_pos (lt_of_lt_of_le (by norm_num) t0)]
    exact t
  have a0 := h.a0
  have z1 : (aodp * eo : ℝ) = 0 ∨ 1 / 10 ^ 11 ≤ |(aodp * eo : ℝ)| := by
    rcases h.e0 with x | x
    · left; rw [x]; simp
    · right
      have := mul_le_mul a0 x (by norm_num) (by linarith)
      exact le_trans (by norm_num at this ⊢; linarith) (le_abs_self _)
  have r1 : RelS (12 / 10 ^ 17) (F.rnd (aodp * eo)) (aodp * eo) :=
    RelS.rnd F (a := 0) (by push_cast; exact RelS.refl _) (z1.imp id (fun x => le_trans (by norm_num) x)) (by norm_num)
  unfold etaD
  refine RelS.rnd F (a := 462 / 10 ^ 16) ?_ ?_ (by norm_num)
  · push_cast
    exact RelS.mul r1 ts (by norm_num) (by norm_num)
  · rcases z1 with x | x
    · left; rw [x, zero_mul]
    · right
      rw [abs_mul]
      have := mul_le_mul x (t0.trans (le_abs_self _)) (by norm_num) (abs_nonneg _)
      exact le_trans (by norm_num) this

theorem psisq_near (F : Fl64) {aodp eo : ℚ} {S : ℝ} (h : DragOk aodp eo S) (hs : |(s4D F (perigeD F aodp eo) : ℝ) - S| ≤ 9 / 10 ^ 16) {N : ℝ}
    (hN : N = aodp * eo * (1 / (aodp - S))) : Rel (42 / 10 ^ 14) (psisqD F aodp eo) |1 - N * N| ∧ 19 / 100 ≤ |1 - N * N| ∧ |1 - N * N| ≤ 1 := by
  have k := eta_near F h hs
  have N1 : N ≤ 9 / 10 := by rw [hN]; exact h.eta
  have N0 : 0 ≤ N := by
    obtain ⟨_, t0, _⟩ := tsi_near F h hs
    rw [hN]
    exact mul_nonneg (mul_nonneg (by linarith [h.a0]) h.nonneg) (le_trans (by norm_num) t0)
  rw [← hN] at k
  have ka : |(etaD F aodp eo : ℝ) - N| ≤ 424 / 10 ^ 16 := by
    unfold RelS at k
    rw [abs_of_nonneg N0] at k
    exact k.trans (by linarith)
  have nb : |N| ≤ 9 / 10 := by rw [abs_of_nonneg N0]; exact N1
  obtain ⟨q, qb⟩ := mulr F ka ka nb nb (E := 77 / 10 ^ 15) (by norm_num)
  have s0 : N * N ≤ 81 / 100 := by nlinarith
  have s1 : 0 ≤ N * N := mul_self_nonneg N
  have p : |(F.rnd (1 - F.rnd (etaD F aodp eo * etaD F aodp eo)) : ℝ) - (1 - N * N)| ≤ 78 / 10 ^ 15 :=
    subr F (x := 1) (X := 1) (e := 0) (by norm_num) q (A := 1) (by rw [abs_le]; constructor <;> linarith) (by norm_num)
  have e : |1 - N * N| = 1 - N * N := abs_of_nonneg (by linarith)
  rw [e]
  refine ⟨?_, by linarith, by linarith⟩
  unfold psisqD Rel
  have f : (0 : ℝ) ≤ F.rnd (1 - F.rnd (etaD F aodp eo * etaD F aodp eo)) := by linarith [(abs_le.1 p).1]
  rw [Rat.cast_abs, abs_of_nonneg f]
  exact p.trans (by linarith)

/-- **C211**: in `double` arithmetic `sxpx_common_init` has `tsi` to a relative error of `4.6 * 10 ^ -14`, `eta` of `4.7 * 10 ^ -14`, `coef` of
`7 * 10 ^ -13` and the drag coefficient `coef1` of `2.5 * 10 ^ -12`, for all orbits whose axis is a fiftieth of an Earth radius (128 km) above the level
`s4` and whose `eta` is at most 0.9, the axis that `sxpall_common_init` stored being taken as it is. -/
theorem C211_drag (F : Fl64) (M : PowLib) {aodp eo : ℚ} {r : Recov} (hr : r.aodp = aodp) {S T N Q : ℝ} (hS : S = s4Of (perige r eo)) (hT : T = 1 / (r.aodp - S))
    (hN : N = r.aodp * eo * T) (hQ : Q = qoms24Of (perige r eo)) (h : DragOk aodp eo S) :
    |(tsiD F aodp eo : ℝ) - T| ≤ 46 / 10 ^ 15 * T ∧ |(etaD F aodp eo : ℝ) - N| ≤ 47 / 10 ^ 15 * |N| ∧
    |(coefD F aodp eo : ℝ) - Q * (T * T) * (T * T)| ≤ 7 / 10 ^ 13 * (Q * (T * T) * (T * T)) ∧
    |(coef1D F M aodp eo : ℝ) - Q * (T * T) * (T * T) / |1 - N * N| ^ (7 / 2 : ℝ)| ≤ 25 / 10 ^ 13 * (Q * (T * T) * (T * T) / |1 - N * N| ^ (7 / 2 : ℝ)) := by
  obtain ⟨d1, d2⟩ := C210_density F (by linarith [h.a0]) h.a1 h.nonneg h.e1 hr
  rw [← hS] at d1
  rw [← hQ] at d2
  have hN' : N = aodp * eo * (1 / (aodp - S)) := by rw [hN, hT, hr]
  obtain ⟨t, t0, t1⟩ := tsi_near F h d1
  have n := eta_near F h d1
  obtain ⟨p, p0, p1⟩ := psisq_near F h d1 hN'
  rw [hr] at hT
  rw [← hT] at t t0 t1
  rw [← hN'] at n
  have Q0 : 1 / 10 ^ 10 ≤ Q := by
    obtain ⟨x, T0⟩ := qoms_exact (perige r eo) rfl
    rw [← hQ] at x
    obtain ⟨_, r1⟩ := sKm_range (perige r eo)
    have Tl : 6 / 10 ^ 3 ≤ (120 - sKm (perige r eo)) / (6378135 / 1000 : ℝ) := by rw [le_div_iff₀ (by norm_num)]; linarith
    generalize (120 - sKm (perige r eo)) / (6378135 / 1000 : ℝ) = U at *
    have u1 : 36 / 10 ^ 6 ≤ U * U := by nlinarith
    have u2 : 12 / 10 ^ 10 ≤ U * U * (U * U) := by nlinarith
    linarith [(abs_le.1 x).1]
  have q : Rel (5 / 10 ^ 13) (qoms24D F (perigeD F aodp eo)) Q := d2
  have T0 : 0 < T := lt_of_lt_of_le (by norm_num) t0
  have Qp : 0 < Q := lt_of_lt_of_le (by norm_num) Q0
  have b1 : 1 / 10 ^ 4 ≤ T * T := by nlinarith
  have r1 : Rel (93 / 10 ^ 15) (F.rnd (tsiD F aodp eo * tsiD F aodp eo)) (T * T) := by
    refine Rel.rnd F (a := 921 / 10 ^ 16) ?_ (le_trans (by norm_num) b1) (by norm_num)
    push_cast
    exact Rel.mul t t T0 T0 (by norm_num) (by norm_num)
  have b2 : 1 / 10 ^ 14 ≤ Q * (T * T) := le_trans (by norm_num) (mul_le_mul Q0 b1 (by norm_num) Qp.le)
  have r2 : Rel (594 / 10 ^ 15) (F.rnd (qoms24D F (perigeD F aodp eo) * F.rnd (tsiD F aodp eo * tsiD F aodp eo))) (Q * (T * T)) := by
    refine Rel.rnd F (a := 5931 / 10 ^ 16) ?_ (le_trans (by norm_num) b2) (by norm_num)
    push_cast
    exact Rel.mul q r1 Qp (by positivity) (by norm_num) (by norm_num)
  have b3 : 1 / 10 ^ 18 ≤ Q * (T * T) * (T * T) := le_trans (by norm_num) (mul_le_mul b2 b1 (by norm_num) (by positivity))
  have r3 : Rel (69 / 10 ^ 14) (coefD F aodp eo) (Q * (T * T) * (T * T)) := by
    unfold coefD
    refine Rel.rnd F (a := 6872 / 10 ^ 16) ?_ (le_trans (by norm_num) b3) (by norm_num)
    push_cast
    exact Rel.mul r2 r1 (by positivity) (by positivity) (by norm_num) (by norm_num)
  obtain ⟨w, w0, w1⟩ := coef1_pow M p p0 p1
  have wp : 0 < |1 - N * N| ^ (7 / 2 : ℝ) := lt_of_lt_of_le (by norm_num) w0
  have c0 : 0 < Q * (T * T) * (T * T) := by positivity
  refine ⟨t, n, r3.mono c0 (by norm_num), ?_⟩
  have b4 : 1 / 10 ^ 18 ≤ Q * (T * T) * (T * T) / |1 - N * N| ^ (7 / 2 : ℝ) := by
    rw [le_div_iff₀ wp]
    exact le_trans (by linarith) b3
  unfold coef1D
  refine Rel.rnd F (a := 24 / 10 ^ 13) ?_ (le_trans (by norm_num) b4) (by norm_num)
  push_cast
  exact Rel.div r3 w c0 wp (by norm_num) (by norm_num) (by norm_num)

/-- These are the values of the exact `sxpx_common_init`. -/
example (e : Elem) : (sxpx_common_init e).tsi = 1 / ((sxpall_common_init e).aodp - s4Of (perige (sxpall_common_init e) e.eo)) ∧
    (sxpx_common_init e).coef1 = (sxpx_common_init e).coef / |1 - (sxpx_common_init e).eta * (sxpx_common_init e).eta| ^ (7 / 2 : ℝ) := ⟨rfl, rfl⟩

/-- A perigee at 293 km and an apogee at 505 km: 19.9 and 0.33. -/
example : ⌊tsiD Fl64.ieee (17 / 16) (1 / 64) * 10 ^ 12⌋ = 19892295231996 ∧ ⌊etaD Fl64.ieee (17 / 16) (1 / 64) * 10 ^ 12⌋ = 330243182562 := by decide +kernel

/-- That orbit is within the hypotheses. -/
example {r : Recov} (hr : r.aodp = (17 / 16 : ℚ)) : DragOk (17 / 16) (1 / 64) (s4Of (perige r (1 / 64 : ℚ))) := by
  have e : s4Of (perige r (1 / 64 : ℚ)) = 1 + 78 / (6378135 / 1000) := by
    have hp : ¬ perige r (1 / 64 : ℚ) < 156 := by unfold perige earthRadius; rw [hr]; norm_num
    unfold s4Of
    rw [if_neg hp]
    rfl
  rw [e]
  constructor <;> norm_num

end SatSky.Props
