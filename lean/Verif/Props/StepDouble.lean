import Verif.Model.StepDouble
import Verif.Props.LongDouble

/-! C207: the time step of `SGP4` in `double` arithmetic. -/

namespace SatSky.Props

open SatSky.Spec SatSky.Geo SatSky.Relative SatSky.Sxp SatSky.Kep

/-- The stored values and the fields, taken as exact, as the model of `SGP4` in exact arithmetic reads them. -/
structure StepMatch (p : StepPar) (q : Sgp4) (e : Elem) : Prop where
  xmo : e.xmo = p.xmo
  omegao : e.omegao = p.omegao
  xnodeo : e.xnodeo = p.xnodeo
  eo : e.eo = p.eo
  bstar : e.bstar = p.bstar
  xmdot : q.i.xmdot = p.xmdot
  omgdot : q.i.omgdot = p.omgdot
  xnodot : q.i.xnodot = p.xnodot
  xnodcf : q.i.xnodcf = p.xnodcf
  c1 : q.i.c1 = p.c1
  c4 : q.i.c4 = p.c4
  c5 : q.c5 = p.c5
  t2cof : q.i.t2cof = p.t2cof
  t3cof : q.t3cof = p.t3cof
  t4cof : q.t4cof = p.t4cof
  t5cof : q.t5cof = p.t5cof
  d2 : q.d2 = p.d2
  d3 : q.d3 = p.d3
  d4 : q.d4 = p.d4
  eta : q.i.aodp * e.eo * q.i.tsi = p.eta
  xmcof : q.xmcof = p.xmcof
  delmo : q.delmo = p.delmo
  omgcof : q.omgcof = p.omgcof
  sinmo : q.sinmo = p.sinmo
  aodp : q.i.aodp = p.aodp
  xnodp : q.i.xnodp = p.xnodp
  simple : q.simple ↔ p.simple = true

/-- The sizes for which the step is estimated: 5000 radians of mean anomaly, a tenth of the axis lost by each drag term. -/
structure StepOk (p : StepPar) (t : ℚ) : Prop where
  time : |(t : ℝ)| ≤ 10 ^ 7
  xmo : |(p.xmo : ℝ)| ≤ 7
  omegao : |(p.omegao : ℝ)| ≤ 7
  xnodeo : |(p.xnodeo : ℝ)| ≤ 7
  eo : |(p.eo : ℝ)| ≤ 1
  xmdot : |(p.xmdot : ℝ) * t| ≤ 5000
  omgdot : |(p.omgdot : ℝ) * t| ≤ 20
  xnodot : |(p.xnodot : ℝ) * t| ≤ 20
  xnodcf : |(p.xnodcf : ℝ)| ≤ 1 ∧ |(p.xnodcf : ℝ) * (t * t)| ≤ 1
  c1 : |(p.c1 : ℝ) * t| ≤ 1 / 10
  c4 : |(p.bstar : ℝ) * p.c4 * t| ≤ 1 / 10
  c5 : |(p.bstar : ℝ) * p.c5| ≤ 1 / 100
  t2cof : |(p.t2cof : ℝ)| ≤ 1 ∧ |(p.t2cof : ℝ) * (t * t)| ≤ 1000
  t3cof : |(p.t3cof : ℝ)| ≤ 1 ∧ |(p.t3cof : ℝ) * (t * t * t)| ≤ 1000
  t4cof : |(p.t4cof : ℝ)| ≤ 1 ∧ |(t : ℝ) * (t * t * t)| * |(p.t4cof : ℝ)| ≤ 1000
  t5cof : |(p.t5cof : ℝ)| ≤ 1 ∧ |(t : ℝ) * (t * t * t)| * |(t : ℝ) * p.t5cof| ≤ 1000
  d2 : |(p.d2 : ℝ)| ≤ 1 ∧ |(p.d2 : ℝ) * (t * t)| ≤ 1 / 10
  d3 : |(p.d3 : ℝ)| ≤ 1 ∧ |(p.d3 : ℝ) * (t * t * t)| ≤ 1 / 10
  d4 : |(p.d4 : ℝ)| ≤ 1 ∧ |(p.d4 : ℝ) * (t * (t * t * t))| ≤ 1 / 10
  eta : |(p.eta : ℝ)| ≤ 1
  xmcof : |(p.xmcof : ℝ)| ≤ 1 / 10
  delmo : |(p.delmo : ℝ)| ≤ 8
  omgcof : |(p.omgcof : ℝ) * t| ≤ 1
  sinmo : |(p.sinmo : ℝ)| ≤ 1
  aodp : (9 / 10 : ℝ) ≤ p.aodp
  xnodp : |(p.xnodp : ℝ)| ≤ 1 / 10

/-! ### Tools -/

theorem rnd0 (F : Fl64) {z : ℚ} {Z A E : ℝ} (hz : (z : ℝ) = Z) (hA : |Z| ≤ A) (hE : A / 2 ^ 53 + 1 / 2 ^ 200 ≤ E) : |(F.rnd z : ℝ) - Z| ≤ E :=
  rnd_real F (e := 0) (A := A) (by rw [hz]; simp) hA (by linarith)

theorem addr (F : Fl64) {x y : ℚ} {X Y e f A E : ℝ} (hx : |(x : ℝ) - X| ≤ e) (hy : |(y : ℝ) - Y| ≤ f) (hA : |X + Y| ≤ A)
    (hE : (e + f) + (A + (e + f)) / 2 ^ 53 + 1 / 2 ^ 200 ≤ E) : |(F.rnd (x + y) : ℝ) - (X + Y)| ≤ E := by
  refine rnd_real F (e := e + f) ?_ hA hE
  push_cast
  rw [abs_le] at *
  constructor <;> linarith [hx.1, hx.2, hy.1, hy.2]

theorem subr (F : Fl64) {x y : ℚ} {X Y e f A E : ℝ} (hx : |(x : ℝ) - X| ≤ e) (hy : |(y : ℝ) - Y| ≤ f) (hA : |X - Y| ≤ A)
    (hE : (e + f) + (A + (e + f)) / 2 ^ 53 + 1 / 2 ^ 200 ≤ E) : |(F.rnd (x - y) : ℝ) - (X - Y)| ≤ E := by
  refine rnd_real F (e := e + f) ?_ hA hE
  push_cast
  rw [abs_le] at *
  constructor <;> linarith [hx.1, hx.2, hy.1, hy.2]

theorem self0 (z : ℚ) : |(z : ℝ) - z| ≤ 0 := by simp

/-- A further factor `t`, with a relative error and an underflow term. -/
theorem pow_step (F : Fl64) {z t w : ℚ} {Z e d E D : ℝ} (hz : |(z : ℝ) - Z| ≤ e * |Z| + d) (ht : |(t : ℝ)| ≤ 10 ^ 7) (hw : (w : ℝ) = z * t) (hd : 0 ≤ d)
    (hE : e + (1 + e) / 2 ^ 53 ≤ E) (hD : d * 10 ^ 7 * (1 + 1 / 2 ^ 53) + 1 / 2 ^ 200 ≤ D) : |(F.rnd w : ℝ) - Z * t| ≤ E * |Z * t| + D := by
  have h1 : |(w : ℝ) - Z * t| ≤ e * |Z * t| + d * 10 ^ 7 := by
    rw [hw, ← sub_mul, abs_mul, abs_mul]
    have a1 := mul_le_mul_of_nonneg_right hz (abs_nonneg (t : ℝ))
    have a2 := mul_le_mul_of_nonneg_left ht hd
    linarith
  refine (rnd_real F h1 le_rfl le_rfl).trans ?_
  have := mul_le_mul_of_nonneg_right hE (abs_nonneg (Z * t))
  linarith

theorem coef_step (F : Fl64) {k z : ℚ} {Z e d B E : ℝ} (hz : |(z : ℝ) - Z| ≤ e * |Z| + d) (hk : |(k : ℝ)| ≤ 1) (hB : |k * Z| ≤ B) (hd : 0 ≤ d) (he : 0 ≤ e)
    (hE : (e * B + d) + (B + (e * B + d)) / 2 ^ 53 + 1 / 2 ^ 200 ≤ E) : |(F.rnd (k * z) : ℝ) - k * Z| ≤ E := by
  refine rnd_real F (e := e * B + d) ?_ hB hE
  push_cast
  rw [← mul_sub, abs_mul]
  have a1 := mul_le_mul_of_nonneg_left hz (abs_nonneg (k : ℝ))
  have a2 := mul_le_mul_of_nonneg_left hB he
  have a3 := mul_le_mul_of_nonneg_right hk hd
  rw [abs_mul] at a2
  linarith

theorem tsq_near (F : Fl64) (t : ℚ) : |(tsqD F t : ℝ) - t * t| ≤ 2 / 10 ^ 16 * |(t : ℝ) * t| + 1 / 10 ^ 60 := by
  have := err_real F (t * t)
  unfold tsqD
  push_cast at this
  have h0 := abs_nonneg ((t : ℝ) * t)
  have n1 : (1 : ℝ) / 2 ^ 200 ≤ 1 / 10 ^ 60 := by norm_num
  have n2 := mul_le_mul_of_nonneg_right (show (1 : ℝ) / 2 ^ 53 ≤ 2 / 10 ^ 16 by norm_num) h0
  linarith

theorem tcube_near (F : Fl64) {t : ℚ} (ht : |(t : ℝ)| ≤ 10 ^ 7) : |(tcubeD F t : ℝ) - t * t * t| ≤ 4 / 10 ^ 16 * |(t : ℝ) * t * t| + 1 / 10 ^ 52 :=
  pow_step F (tsq_near F t) ht (by push_cast; rfl) (by norm_num) (by norm_num) (by norm_num)

theorem tfour_near (F : Fl64) {t : ℚ} (ht : |(t : ℝ)| ≤ 10 ^ 7) :
    |(tfourD F t : ℝ) - t * (t * t * t)| ≤ 6 / 10 ^ 16 * |(t : ℝ) * (t * t * t)| + 1 / 10 ^ 44 := by
  rw [mul_comm (t : ℝ) (t * t * t)]
  exact pow_step F (tcube_near F ht) ht (by push_cast; rw [mul_comm]) (by norm_num) (by norm_num) (by norm_num)

/-! ### The parts of the step -/

theorem xmdf_near (F : Fl64) {p : StepPar} {t : ℚ} (h : StepOk p t) :
    |(xmdfD F p t : ℝ) - (p.xmo + p.xmdot * t)| ≤ 12 / 10 ^ 13 ∧ |(p.xmo : ℝ) + p.xmdot * t| ≤ 5007 := by
  have b : |(p.xmo : ℝ) + p.xmdot * t| ≤ 5007 := (abs_add_le _ _).trans (by linarith [h.xmo, h.xmdot])
  have r := rnd0 F (z := p.xmdot * t) (by push_cast; rfl) h.xmdot (E := 56 / 10 ^ 14) (by norm_num)
  exact ⟨addr F (self0 _) r b (by norm_num), b⟩

theorem omgadf_near (F : Fl64) {p : StepPar} {t : ℚ} (h : StepOk p t) :
    |(omgadfD F p t : ℝ) - (p.omegao + p.omgdot * t)| ≤ 6 / 10 ^ 15 ∧ |(p.omegao : ℝ) + p.omgdot * t| ≤ 27 := by
  have b : |(p.omegao : ℝ) + p.omgdot * t| ≤ 27 := (abs_add_le _ _).trans (by linarith [h.omegao, h.omgdot])
  have r := rnd0 F (z := p.omgdot * t) (by push_cast; rfl) h.omgdot (E := 23 / 10 ^ 16) (by norm_num)
  exact ⟨addr F (self0 _) r b (by norm_num), b⟩

theorem xnode_near (F : Fl64) {p : StepPar} {t : ℚ} (h : StepOk p t) :
    |(xnodeD F p t : ℝ) - (p.xnodeo + p.xnodot * t + p.xnodcf * (t * t))| ≤ 1 / 10 ^ 14 ∧ |(p.xnodeo : ℝ) + p.xnodot * t + p.xnodcf * (t * t)| ≤ 28 := by
  have b : |(p.xnodeo : ℝ) + p.xnodot * t| ≤ 27 := (abs_add_le _ _).trans (by linarith [h.xnodeo, h.xnodot])
  have r := rnd0 F (z := p.xnodot * t) (by push_cast; rfl) h.xnodot (E := 23 / 10 ^ 16) (by norm_num)
  have r1 := addr F (self0 p.xnodeo) r b (E := 6 / 10 ^ 15) (by norm_num)
  have r2 := coef_step F (tsq_near F t) h.xnodcf.1 h.xnodcf.2 (by norm_num) (by norm_num) (E := 4 / 10 ^ 16) (by norm_num)
  have b2 : |(p.xnodeo : ℝ) + p.xnodot * t + p.xnodcf * (t * t)| ≤ 28 := (abs_add_le _ _).trans (by linarith [h.xnodcf.2])
  exact ⟨addr F r1 r2 b2 (by norm_num), b2⟩

/-- `temp` in exact arithmetic. -/
theorem drag_near (F : Fl64) (M : Libm) {p : StepPar} {t : ℚ} (h : StepOk p t) {D : ℝ} (hD : D = 1 + p.eta * Real.cos (p.xmo + p.xmdot * t)) :
    |(dragD F M p t : ℝ) - (p.omgcof * t + p.xmcof * (D * D * D - p.delmo))| ≤ 1447 / 10 ^ 15 ∧ |p.omgcof * t + p.xmcof * (D * D * D - p.delmo)| ≤ 3 := by
  obtain ⟨x, _⟩ := xmdf_near F h
  have c : |(M.cos (xmdfD F p t) : ℝ) - Real.cos (p.xmo + p.xmdot * t)| ≤ 1201 / 10 ^ 15 := (cos_lib M x).trans (by norm_num)
  obtain ⟨m, mb⟩ := mulr F (self0 p.eta) c h.eta (Real.abs_cos_le_one _) (E := 1202 / 10 ^ 15) (by norm_num)
  have Db : |D| ≤ 2 := by rw [hD]; exact (abs_add_le _ _).trans (by rw [abs_one]; linarith)
  have d : |(F.rnd (1 + F.rnd (p.eta * M.cos (xmdfD F p t))) : ℝ) - D| ≤ 1203 / 10 ^ 15 := by
    rw [hD] at Db ⊢
    have one : |((1 : ℚ) : ℝ) - 1| ≤ 0 := by simp
    exact addr F one m Db (by norm_num)
  unfold dragD
  dsimp only
  generalize F.rnd (1 + F.rnd (p.eta * M.cos (xmdfD F p t))) = z at *
  obtain ⟨q, qb⟩ := mulr F d d Db Db (E := 4814 / 10 ^ 15) (by norm_num)
  obtain ⟨c3, c3b⟩ := mulr F q d qb Db (E := 14442 / 10 ^ 15) (by norm_num)
  have sb : |D * D * D - p.delmo| ≤ 16 := (abs_sub _ _).trans (by linarith [h.delmo])
  have s := subr F c3 (self0 p.delmo) sb (E := 14445 / 10 ^ 15) (by norm_num)
  obtain ⟨k, kb⟩ := mulr F (self0 p.xmcof) s h.xmcof sb (E := 1446 / 10 ^ 15) (by norm_num)
  have o := rnd0 F (z := p.omgcof * t) (by push_cast; rfl) h.omgcof (E := 12 / 10 ^ 17) (by norm_num)
  have b : |p.omgcof * t + p.xmcof * (D * D * D - p.delmo)| ≤ 3 := (abs_add_le _ _).trans (by linarith [h.omgcof])
  exact ⟨addr F o k b (by norm_num), b⟩

theorem tempa_near (F : Fl64) {p : StepPar} {t : ℚ} (h : StepOk p t) {T : ℝ}
    (hT : T = if p.simple then (1 - p.c1 * t : ℝ) else 1 - p.c1 * t - p.d2 * (t * t) - p.d3 * (t * t * t) - p.d4 * (t * (t * t * t))) :
    |(tempaD F p t : ℝ) - T| ≤ 83 / 10 ^ 17 ∧ 6 / 10 ≤ T ∧ T ≤ 14 / 10 := by
  have r := rnd0 F (z := p.c1 * t) (by push_cast; rfl) h.c1 (E := 12 / 10 ^ 18) (by norm_num)
  have one : |((1 : ℚ) : ℝ) - 1| ≤ 0 := by simp
  have k1 := abs_le.1 h.c1
  have k2 := abs_le.1 h.d2.2
  have k3 := abs_le.1 h.d3.2
  have k4 := abs_le.1 h.d4.2
  have r0 := subr F one r (A := 11 / 10) (by rw [abs_le]; constructor <;> linarith [k1.1, k1.2]) (E := 14 / 10 ^ 17) (by norm_num)
  have r2 := coef_step F (tsq_near F t) h.d2.1 h.d2.2 (by norm_num) (by norm_num) (E := 8 / 10 ^ 17) (by norm_num)
  have r3 := coef_step F (tcube_near F h.time) h.d3.1 h.d3.2 (by norm_num) (by norm_num) (E := 8 / 10 ^ 17) (by norm_num)
  have r4 := coef_step F (tfour_near F h.time) h.d4.1 h.d4.2 (by norm_num) (by norm_num) (E := 8 / 10 ^ 17) (by norm_num)
  have s2 := subr F r0 r2 (A := 12 / 10) (by rw [abs_le]; constructor <;> linarith [k1.1, k1.2, k2.1, k2.2]) (E := 36 / 10 ^ 17) (by norm_num)
  have s3 := subr F s2 r3 (A := 13 / 10) (by rw [abs_le]; constructor <;> linarith [k1.1, k1.2, k2.1, k2.2, k3.1, k3.2]) (E := 59 / 10 ^ 17) (by norm_num)
  have s4 := subr F s3 r4 (A := 14 / 10) (by rw [abs_le]; constructor <;> linarith [k1.1, k1.2, k2.1, k2.2, k3.1, k3.2, k4.1, k4.2]) (E := 83 / 10 ^ 17) (by norm_num)
  unfold tempaD
  dsimp only
  by_cases hs : p.simple = true
  · rw [if_pos hs] at hT ⊢
    rw [hT]
    exact ⟨r0.trans (by norm_num), by linarith [k1.1, k1.2], by linarith [k1.1, k1.2]⟩
  · rw [if_neg hs] at hT ⊢
    rw [hT]
    exact ⟨s4, by linarith [k1.1, k1.2, k2.1, k2.2, k3.1, k3.2, k4.1, k4.2], by linarith [k1.1, k1.2, k2.1, k2.2, k3.1, k3.2, k4.1, k4.2]⟩

/-- The fourth- and fifth-order terms of the mean longitude. -/
theorem t45_near (F : Fl64) {p : StepPar} {t : ℚ} (h : StepOk p t) :
    |(F.rnd (tfourD F t * F.rnd (p.t4cof + F.rnd (t * p.t5cof))) : ℝ) - t * (t * t * t) * (p.t4cof + t * p.t5cof)| ≤ 22 / 10 ^ 13 ∧
    |(t : ℝ) * (t * t * t) * (p.t4cof + t * p.t5cof)| ≤ 2000 := by
  have hf := tfour_near F h.time
  have ht := h.time
  have i0 := err_real F (t * p.t5cof)
  have i1 := err_real F (p.t4cof + F.rnd (t * p.t5cof))
  push_cast at i0 i1
  have a4 := h.t4cof
  have a5 := h.t5cof
  have T1 : |(t : ℝ) * (t * t * t)| ≤ 10 ^ 28 := by
    rw [abs_mul, abs_mul, abs_mul]
    have h0 := abs_nonneg (t : ℝ)
    calc |(t : ℝ)| * (|(t : ℝ)| * |(t : ℝ)| * |(t : ℝ)|) = |(t : ℝ)| ^ 4 := by ring
      _ ≤ (10 ^ 7) ^ 4 := pow_le_pow_left₀ h0 ht 4
      _ = 10 ^ 28 := by norm_num
  have S5 : |(t : ℝ) * p.t5cof| ≤ 10 ^ 7 := by
    rw [abs_mul]
    exact (mul_le_mul ht a5.1 (abs_nonneg _) (by norm_num)).trans (by norm_num)
  have sum1 := abs_add_le (p.t4cof : ℝ) (t * p.t5cof)
  generalize (t : ℝ) * p.t5cof = v at *
  generalize (F.rnd (t * p.t5cof)) = w at *
  generalize F.rnd (p.t4cof + w) = z at *
  have hT0 := abs_nonneg ((t : ℝ) * (t * t * t))
  generalize hTT : (t : ℝ) * (t * t * t) = T at *
  have v0 := abs_nonneg v
  have c0 := abs_nonneg (p.t4cof : ℝ)
  have hw : |(w : ℝ)| ≤ |v| + (|v| / 2 ^ 53 + 1 / 2 ^ 200) := by
    have := abs_sub_abs_le_abs_sub (w : ℝ) v
    linarith
  have sum2 := abs_add_le (p.t4cof : ℝ) w
  have n1 : (1 : ℝ) / 2 ^ 200 ≤ 1 / 10 ^ 60 := by norm_num
  have hz : |(z : ℝ) - (p.t4cof + v)| ≤ 3 / 10 ^ 16 * (|(p.t4cof : ℝ)| + |v|) + 1 / 10 ^ 59 := by
    have tri : |(z : ℝ) - (p.t4cof + v)| ≤ |(z : ℝ) - (p.t4cof + w)| + |(w : ℝ) - v| := by
      have := abs_add_le ((z : ℝ) - (p.t4cof + w)) (w - v)
      rwa [show (z : ℝ) - (p.t4cof + w) + (w - v) = z - (p.t4cof + v) by ring] at this
    linarith
  have hb : |T * (p.t4cof + v)| ≤ 2000 := by
    rw [abs_mul]
    have := mul_le_mul_of_nonneg_left sum1 hT0
    linarith [a4.2, a5.2]
  refine ⟨rnd_real F (e := 19 / 10 ^ 13) (A := 2000) ?_ hb (by norm_num), hb⟩
  push_cast
  have hzb : |(z : ℝ)| ≤ (1 + 3 / 10 ^ 16) * (|(p.t4cof : ℝ)| + |v|) + 1 / 10 ^ 59 := by
    have := abs_sub_abs_le_abs_sub (z : ℝ) (p.t4cof + v)
    linarith
  have e1 : (tfourD F t : ℝ) * z - T * (p.t4cof + v) = (tfourD F t - T) * z + T * (z - (p.t4cof + v)) := by ring
  rw [e1]
  refine (abs_add_le _ _).trans ?_
  rw [abs_mul (_ - _), abs_mul T (_ - _)]
  have p1 := mul_le_mul hf hzb (abs_nonneg _) (by positivity)
  have p2 := mul_le_mul_of_nonneg_left hz hT0
  have q : |T| * (|(p.t4cof : ℝ)| + |v|) ≤ 2000 := by linarith [a4.2, a5.2]
  generalize |T| = τ at *
  have S : |(p.t4cof : ℝ)| + |v| ≤ 10 ^ 7 + 1 := by linarith [a4.1]
  generalize |(p.t4cof : ℝ)| + |v| = σ at *
  nlinarith

theorem templ_near (F : Fl64) {p : StepPar} {t : ℚ} (h : StepOk p t) {T : ℝ}
    (hT : T = if p.simple then (p.t2cof * (t * t) : ℝ) else p.t2cof * (t * t) + p.t3cof * (t * t * t) + t * (t * t * t) * (p.t4cof + t * p.t5cof)) :
    |(templD F p t : ℝ) - T| ≤ 40 / 10 ^ 13 ∧ |T| ≤ 4000 := by
  have r2 := coef_step F (tsq_near F t) h.t2cof.1 h.t2cof.2 (by norm_num) (by norm_num) (E := 4 / 10 ^ 13) (by norm_num)
  have r3 := coef_step F (tcube_near F h.time) h.t3cof.1 h.t3cof.2 (by norm_num) (by norm_num) (E := 6 / 10 ^ 13) (by norm_num)
  obtain ⟨r4, r4b⟩ := t45_near F h
  have b1 : |(p.t2cof : ℝ) * (t * t) + p.t3cof * (t * t * t)| ≤ 2000 := (abs_add_le _ _).trans (by linarith [h.t2cof.2, h.t3cof.2])
  have b2 : |(p.t2cof : ℝ) * (t * t) + p.t3cof * (t * t * t) + t * (t * t * t) * (p.t4cof + t * p.t5cof)| ≤ 4000 := (abs_add_le _ _).trans (by linarith)
  have s1 := addr F r2 r3 b1 (E := 13 / 10 ^ 13) (by norm_num)
  have s2 := addr F s1 r4 b2 (E := 40 / 10 ^ 13) (by norm_num)
  unfold templD
  dsimp only
  by_cases hs : p.simple = true
  · rw [if_pos hs] at hT ⊢
    rw [hT]
    exact ⟨r2.trans (by norm_num), by linarith [h.t2cof.2]⟩
  · rw [if_neg hs] at hT ⊢
    rw [hT]
    exact ⟨s2, b2⟩

theorem sgpAxis_near (F : Fl64) {p : StepPar} {t : ℚ} (h : StepOk p t) {T : ℝ} (hT : |(tempaD F p t : ℝ) - T| ≤ 83 / 10 ^ 17) (h0 : 6 / 10 ≤ T) (h1 : T ≤ 14 / 10) :
    |(sgpAxisD F p t : ℝ) - p.aodp * T * T| ≤ 28 / 10 ^ 16 * p.aodp := by
  have ha := h.aodp
  have hb : |T| ≤ 14 / 10 := by rw [abs_of_pos (by linarith)]; exact h1
  have hp : ¬ tempaD F p t < 0 := by
    have : (0 : ℝ) < tempaD F p t := by linarith [(abs_le.1 hT).1]
    exact not_lt.2 (by exact_mod_cast this.le)
  unfold sgpAxisD
  dsimp only
  rw [if_neg hp]
  obtain ⟨m, mb⟩ := mulr_scaled F (x := p.aodp) (X := p.aodp) (e := 0) (A := 1) ha (by simp) hT (by rw [abs_of_pos (by linarith)]; linarith) hb (E := 99 / 10 ^ 17) (by norm_num)
  exact (mulr_scaled F ha m hT mb hb (by norm_num)).1

theorem tempe_near (F : Fl64) (M : Libm) {p : StepPar} {t : ℚ} (h : StepOk p t) {X T : ℝ} (hx : |(xmpD F M p t : ℝ) - X| ≤ 33 / 10 ^ 13)
    (hT : T = if p.simple then (p.bstar * p.c4 * t : ℝ) else p.bstar * p.c4 * t + p.bstar * p.c5 * (Real.sin X - p.sinmo)) :
    |(tempeD F M p t : ℝ) - T| ≤ 331 / 10 ^ 16 ∧ |T| ≤ 12 / 100 := by
  have i0 := err_real F (p.bstar * p.c4)
  push_cast at i0
  have i1 : |(F.rnd (p.bstar * p.c4) : ℝ) - p.bstar * p.c4| ≤ 2 / 10 ^ 16 * |(p.bstar : ℝ) * p.c4| + 1 / 10 ^ 60 := by
    have n1 : (1 : ℝ) / 2 ^ 200 ≤ 1 / 10 ^ 60 := by norm_num
    have n2 := mul_le_mul_of_nonneg_right (show (1 : ℝ) / 2 ^ 53 ≤ 2 / 10 ^ 16 by norm_num) (abs_nonneg ((p.bstar : ℝ) * p.c4))
    linarith
  have r0 : |(F.rnd (F.rnd (p.bstar * p.c4) * t) : ℝ) - p.bstar * p.c4 * t| ≤ 5 / 10 ^ 17 := by
    have := pow_step F i1 h.time (w := F.rnd (p.bstar * p.c4) * t) (by push_cast; rfl) (by norm_num) (E := 4 / 10 ^ 16) (D := 1 / 10 ^ 52) (by norm_num) (by norm_num)
    refine this.trans ?_
    linarith [h.c4]
  have r5 := rnd0 F (z := p.bstar * p.c5) (by push_cast; rfl) h.c5 (E := 2 / 10 ^ 18) (by norm_num)
  have s : |(M.sin (xmpD F M p t) : ℝ) - Real.sin X| ≤ 3301 / 10 ^ 15 := (sin_lib M hx).trans (by norm_num)
  have db : |Real.sin X - p.sinmo| ≤ 2 := (abs_sub _ _).trans (by linarith [h.sinmo, Real.abs_sin_le_one X])
  have d := subr F s (self0 p.sinmo) db (E := 3302 / 10 ^ 15) (by norm_num)
  obtain ⟨m, mb⟩ := mulr F r5 d h.c5 db (E := 3303 / 10 ^ 17) (by norm_num)
  have b : |(p.bstar : ℝ) * p.c4 * t + p.bstar * p.c5 * (Real.sin X - p.sinmo)| ≤ 12 / 100 := (abs_add_le _ _).trans (by linarith [h.c4])
  have s2 := addr F r0 m b (E := 331 / 10 ^ 16) (by norm_num)
  unfold tempeD
  dsimp only
  by_cases hs : p.simple = true
  · rw [if_pos hs] at hT ⊢
    rw [hT]
    exact ⟨r0.trans (by norm_num), by linarith [h.c4]⟩
  · rw [if_neg hs] at hT ⊢
    rw [hT]
    exact ⟨s2, b⟩

theorem ecc_near (F : Fl64) (M : Libm) {p : StepPar} {t : ℚ} (h : StepOk p t) {T : ℝ} (hT : |(tempeD F M p t : ℝ) - T| ≤ 331 / 10 ^ 16) (hb : |T| ≤ 12 / 100) :
    |(eccD F M p t : ℝ) - (if p.eo - T < 1 / 10 ^ 6 then 1 / 10 ^ 6 else p.eo - T)| ≤ 34 / 10 ^ 15 := by
  have b : |p.eo - T| ≤ 112 / 100 := (abs_sub _ _).trans (by linarith [h.eo])
  have s := subr F (self0 p.eo) hT b (E := 333 / 10 ^ 16) (by norm_num)
  have c : |(F.rnd (1 / 10 ^ 6) : ℝ) - 1 / 10 ^ 6| ≤ 1 / 10 ^ 20 := by
    have := const_real F (1 / 10 ^ 6) (E := 1 / 10 ^ 20) (by norm_num [abs_of_pos])
    simpa using this
  unfold eccD
  dsimp only
  generalize F.rnd (p.eo - tempeD F M p t) = z at *
  generalize F.rnd (1 / 10 ^ 6) = k at *
  generalize (p.eo - T : ℝ) = Z at *
  obtain ⟨s1, s2⟩ := abs_le.1 s
  obtain ⟨c1, c2⟩ := abs_le.1 c
  by_cases hz : z < k
  · have hz' : (z : ℝ) < k := by exact_mod_cast hz
    rw [if_pos hz]
    split_ifs with hZ
    · exact c.trans (by norm_num)
    · rw [abs_le]
      constructor <;> linarith [not_lt.1 hZ]
  · have hz' : (k : ℝ) ≤ z := by exact_mod_cast not_lt.1 hz
    rw [if_neg hz]
    split_ifs with hZ
    · rw [abs_le]
      constructor <;> linarith
    · exact s.trans (by norm_num)

/-- **C207**: in `double` the time step of `SGP4`, for the stored values taken as exact, gives the node to `10 ^ -14`, the axis to
`2.8 * 10 ^ -15` of the original one, the eccentricity to `3.4 * 10 ^ -14`, the perigee to `1.5 * 10 ^ -12` and the mean longitude to
`7.1 * 10 ^ -12` radians. -/
theorem C207_step (F : Fl64) (M : Libm) {p : StepPar} {t : ℚ} (h : StepOk p t) {q : Sgp4} {e : Elem} (m : StepMatch p q e) :
    |(xnodeD F p t : ℝ) - (sgp4Mean q e t).xnode| ≤ 1 / 10 ^ 14 ∧
    |(sgpAxisD F p t : ℝ) - (sgp4Mean q e t).a| ≤ 28 / 10 ^ 16 * p.aodp ∧
    |(eccD F M p t : ℝ) - (sgp4Mean q e t).ecc| ≤ 34 / 10 ^ 15 ∧
    |(omegaD F M p t : ℝ) - (sgp4Mean q e t).omega| ≤ 15 / 10 ^ 13 ∧
    |(xlD F M p t : ℝ) - (sgp4Mean q e t).xl| ≤ 71 / 10 ^ 13 := by
  unfold sgp4Mean
  dsimp only
  rw [m.eta, m.xmo, m.omegao, m.xnodeo, m.eo, m.bstar, m.xmdot, m.omgdot, m.xnodot, m.xnodcf, m.c1, m.c4, m.c5, m.t2cof, m.t3cof, m.t4cof, m.t5cof,
    m.d2, m.d3, m.d4, m.xmcof, m.delmo, m.omgcof, m.sinmo, m.aodp, m.xnodp]
  simp only [m.simple]
  obtain ⟨x, xb⟩ := xmdf_near F h
  obtain ⟨o, ob⟩ := omgadf_near F h
  obtain ⟨n, nb⟩ := xnode_near F h
  obtain ⟨d, db⟩ := drag_near F M h rfl
  generalize p.omgcof * t + p.xmcof * ((1 + p.eta * Real.cos (p.xmo + p.xmdot * t)) * (1 + p.eta * Real.cos (p.xmo + p.xmdot * t)) *
    (1 + p.eta * Real.cos (p.xmo + p.xmdot * t)) - (p.delmo : ℝ)) = D at *
  obtain ⟨ta, ta0, ta1⟩ := tempa_near F h rfl
  obtain ⟨tl, tlb⟩ := templ_near F h rfl
  have xm : |(xmpD F M p t : ℝ) - (if p.simple = true then (p.xmo : ℝ) + p.xmdot * t else p.xmo + p.xmdot * t + D)| ≤ 33 / 10 ^ 13 ∧
      |(if p.simple = true then (p.xmo : ℝ) + p.xmdot * t else p.xmo + p.xmdot * t + D)| ≤ 5010 := by
    unfold xmpD
    split_ifs
    · exact ⟨x.trans (by norm_num), by linarith⟩
    · have b := (abs_add_le ((p.xmo : ℝ) + p.xmdot * t) D).trans (show _ ≤ 5010 by linarith)
      exact ⟨addr F x d b (by norm_num), b⟩
  have om : |(omegaD F M p t : ℝ) - (if p.simple = true then (p.omegao : ℝ) + p.omgdot * t else p.omegao + p.omgdot * t - D)| ≤ 15 / 10 ^ 13 ∧
      |(if p.simple = true then (p.omegao : ℝ) + p.omgdot * t else p.omegao + p.omgdot * t - D)| ≤ 30 := by
    unfold omegaD
    split_ifs
    · exact ⟨o.trans (by norm_num), by linarith⟩
    · have b := (abs_sub ((p.omegao : ℝ) + p.omgdot * t) D).trans (show _ ≤ 30 by linarith)
      exact ⟨subr F o d b (by norm_num), b⟩
  obtain ⟨te, teb⟩ := tempe_near F M h xm.1 rfl
  refine ⟨n, ?_, ecc_near F M h te teb, om.1, ?_⟩
  · rw [if_neg (not_lt.2 (by linarith))]
    exact sgpAxis_near F h ta ta0 ta1
  · obtain ⟨xm, xmb⟩ := xm
    obtain ⟨om, omb⟩ := om
    unfold xlD
    have b1 := (abs_add_le _ _).trans (add_le_add xmb omb)
    have s1 := addr F xm om b1 (E := 54 / 10 ^ 13) (by norm_num)
    have b2 := (abs_add_le _ _).trans (add_le_add b1 nb)
    have s2 := addr F s1 n b2 (E := 60 / 10 ^ 13) (by norm_num)
    obtain ⟨k, kb⟩ := mulr F (self0 p.xnodp) tl h.xnodp tlb (E := 45 / 10 ^ 14) (by norm_num)
    have b3 := (abs_add_le _ _).trans (add_le_add b2 kb)
    exact addr F s2 k b3 (by norm_num)

/-- Values of a low orbit, per minute. -/
def stepSample (simple : Bool) : StepPar :=
  { xmo := 1, omegao := 2, xnodeo := 3, eo := 1 / 1000, bstar := 1 / 10000, xmdot := 13 / 200, omgdot := 1 / 20000, xnodot := -1 / 16000, xnodcf := -1 / 10 ^ 13,
    c1 := 1 / 10 ^ 9, c4 := 1 / 10 ^ 4, c5 := 1 / 10 ^ 3, t2cof := 15 / 10 ^ 10, t3cof := 1 / 10 ^ 17, t4cof := 1 / 10 ^ 25, t5cof := 1 / 10 ^ 33, d2 := 1 / 10 ^ 17,
    d3 := 1 / 10 ^ 25, d4 := 1 / 10 ^ 33, eta := 1 / 50, xmcof := -1 / 10 ^ 4, delmo := 103 / 100, omgcof := 1 / 10 ^ 9, sinmo := 5 / 6, aodp := 17 / 16, xnodp := 13 / 200,
    simple := simple }

/-- A day after the epoch the sample is within the hypotheses. -/
theorem stepSample_ok (b : Bool) : StepOk (stepSample b) 1440 := by
  constructor <;> norm_num [stepSample, abs_of_pos]

/-- The step of the sample in `double`, with and without the drag terms of higher order. -/
example : ⌊tempaD Fl64.ieee (stepSample false) 1440 * 10 ^ 12⌋ = 999998559979 ∧ ⌊tempaD Fl64.ieee (stepSample true) 1440 * 10 ^ 12⌋ = 999998559999 ∧
    ⌊templD Fl64.ieee (stepSample false) 1440 * 10 ^ 12⌋ = 3110429860 ∧ ⌊sgpAxisD Fl64.ieee (stepSample false) 1440 * 10 ^ 12⌋ = 1062496939958 := by
  decide +kernel

/-- The stored values of the sample, as reals. -/
noncomputable def stepReal (p : StepPar) : Sgp4 :=
  { i := { cosio := 0, cosio2 := 0, eosq := 0, betao2 := 1, betao := 1, xnodp := p.xnodp, aodp := p.aodp, s4 := 0, qoms24 := 0, tsi := p.eta / (p.aodp * p.eo), eta := p.eta,
           coef := 0, coef1 := 0, c1 := p.c1, c4 := p.c4, sinio := 1, xmdot := p.xmdot, omgdot := p.omgdot, xnodot := p.xnodot, xnodcf := p.xnodcf, t2cof := p.t2cof }
    simple := p.simple = true, delmo := p.delmo, d2 := p.d2, d3 := p.d3, d4 := p.d4, t3cof := p.t3cof, t4cof := p.t4cof, t5cof := p.t5cof, sinmo := p.sinmo,
    xmcof := p.xmcof, omgcof := p.omgcof, c5 := p.c5 }

/-- The mean longitude of the sample a day after the epoch. -/
example (F : Fl64) (M : Libm) (b : Bool) :
    |(xlD F M (stepSample b) 1440 : ℝ) - (sgp4Mean (stepReal (stepSample b)) ⟨0, 1 / 10000, 1, 3, 1 / 1000, 2, 1, 13 / 200, 0⟩ 1440).xl| ≤ 71 / 10 ^ 13 := by
  have h := (C207_step F M (stepSample_ok b) (q := stepReal (stepSample b)) (e := ⟨0, 1 / 10000, 1, 3, 1 / 1000, 2, 1, 13 / 200, 0⟩)
    (by constructor <;> norm_num [stepSample, stepReal])).2.2.2.2
  push_cast at h
  exact h

end SatSky.Props
