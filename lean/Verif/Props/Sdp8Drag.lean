import Verif.Props.Sdp8

/-! C163: the drag in SDP8. -/

namespace SatSky.Props

open Real SatSky.Sxp SatSky.Sgp8 SatSky.Sdp8 SatSky.Spec SatSky.Kep

/-- The mean motion under drag at the time `s`: that of the epoch with the constant rate of SGP8. -/
noncomputable def dragMotion (e : Elem) (s : ℝ) : ℝ := (orbOf e).n + xndt (fixedOf e) (orbOf e) * s

/-- The angle by which drag advances the satellite until the time `t`. -/
noncomputable def dragAngle (e : Elem) (t : ℝ) : ℝ := ∫ s in (0)..t, (dragMotion e s - (orbOf e).n)

theorem dragAngle_eq (e : Elem) (t : ℝ) : dragAngle e t = z1Of (SDP8_init e) t := by
  unfold dragAngle z1Of
  have : ∀ s, dragMotion e s - (orbOf e).n = xndt (fixedOf e) (orbOf e) * s := fun s => by unfold dragMotion; ring
  simp only [this]
  rw [intervalIntegral.integral_const_mul, integral_id]
  show _ = xndt (fixedOf e) (orbOf e) * (1 / 2) * t * t
  ring

/-- The first-order rates go with `n / a²`. -/
theorem first_rates {e : Elem} (hx : Above (orbOf e)) :
    HasDerivAt (fun n => (sxp8_common_init e (recovAt e n)).xmdt1) (7 / 3 * (SDP8_init e).c.xmdt1 / (orbOf e).n) (orbOf e).n ∧
    HasDerivAt (fun n => (sxp8_common_init e (recovAt e n)).xgdt1) (7 / 3 * (SDP8_init e).c.xgdt1 / (orbOf e).n) (orbOf e).n ∧
    HasDerivAt (fun n => (sxp8_common_init e (recovAt e n)).xhdt1) (7 / 3 * (SDP8_init e).c.xhdt1 / (orbOf e).n) (orbOf e).n := by
  have hone : ∀ a b : ℝ, 1 / (a * b * (a * b)) = 1 / b ^ 2 * (1 / a ^ 2) := fun a b => by rw [one_div_mul_one_div]; congr 1; ring
  have hbeta : (sxpall_common_init e).betao2 = betao2 (orbOf e) := rfl
  have key : ∀ f : Common8 → ℝ, (∃ c, ∀ n, f (sxp8_common_init e (recovAt e n)) = c * (n / axisFor (fieldOf e) n ^ 2)) →
      HasDerivAt (fun n => f (sxp8_common_init e (recovAt e n))) (7 / 3 * f (SDP8_init e).c / (orbOf e).n) (orbOf e).n := by
    rintro f ⟨c, hc⟩
    simp only [hc]
    rw [show (SDP8_init e).c = sxp8_common_init e (sxpall_common_init e) from rfl, ← recovAt_self hx,
      show (sxpall_common_init e).xnodp = (orbOf e).n from rfl, hc]
    exact seven_thirds hx c
  refine ⟨?_, ?_, ?_⟩
  · refine key (·.xmdt1) ⟨1 / 2 * (3 * ck2 * (1 / betao2 (orbOf e) ^ 2)) * Real.sqrt (1 - e.eo * e.eo) * ((sxpall_common_init e).cosio2 * 3 - 1), fun n => ?_⟩
    simp only [sxp8_common_init, recovAt, hone]
    show _ * sqrt (1 - e.eo * e.eo) * _ = _
    rw [hbeta]
    ring
  · refine key (·.xgdt1) ⟨-(1 / 2) * (3 * ck2 * (1 / betao2 (orbOf e) ^ 2)) * (1 - (sxpall_common_init e).cosio2 * 5), fun n => ?_⟩
    simp only [sxp8_common_init, recovAt, hone]
    rw [hbeta]
    ring
  · refine key (·.xhdt1) ⟨-(3 * ck2 * (1 / betao2 (orbOf e) ^ 2)) * (sxpall_common_init e).cosio, fun n => ?_⟩
    simp only [sxp8_common_init, recovAt, hone]
    rw [hbeta]
    ring

/-- What drag does in SDP8: the elements are those of the perturbation routines, before them perigee and node with the secular rates and with the change of
the rates, and between them the mean motion, the eccentricity and the mean anomaly with their change. -/
theorem C163_drag {e : Elem} (hx : Above (orbOf e)) :
    ∃ kM kG kH : ℝ,
      HasDerivAt (fun n => (sxp8_common_init e (recovAt e n)).xmdt1) kM (orbOf e).n ∧
      HasDerivAt (fun n => (sxp8_common_init e (recovAt e n)).xgdt1) kG (orbOf e).n ∧
      HasDerivAt (fun n => (sxp8_common_init e (recovAt e n)).xhdt1) kH (orbOf e).n ∧
      ∃ ecc : ℝ → ℝ, ecc 0 = e.eo ∧ (∃ c, ∀ t, ecc t = ecc 0 + c * t) ∧
      HasDerivAt (fun t => axisFor (fieldOf e) (dragMotion e t) * (1 - ecc t)) 0 0 ∧
      ∀ fuel cfg s t, elements8 fuel cfg (SDP8_init e) e s t =
        (Deep_dpsec fuel cfg (SDP8_init e).deep e s t
          { omgadf := e.omegao + omgdotOf ck2 ck4 (sxpall_common_init e) * t + kG * dragAngle e t
            xnode := e.xnodeo + xnodotOf ck2 ck4 (sxpall_common_init e) * t + kH * dragAngle e t
            xn := (orbOf e).n, em := 0, xinc := 0
            xll := e.xmo + xmdotOf ck2 (sxpall_common_init e) * t }).map fun r =>
        Deep_dpper cfg (SDP8_init e).deep e r.1 t
          { r.2 with
            xn := r.2.xn + (dragMotion e t - (orbOf e).n)
            em := r.2.em + (ecc t - e.eo)
            xll := r.2.xll + dragAngle e t + kM * dragAngle e t } := by
  obtain ⟨h1, h2, h3⟩ := first_rates hx
  obtain ⟨r1, r2, r3⟩ := C148_rates e (sxpall_common_init e)
  have hn : (SDP8_init e).deep.i.xnodp = (orbOf e).n := rfl
  have i1 : (SDP8_init e).deep.i.xmdot = xmdotOf ck2 (sxpall_common_init e) := r1
  have i2 : (SDP8_init e).deep.i.omgdot = omgdotOf ck2 ck4 (sxpall_common_init e) := r2
  have i3 : (SDP8_init e).deep.i.xnodot = xnodotOf ck2 ck4 (sxpall_common_init e) := r3
  have hz : ∀ t x, z7Of (SDP8_init e) t * x = 7 / 3 * x / (orbOf e).n * dragAngle e t := fun t x => by
    rw [dragAngle_eq, z7Of, hn]; ring
  refine ⟨_, _, _, h1, h2, h3, fun t => e.eo + (SDP8_init e).edot * t, by simp, ⟨(SDP8_init e).edot, fun t => by simp⟩, ?_, ?_⟩
  · have hn0 := hx.n
    have ha := (above_good hx).a
    have hμ : 0 < fieldOf e := by unfold fieldOf; positivity
    have d1 : HasDerivAt (dragMotion e) (xndt (fixedOf e) (orbOf e)) 0 :=
      (((hasDerivAt_id (0 : ℝ)).const_mul (xndt (fixedOf e) (orbOf e))).const_add (orbOf e).n).congr_deriv (by ring)
    have d2 : HasDerivAt (fun t => 1 - (e.eo + (SDP8_init e).edot * t)) (-(SDP8_init e).edot) 0 :=
      ((((hasDerivAt_id (0 : ℝ)).const_mul (SDP8_init e).edot).const_add e.eo).const_sub 1).congr_deriv (by ring)
    have h0 : dragMotion e 0 = (orbOf e).n := by unfold dragMotion; ring
    have d3 := axisFor_deriv hμ (n := dragMotion e) (t := 0) (by rw [h0]; exact hn0) d1
    refine (d3.mul d2).congr_deriv ?_
    rw [h0, show (SDP8_init e).edot = -(2 / 3) * xndtn (fixedOf e) (orbOf e) * (1 - e.eo) from rfl]
    unfold xndtn
    ring
  · intro fuel cfg s t
    unfold elements8 secular8 drag8
    rw [i1, i2, i3, hn]
    simp only [hz]
    rw [← dragAngle_eq]
    have e1 : dragMotion e t - (orbOf e).n = (SDP8_init e).xndt * t := by
      show dragMotion e t - (orbOf e).n = xndt (fixedOf e) (orbOf e) * t
      unfold dragMotion; ring
    have e2 : e.eo + (SDP8_init e).edot * t - e.eo = (SDP8_init e).edot * t := by ring
    simp only [e1, e2]

/-- A low circular orbit, on which the drag advances the satellite. -/
example {t : ℝ} (ht : 0 < t) : Above (orbOf (lowCircle (1 / 10 ^ 4))) ∧ 0 < dragAngle (lowCircle (1 / 10 ^ 4)) t := by
  have hq := congrArg Orb.n (lowCircle_orb (1 / 10 ^ 4))
  have h0 : 0 < xndtn (fixedOf (lowCircle (1 / 10 ^ 4))) (orbOf (lowCircle (1 / 10 ^ 4))) := by
    rw [lowCircle_xndtn]
    unfold qoms2t xke sConst earthRadius; norm_num
  have hn : 0 < (orbOf (lowCircle (1 / 10 ^ 4))).n := by
    rw [hq]; have := xke_pos'; positivity
  refine ⟨⟨hn, ?_, ?_⟩, ?_⟩
  · rw [lowCircle_orb]; simp
  · rw [lowCircle_orb]; norm_num [sConst, earthRadius]
  · have hd : 0 < xndt (fixedOf (lowCircle (1 / 10 ^ 4))) (orbOf (lowCircle (1 / 10 ^ 4))) := by
      unfold xndtn at h0
      exact (div_pos_iff_of_pos_right hn).1 h0
    rw [dragAngle_eq]
    show 0 < xndt (fixedOf (lowCircle (1 / 10 ^ 4))) (orbOf (lowCircle (1 / 10 ^ 4))) * (1 / 2) * t * t
    positivity

end SatSky.Props
