import Verif.Model.Propagate
import Verif.Lemmas.Jet
import Verif.Props.Oblate

/-! C109, C110: how drag changes the axis, the position along the orbit and the node in SGP4. -/

namespace SatSky.Props

open Real SatSky.Spec SatSky.Sxp Asymptotics Topology Filter Classical

/-- The semimajor axis, the argument of latitude of the mean satellite and the node at the time `t`. -/
noncomputable def axisAt (e : Elem) (t : ℝ) : ℝ := (sgp4Mean (SGP4_init e) e t).a
noncomputable def latitudeAt (e : Elem) (t : ℝ) : ℝ := (sgp4Mean (SGP4_init e) e t).xl - (sgp4Mean (SGP4_init e) e t).xnode
noncomputable def nodeAt (e : Elem) (t : ℝ) : ℝ := (sgp4Mean (SGP4_init e) e t).xnode

/-- The square root of the axis in units of its value at the epoch, as the program has it. -/
noncomputable def decay (e : Elem) : ℝ → ℝ :=
  if (SGP4_init e).simple then Jet.quartic 1 (-(sxpx_common_init e).c1) 0 0 0
  else Jet.quartic 1 (-(sxpx_common_init e).c1) (-(SGP4_init e).d2) (-(SGP4_init e).d3) (-(SGP4_init e).d4)

theorem decay_continuous (e : Elem) : Continuous (decay e) := by
  unfold decay; split_ifs <;> exact Jet.quartic_continuous _ _ _ _ _

theorem decay_zero (e : Elem) : decay e 0 = 1 := by
  unfold decay; split_ifs <;> simp [Jet.quartic]

theorem axis_eq (e : Elem) (t : ℝ) : axisAt e t =
    if decay e t < 0 then -((sxpx_common_init e).aodp * decay e t * decay e t) else (sxpx_common_init e).aodp * decay e t * decay e t := by
  have hd : decay e t = if (SGP4_init e).simple then 1 - (sxpx_common_init e).c1 * t else 1 - (sxpx_common_init e).c1 * t - (SGP4_init e).d2 * (t * t)
      - (SGP4_init e).d3 * (t * t * t) - (SGP4_init e).d4 * (t * (t * t * t)) := by
    unfold decay; split_ifs <;> (simp only [Jet.quartic]; ring)
  rw [hd]
  rfl

theorem decay_pos (e : Elem) : ∀ᶠ t in 𝓝 (0 : ℝ), 0 < decay e t := by
  have h : 0 < decay e 0 := by rw [decay_zero]; exact one_pos
  exact (decay_continuous e).continuousAt.eventually (lt_mem_nhds h)

theorem axis_near (e : Elem) : ∀ᶠ t in 𝓝 (0 : ℝ), axisAt e t = (sxpx_common_init e).aodp * decay e t ^ 2 := by
  filter_upwards [decay_pos e] with t ht
  rw [axis_eq, if_neg (not_lt.mpr ht.le)]; ring

theorem quartic_deriv (a0 a1 a2 a3 a4 t : ℝ) : HasDerivAt (Jet.quartic a0 a1 a2 a3 a4) (Jet.quartic a1 (2 * a2) (3 * a3) (4 * a4) 0 t) t := by
  have h := hasDerivAt_id t
  refine hda' (((((h.const_mul a1).const_add a0).add ((h.pow 2).const_mul a2)).add ((h.pow 3).const_mul a3)).add ((h.pow 4).const_mul a4)) (fun y => rfl) ?_
  simp [Jet.quartic]; ring

/-- The derivative of the axis. -/
theorem axis_deriv (e : Elem) {d : ℝ → ℝ} (hd : ∀ t, HasDerivAt (decay e) (d t) t) :
    ∀ᶠ t in 𝓝 (0 : ℝ), HasDerivAt (axisAt e) (2 * (sxpx_common_init e).aodp * decay e t * d t) t := by
  filter_upwards [(axis_near e).eventually_nhds] with t ht
  refine HasDerivAt.congr_of_eventuallyEq ?_ ht
  refine hda' (((hd t).pow 2).const_mul (sxpx_common_init e).aodp) (fun y => rfl) ?_
  simp; ring

/-- The equation of the decay, in terms of the root of the axis. -/
theorem decay_residual (e : Elem) {d : ℝ → ℝ} {n : ℕ} (hd : ∀ t, HasDerivAt (decay e) (d t) t) (ha : 0 < (sxpx_common_init e).aodp)
    (hs : (sxpx_common_init e).aodp ≠ (sxpx_common_init e).s4)
    (h : (fun t => d t * (1 + (sxpx_common_init e).aodp * (sxpx_common_init e).tsi * (decay e t * decay e t - 1)) ^ 4 + (sxpx_common_init e).c1)
      =O[𝓝 0] fun t => t ^ n) :
    (fun t => deriv (axisAt e) t + 2 * (sxpx_common_init e).c1 * √((sxpx_common_init e).aodp * axisAt e t)
      * (((sxpx_common_init e).aodp - (sxpx_common_init e).s4) / (axisAt e t - (sxpx_common_init e).s4)) ^ 4) =O[𝓝 0] fun t => t ^ n := by
  have htsi : (sxpx_common_init e).tsi = 1 / ((sxpx_common_init e).aodp - (sxpx_common_init e).s4) := rfl
  generalize (sxpx_common_init e).c1 = c at *
  have hne : (sxpx_common_init e).aodp - (sxpx_common_init e).s4 ≠ 0 := sub_ne_zero.mpr hs
  have hcont : ContinuousAt (fun t => 2 * (sxpx_common_init e).aodp * decay e t
      / (1 + (sxpx_common_init e).aodp * (sxpx_common_init e).tsi * (decay e t * decay e t - 1)) ^ 4) 0 := by
    have hc := (decay_continuous e).continuousAt (x := 0)
    refine ContinuousAt.div (by fun_prop) (by fun_prop) ?_
    rw [decay_zero]; norm_num
  have hq : ∀ᶠ t in 𝓝 (0 : ℝ), 1 + (sxpx_common_init e).aodp * (sxpx_common_init e).tsi * (decay e t * decay e t - 1) ≠ 0 := by
    have hc : ContinuousAt (fun t => 1 + (sxpx_common_init e).aodp * (sxpx_common_init e).tsi * (decay e t * decay e t - 1)) 0 := by
      have hc := (decay_continuous e).continuousAt (x := 0)
      fun_prop
    exact hc.eventually_ne (by rw [decay_zero]; norm_num)
  refine (Jet.mul_bounded h hcont).congr' ?_ EventuallyEq.rfl
  filter_upwards [axis_near e, axis_deriv e hd, decay_pos e, hq] with t h1 h2 h3 h4
  rw [h2.deriv, h1]
  rw [show (sxpx_common_init e).aodp * ((sxpx_common_init e).aodp * decay e t ^ 2) = ((sxpx_common_init e).aodp * decay e t) ^ 2 by ring,
    sqrt_sq (mul_pos ha h3).le]
  have h5 : ((sxpx_common_init e).aodp - (sxpx_common_init e).s4) / ((sxpx_common_init e).aodp * decay e t ^ 2 - (sxpx_common_init e).s4)
      = 1 / (1 + (sxpx_common_init e).aodp * (sxpx_common_init e).tsi * (decay e t * decay e t - 1)) := by
    have h6 : (sxpx_common_init e).aodp * decay e t ^ 2 - (sxpx_common_init e).s4 = ((sxpx_common_init e).aodp - (sxpx_common_init e).s4)
        * (1 + (sxpx_common_init e).aodp * (sxpx_common_init e).tsi * (decay e t * decay e t - 1)) := by
      rw [htsi]; field_simp; ring
    rw [h6]
    field_simp
  rw [h5]
  generalize 1 + (sxpx_common_init e).aodp * (sxpx_common_init e).tsi * (decay e t * decay e t - 1) = q at *
  field_simp

/-- C109: with the perigee above 220 km the axis follows, up to the fourth power of the time, the decay of a circular orbit in an atmosphere whose density
is inversely proportional to the fourth power of the height above the level `s`. -/
theorem C109_decay (e : Elem) (hp : 1 + 220 / earthRadius ≤ (sxpx_common_init e).aodp * (1 - e.eo)) (ha : 0 < (sxpx_common_init e).aodp)
    (hs : (sxpx_common_init e).aodp ≠ (sxpx_common_init e).s4) :
    axisAt e 0 = (sxpx_common_init e).aodp ∧
    (fun t => deriv (axisAt e) t + 2 * (sxpx_common_init e).c1 * √((sxpx_common_init e).aodp * axisAt e t)
      * (((sxpx_common_init e).aodp - (sxpx_common_init e).s4) / (axisAt e t - (sxpx_common_init e).s4)) ^ 4) =O[𝓝 0] fun t => t ^ 4 := by
  have hns : ¬ (SGP4_init e).simple := by
    show ¬ ((sxpx_common_init e).aodp * (1 - e.eo) < 220 / earthRadius + 1)
    linarith
  have hdec : decay e = Jet.quartic 1 (-(sxpx_common_init e).c1) (-(SGP4_init e).d2) (-(SGP4_init e).d3) (-(SGP4_init e).d4) := by
    unfold decay; rw [if_neg hns]
  constructor
  · rw [axis_eq, decay_zero]; norm_num
  · have hd : ∀ t, HasDerivAt (decay e) _ t := fun t => by rw [hdec]; exact quartic_deriv _ _ _ _ _ t
    refine decay_residual e hd ha hs ?_
    have htsi : (sxpx_common_init e).tsi = 1 / ((sxpx_common_init e).aodp - (sxpx_common_init e).s4) := rfl
    have d2 : (SGP4_init e).d2 = 4 * (sxpx_common_init e).aodp * (sxpx_common_init e).tsi * ((sxpx_common_init e).c1 * (sxpx_common_init e).c1) := rfl
    have d3 : (SGP4_init e).d3 = (17 * (sxpx_common_init e).aodp + (sxpx_common_init e).s4)
      * ((SGP4_init e).d2 * (sxpx_common_init e).tsi * (sxpx_common_init e).c1 / 3) := rfl
    have d4 : (SGP4_init e).d4 = 1 / 2 * ((SGP4_init e).d2 * (sxpx_common_init e).tsi * (sxpx_common_init e).c1 / 3) * (sxpx_common_init e).aodp
      * (sxpx_common_init e).tsi * (221 * (sxpx_common_init e).aodp + 31 * (sxpx_common_init e).s4) * (sxpx_common_init e).c1 := rfl
    have hne : (sxpx_common_init e).aodp - (sxpx_common_init e).s4 ≠ 0 := sub_ne_zero.mpr hs
    have hs4 : (sxpx_common_init e).tsi * (sxpx_common_init e).s4 = (sxpx_common_init e).aodp * (sxpx_common_init e).tsi - 1 := by
      rw [htsi]; field_simp; ring
    generalize hA : (sxpx_common_init e).aodp * (sxpx_common_init e).tsi = A at *
    generalize hc : (sxpx_common_init e).c1 = c at *
    have e2 : (SGP4_init e).d2 = 4 * A * c ^ 2 := by rw [d2, ← hA]; ring
    have e3 : (SGP4_init e).d3 = 4 / 3 * A * (18 * A - 1) * c ^ 3 := by
      rw [d3, e2, show (17 * (sxpx_common_init e).aodp + (sxpx_common_init e).s4) * (4 * A * c ^ 2 * (sxpx_common_init e).tsi * c / 3)
        = 4 / 3 * A * c ^ 3 * (17 * ((sxpx_common_init e).aodp * (sxpx_common_init e).tsi) + (sxpx_common_init e).tsi * (sxpx_common_init e).s4) by ring, hA, hs4]
      ring
    have e4 : (SGP4_init e).d4 = 2 / 3 * A ^ 2 * (252 * A - 31) * c ^ 4 := by
      rw [d4, e2, show 1 / 2 * (4 * A * c ^ 2 * (sxpx_common_init e).tsi * c / 3) * (sxpx_common_init e).aodp * (sxpx_common_init e).tsi
          * (221 * (sxpx_common_init e).aodp + 31 * (sxpx_common_init e).s4) * c
        = 2 / 3 * A * c ^ 4 * ((sxpx_common_init e).aodp * (sxpx_common_init e).tsi) * (221 * ((sxpx_common_init e).aodp * (sxpx_common_init e).tsi)
          + 31 * ((sxpx_common_init e).tsi * (sxpx_common_init e).s4)) by ring, hA, hs4]
      ring
    rw [hdec, e2, e3, e4]
    have cX := (Jet.quartic_continuous 1 (-c) (-(4 * A * c ^ 2)) (-(4 / 3 * A * (18 * A - 1) * c ^ 3)) (-(2 / 3 * A ^ 2 * (252 * A - 31) * c ^ 4)))
    have jX := Jet.refl 1 (-c) (-(4 * A * c ^ 2)) (-(4 / 3 * A * (18 * A - 1) * c ^ 3)) (-(2 / 3 * A ^ 2 * (252 * A - 31) * c ^ 4))
    have jQ := Jet.affine 1 A (Jet.affine (-1) 1 (Jet.mul jX jX cX.continuousAt))
    have cQ : Continuous fun t => 1 + A * (-1 + 1 * (Jet.quartic 1 (-c) (-(4 * A * c ^ 2)) (-(4 / 3 * A * (18 * A - 1) * c ^ 3))
      (-(2 / 3 * A ^ 2 * (252 * A - 31) * c ^ 4)) t * Jet.quartic 1 (-c) (-(4 * A * c ^ 2)) (-(4 / 3 * A * (18 * A - 1) * c ^ 3))
      (-(2 / 3 * A ^ 2 * (252 * A - 31) * c ^ 4)) t)) := by fun_prop
    have jQ2 := Jet.mul jQ jQ cQ.continuousAt
    have jQ4 := Jet.mul jQ2 jQ2 (cQ.mul cQ).continuousAt
    have jD := Jet.refl (-c) (2 * -(4 * A * c ^ 2)) (3 * -(4 / 3 * A * (18 * A - 1) * c ^ 3)) (4 * -(2 / 3 * A ^ 2 * (252 * A - 31) * c ^ 4)) 0
    have jR := Jet.affine c 1 (Jet.mul jD jQ4 ((cQ.mul cQ).mul (cQ.mul cQ)).continuousAt)
    refine (Jet.order4 jR ?_ ?_ ?_ ?_).congr_left fun t => ?_
    all_goals ring

/-- C109, below 220 km: the program keeps the first power only. -/
theorem C109_low (e : Elem) (hp : (sxpx_common_init e).aodp * (1 - e.eo) < 1 + 220 / earthRadius) (ha : 0 < (sxpx_common_init e).aodp)
    (hs : (sxpx_common_init e).aodp ≠ (sxpx_common_init e).s4) :
    axisAt e 0 = (sxpx_common_init e).aodp ∧
    (fun t => deriv (axisAt e) t + 2 * (sxpx_common_init e).c1 * √((sxpx_common_init e).aodp * axisAt e t)
      * (((sxpx_common_init e).aodp - (sxpx_common_init e).s4) / (axisAt e t - (sxpx_common_init e).s4)) ^ 4) =O[𝓝 0] fun t => t := by
  have hns : (SGP4_init e).simple := by
    show (sxpx_common_init e).aodp * (1 - e.eo) < 220 / earthRadius + 1
    linarith
  have hdec : decay e = Jet.quartic 1 (-(sxpx_common_init e).c1) 0 0 0 := by
    unfold decay; rw [if_pos hns]
  constructor
  · rw [axis_eq, decay_zero]; norm_num
  · have hd : ∀ t, HasDerivAt (decay e) _ t := fun t => by rw [hdec]; exact quartic_deriv _ _ _ _ _ t
    have h := decay_residual (n := 1) e hd ha hs ?_
    · simpa using h
    rw [hdec]
    generalize (sxpx_common_init e).c1 = c
    generalize (sxpx_common_init e).aodp * (sxpx_common_init e).tsi = A
    have hcont : ContinuousAt (fun t : ℝ => c * (A * (2 * c - c ^ 2 * t)) * ((1 + A * ((1 - c * t) * (1 - c * t) - 1)) ^ 3
        + (1 + A * ((1 - c * t) * (1 - c * t) - 1)) ^ 2 + (1 + A * ((1 - c * t) * (1 - c * t) - 1)) + 1)) 0 := by fun_prop
    refine (Jet.mul_bounded (n := 1) (isBigO_refl (fun t : ℝ => t ^ 1) _) hcont).congr_left fun t => ?_
    unfold Jet.quartic
    ring

/-- C109, the end of the decay: when the root of the axis has become negative the program reports it and gives no position. -/
theorem C109_decayed (e : Elem) (t : ℝ) (ha : 0 < (sxpx_common_init e).aodp) (h : decay e t < 0) :
    ((SGP4 (SGP4_init e) e t).1 = -2 ∨ (SGP4 (SGP4_init e) e t).1 = -1) ∧ (SGP4 (SGP4_init e) e t).2 = (zero3, zero3) := by
  have h1 : (sgp4Mean (SGP4_init e) e t).a < 0 := by
    have := axis_eq e t
    rw [if_pos h] at this
    unfold axisAt at this
    rw [this]
    nlinarith [mul_pos ha (mul_pos (neg_pos.mpr h) (neg_pos.mpr h))]
  unfold SGP4 sxpx_posn_vel
  generalize sgp4Mean (SGP4_init e) e t = m at *
  simp only [h1, if_true]
  by_cases h2 : m.axn * m.axn + m.ayn * m.ayn > 1 - 1 / 10 ^ 6
  · simp only [if_pos h2]; simp
  · simp only [if_neg h2]; simp

/-- The argument of latitude: the terms of drag in the mean anomaly and in the argument of perigee cancel. -/
theorem latitude_eq (e : Elem) (t : ℝ) : latitudeAt e t =
    e.xmo + e.omegao + ((sxpx_common_init e).xmdot + (sxpx_common_init e).omgdot) * t + (sxpx_common_init e).xnodp *
      (if (SGP4_init e).simple then (sxpx_common_init e).t2cof * t ^ 2 else (sxpx_common_init e).t2cof * t ^ 2 + (SGP4_init e).t3cof * t ^ 3
        + (SGP4_init e).t4cof * t ^ 4 + (SGP4_init e).t5cof * t ^ 5) := by
  have hi : (SGP4_init e).i = sxpx_common_init e := rfl
  unfold latitudeAt sgp4Mean
  simp only [hi]
  split_ifs <;> ring

/-- C110: with the perigee above 220 km the satellite moves along its orbit with the mean motion that Kepler's third law gives for the decayed axis, up to
the fifth power of the time. -/
theorem C110_along (e : Elem) (hp : 1 + 220 / earthRadius ≤ (sxpx_common_init e).aodp * (1 - e.eo)) (ha : 0 < (sxpx_common_init e).aodp) :
    latitudeAt e 0 = e.xmo + e.omegao ∧
    (fun t => deriv (latitudeAt e) t - ((sxpx_common_init e).xmdot + (sxpx_common_init e).omgdot
      + (sxpx_common_init e).xnodp * (√((sxpx_common_init e).aodp / axisAt e t) ^ 3 - 1))) =O[𝓝 0] fun t => t ^ 5 := by
  have hns : ¬ (SGP4_init e).simple := by
    show ¬ ((sxpx_common_init e).aodp * (1 - e.eo) < 220 / earthRadius + 1)
    linarith
  have hdec : decay e = Jet.quartic 1 (-(sxpx_common_init e).c1) (-(SGP4_init e).d2) (-(SGP4_init e).d3) (-(SGP4_init e).d4) := by
    unfold decay; rw [if_neg hns]
  constructor
  · rw [latitude_eq]; simp
  have hd : ∀ t, HasDerivAt (latitudeAt e) ((sxpx_common_init e).xmdot + (sxpx_common_init e).omgdot + (sxpx_common_init e).xnodp *
      (-1 + 1 * Jet.quartic 1 (2 * (sxpx_common_init e).t2cof) (3 * (SGP4_init e).t3cof) (4 * (SGP4_init e).t4cof) (5 * (SGP4_init e).t5cof) t)) t := by
    intro t
    have h := hasDerivAt_id t
    refine hda' (((h.const_mul ((sxpx_common_init e).xmdot + (sxpx_common_init e).omgdot)).const_add (e.xmo + e.omegao)).add
      (((((h.pow 2).const_mul (sxpx_common_init e).t2cof).add ((h.pow 3).const_mul (SGP4_init e).t3cof)).add
        ((h.pow 4).const_mul (SGP4_init e).t4cof)).add ((h.pow 5).const_mul (SGP4_init e).t5cof) |>.const_mul (sxpx_common_init e).xnodp)) (fun y => ?_) ?_
    · rw [latitude_eq, if_neg hns]; rfl
    · simp only [Jet.quartic, id]; push_cast; ring
  have t2 : (sxpx_common_init e).t2cof = 3 / 2 * (sxpx_common_init e).c1 := rfl
  have t3 : (SGP4_init e).t3cof = (SGP4_init e).d2 + 2 * ((sxpx_common_init e).c1 * (sxpx_common_init e).c1) := rfl
  have t4 : (SGP4_init e).t4cof = 1 / 4 * (3 * (SGP4_init e).d3 + (sxpx_common_init e).c1 * (12 * (SGP4_init e).d2 + 10 *
    ((sxpx_common_init e).c1 * (sxpx_common_init e).c1))) := rfl
  have t5 : (SGP4_init e).t5cof = 1 / 5 * (3 * (SGP4_init e).d4 + 12 * (sxpx_common_init e).c1 * (SGP4_init e).d3 + 6 * (SGP4_init e).d2 * (SGP4_init e).d2
    + 15 * ((sxpx_common_init e).c1 * (sxpx_common_init e).c1) * (2 * (SGP4_init e).d2 + (sxpx_common_init e).c1 * (sxpx_common_init e).c1)) := rfl
  have hc0 := decay_continuous e
  have hz := decay_zero e
  have hcont : ContinuousAt (fun t => (sxpx_common_init e).xnodp / decay e t ^ 3) 0 := by
    refine ContinuousAt.div (by fun_prop) (by fun_prop) ?_
    rw [hz]; norm_num
  have key : (fun t => -1 + 1 * (Jet.quartic 1 (2 * (sxpx_common_init e).t2cof) (3 * (SGP4_init e).t3cof) (4 * (SGP4_init e).t4cof)
      (5 * (SGP4_init e).t5cof) t * (decay e t * (decay e t * decay e t)))) =O[𝓝 0] fun t => t ^ 5 := by
    rw [hdec, t2, t3, t4, t5]
    generalize (sxpx_common_init e).c1 = c
    generalize (SGP4_init e).d2 = d2
    generalize (SGP4_init e).d3 = d3
    generalize (SGP4_init e).d4 = d4
    have cX := (Jet.quartic_continuous 1 (-c) (-d2) (-d3) (-d4))
    have jX := Jet.refl 1 (-c) (-d2) (-d3) (-d4)
    have jX2 := Jet.mul jX jX cX.continuousAt
    have jX3 := Jet.mul jX jX2 (cX.mul cX).continuousAt
    have jT := Jet.refl 1 (2 * (3 / 2 * c)) (3 * (d2 + 2 * (c * c))) (4 * (1 / 4 * (3 * d3 + c * (12 * d2 + 10 * (c * c)))))
      (5 * (1 / 5 * (3 * d4 + 12 * c * d3 + 6 * d2 * d2 + 15 * (c * c) * (2 * d2 + c * c))))
    have jR := Jet.affine (-1) 1 (Jet.mul jT jX3 (cX.mul (cX.mul cX)).continuousAt)
    refine Jet.order5 jR ?_ ?_ ?_ ?_ ?_
    all_goals ring
  refine (Jet.mul_bounded key hcont).congr' ?_ EventuallyEq.rfl
  filter_upwards [axis_near e, decay_pos e] with t h1 h2
  rw [(hd t).deriv, h1]
  rw [show (sxpx_common_init e).aodp / ((sxpx_common_init e).aodp * decay e t ^ 2) = (1 / decay e t) ^ 2 by field_simp, sqrt_sq (by positivity)]
  generalize Jet.quartic 1 (2 * (sxpx_common_init e).t2cof) (3 * (SGP4_init e).t3cof) (4 * (SGP4_init e).t4cof) (5 * (SGP4_init e).t5cof) t = T
  generalize (sxpx_common_init e).aodp = a
  field_simp
  ring

/-- C110, below 220 km: the second power. -/
theorem C110_low (e : Elem) (hp : (sxpx_common_init e).aodp * (1 - e.eo) < 1 + 220 / earthRadius) (ha : 0 < (sxpx_common_init e).aodp) :
    latitudeAt e 0 = e.xmo + e.omegao ∧
    (fun t => deriv (latitudeAt e) t - ((sxpx_common_init e).xmdot + (sxpx_common_init e).omgdot
      + (sxpx_common_init e).xnodp * (√((sxpx_common_init e).aodp / axisAt e t) ^ 3 - 1))) =O[𝓝 0] fun t => t ^ 2 := by
  have hns : (SGP4_init e).simple := by
    show (sxpx_common_init e).aodp * (1 - e.eo) < 220 / earthRadius + 1
    linarith
  have hdec : decay e = Jet.quartic 1 (-(sxpx_common_init e).c1) 0 0 0 := by
    unfold decay; rw [if_pos hns]
  constructor
  · rw [latitude_eq]; simp
  have t2 : (sxpx_common_init e).t2cof = 3 / 2 * (sxpx_common_init e).c1 := rfl
  have hd : ∀ t, HasDerivAt (latitudeAt e) ((sxpx_common_init e).xmdot + (sxpx_common_init e).omgdot + (sxpx_common_init e).xnodp *
      (3 * (sxpx_common_init e).c1 * t)) t := by
    intro t
    have h := hasDerivAt_id t
    refine hda' (((h.const_mul ((sxpx_common_init e).xmdot + (sxpx_common_init e).omgdot)).const_add (e.xmo + e.omegao)).add
      (((h.pow 2).const_mul (sxpx_common_init e).t2cof) |>.const_mul (sxpx_common_init e).xnodp)) (fun y => ?_) ?_
    · rw [latitude_eq, if_pos hns]; rfl
    · simp only [t2, id]; push_cast; ring
  have hc0 := decay_continuous e
  have hz := decay_zero e
  have hcont : ContinuousAt (fun t => (sxpx_common_init e).xnodp * (-6 * (sxpx_common_init e).c1 ^ 2 + 8 * (sxpx_common_init e).c1 ^ 3 * t
      - 3 * (sxpx_common_init e).c1 ^ 4 * t ^ 2) / decay e t ^ 3) 0 := by
    refine ContinuousAt.div (by fun_prop) (by fun_prop) ?_
    rw [hz]; norm_num
  refine (Jet.mul_bounded (isBigO_refl (fun t : ℝ => t ^ 2) _) hcont).congr' ?_ EventuallyEq.rfl
  filter_upwards [axis_near e, decay_pos e] with t h1 h2
  rw [(hd t).deriv, h1]
  rw [show (sxpx_common_init e).aodp / ((sxpx_common_init e).aodp * decay e t ^ 2) = (1 / decay e t) ^ 2 by field_simp, sqrt_sq (by positivity)]
  have hx : decay e t = 1 - (sxpx_common_init e).c1 * t := by rw [hdec]; unfold Jet.quartic; ring
  rw [hx] at h2 ⊢
  generalize (sxpx_common_init e).aodp = a
  generalize (sxpx_common_init e).c1 = c at *
  generalize hX : 1 - c * t = X at *
  field_simp
  rw [← hX]
  ring

/-- C110, the node of a circular orbit: its rate changes at first as the rate for the decayed axis and the mean motion that belongs to it. -/
theorem C110_node (e : Elem) (he : e.eo = 0) (ha : 0 < (sxpx_common_init e).aodp) : ∃ d : ℝ → ℝ, (∀ t, HasDerivAt (nodeAt e) (d t) t) ∧
    nodeAt e 0 = e.xnodeo ∧ d 0 = (sxpx_common_init e).xnodot ∧
    ∃ c, HasDerivAt d c 0 ∧ HasDerivAt (fun t => xhdot1Of ck2 { sxpall_common_init e with
      aodp := axisAt e t, xnodp := (sxpall_common_init e).xnodp * √((sxpx_common_init e).aodp / axisAt e t) ^ 3 }) c 0 := by
  have hn : ∀ t, nodeAt e t = e.xnodeo + (sxpx_common_init e).xnodot * t + (sxpx_common_init e).xnodcf * t ^ 2 := by
    intro t
    unfold nodeAt sgp4Mean
    simp only []
    rw [show (SGP4_init e).i = sxpx_common_init e from rfl]
    ring
  refine ⟨fun t => (sxpx_common_init e).xnodot + 2 * (sxpx_common_init e).xnodcf * t, fun t => ?_, ?_, ?_, 2 * (sxpx_common_init e).xnodcf, ?_, ?_⟩
  · have h := hasDerivAt_id t
    refine hda' (((h.const_mul (sxpx_common_init e).xnodot).const_add e.xnodeo).add ((h.pow 2).const_mul (sxpx_common_init e).xnodcf)) hn ?_
    simp; ring
  · rw [hn]; simp
  · simp
  · simpa using ((hasDerivAt_id (0 : ℝ)).const_mul (2 * (sxpx_common_init e).xnodcf)).const_add (sxpx_common_init e).xnodot
  · obtain ⟨x2, x3, x4, hx⟩ : ∃ x2 x3 x4, decay e = Jet.quartic 1 (-(sxpx_common_init e).c1) x2 x3 x4 := by
      unfold decay
      split_ifs
      · exact ⟨_, _, _, rfl⟩
      · exact ⟨_, _, _, rfl⟩
    have hX : HasDerivAt (decay e) (-(sxpx_common_init e).c1) 0 := by
      rw [hx]; exact hda' (quartic_deriv _ _ _ _ _ 0) (fun _ => rfl) (by simp [Jet.quartic])
    have hb : (sxpall_common_init e).betao2 = 1 := by show 1 - e.eo * e.eo = 1; rw [he]; ring
    have hcf : (sxpx_common_init e).xnodcf = 7 / 2 * (sxpall_common_init e).betao2 * xhdot1Of ck2 (sxpall_common_init e) * (sxpx_common_init e).c1 := rfl
    have hae : (sxpall_common_init e).aodp = (sxpx_common_init e).aodp := rfl
    have h7 := ((hX.pow 7).inv (by rw [Pi.pow_apply, decay_zero]; norm_num)).const_mul (xhdot1Of ck2 (sxpall_common_init e))
    refine HasDerivAt.congr_of_eventuallyEq (hda' h7 (fun _ => rfl) ?_) ?_
    · rw [hcf, hb, Pi.pow_apply, decay_zero]; norm_num; ring
    · filter_upwards [axis_near e, decay_pos e] with t h1 h2
      rw [h1]
      rw [show (sxpx_common_init e).aodp / ((sxpx_common_init e).aodp * decay e t ^ 2) = (1 / decay e t) ^ 2 by field_simp, sqrt_sq (by positivity)]
      simp only [xhdot1Of, hb, hae, Pi.pow_apply, Pi.inv_apply]
      field_simp

/-- A satellite on a circular orbit of four radii of the Earth, at the inclination where the oblateness does not change the mean motion. -/
noncomputable def fourRadii : Elem where
  epoch := 0
  bstar := 1
  xincl := arccos (1 / √3)
  xnodeo := 0
  eo := 0
  omegao := 0
  xmo := 0
  xno := xke / 8
  ephType := 0

theorem fourRadii_axis : (sxpx_common_init fourRadii).aodp = 4 ∧ (sxpx_common_init fourRadii).xnodp = xke / 8 ∧
    (sxpx_common_init fourRadii).s4 = sConst ∧ (sxpall_common_init fourRadii).cosio2 = 1 / 3 := by
  have h3 : (0 : ℝ) < √3 := sqrt_pos.mpr (by norm_num)
  have hc : cos fourRadii.xincl * cos fourRadii.xincl = 1 / 3 := by
    have h1 : (1 : ℝ) ≤ √3 := Real.one_le_sqrt.mpr (by norm_num)
    have : cos fourRadii.xincl = 1 / √3 := by
      show cos (arccos (1 / √3)) = _
      exact cos_arccos (by have : 0 < 1 / √3 := by positivity
                           linarith) ((div_le_one h3).mpr h1)
    rw [this, div_mul_div_comm, mul_self_sqrt (by norm_num)]; norm_num
  have ht : tval fourRadii = 0 := by unfold tval; rw [hc]; norm_num
  have hx : xke ≠ 0 := by unfold xke; norm_num
  have h1 : a1 fourRadii = 4 := by
    unfold a1
    rw [show xke / fourRadii.xno = 8 by show xke / (xke / 8) = 8; field_simp]
    rw [show (8 : ℝ) = 2 ^ (3 : ℝ) by norm_num, ← rpow_mul (by norm_num), show (3 : ℝ) * (2 / 3) = (2 : ℕ) by norm_num, rpow_natCast]
    norm_num
  have hd : delo fourRadii = 0 := by unfold delo; rw [ht, zero_div]
  have ha : (sxpall_common_init fourRadii).aodp = 4 := by
    show ao fourRadii / (1 - delo fourRadii) = 4
    rw [hd]; unfold ao del1; rw [ht, h1]; norm_num
  refine ⟨ha, ?_, ?_, hc⟩
  · show fourRadii.xno / (1 + delo fourRadii) = _
    rw [hd]; simp [fourRadii]
  · show s4Of (perige (sxpall_common_init fourRadii) fourRadii.eo) = _
    unfold s4Of
    rw [if_neg]
    unfold perige earthRadius
    rw [ha]; simp [fourRadii]; norm_num

theorem fourRadii_c1 : 0 < (sxpx_common_init fourRadii).c1 := by
  obtain ⟨h1, h2, h3, h4⟩ := fourRadii_axis
  have ha : (sxpall_common_init fourRadii).aodp = 4 := h1
  have hn : (sxpall_common_init fourRadii).xnodp = xke / 8 := h2
  have hs : s4Of (perige (sxpall_common_init fourRadii) fourRadii.eo) = sConst := h3
  have hq : 0 < qoms24Of (perige (sxpall_common_init fourRadii) fourRadii.eo) := by
    unfold qoms24Of
    rw [if_neg]
    · unfold qoms2t; norm_num
    · unfold perige earthRadius
      rw [ha]; simp [fourRadii]; norm_num
  simp only [sxpx_common_init, c2Of, ha, hn, hs, h4]
  generalize qoms24Of (perige (sxpall_common_init fourRadii) fourRadii.eo) = q at *
  simp only [fourRadii, mul_zero, zero_mul, sub_zero, abs_one, one_rpow, div_one, one_mul, add_zero]
  have hx : 0 < xke := by unfold xke; norm_num
  have h5 : 0 < 4 - sConst := by unfold sConst earthRadius; norm_num
  have h6 : 0 < 1 / (4 - sConst) := by positivity
  have h7 : 0 < q * (1 / (4 - sConst) * (1 / (4 - sConst))) * (1 / (4 - sConst) * (1 / (4 - sConst))) := by positivity
  norm_num at *
  positivity

/-- It decays as stated. -/
example : (fun t => deriv (axisAt fourRadii) t + 2 * (sxpx_common_init fourRadii).c1 * √((sxpx_common_init fourRadii).aodp * axisAt fourRadii t)
      * (((sxpx_common_init fourRadii).aodp - (sxpx_common_init fourRadii).s4) / (axisAt fourRadii t - (sxpx_common_init fourRadii).s4)) ^ 4)
    =O[𝓝 0] fun t => t ^ 4 := by
  obtain ⟨h1, h2, h3, h4⟩ := fourRadii_axis
  refine (C109_decay fourRadii ?_ (by rw [h1]; norm_num) ?_).2
  · rw [h1]; simp only [fourRadii]; unfold earthRadius; norm_num
  · rw [h1, h3]; unfold sConst earthRadius; norm_num

/-- And the decay ends. -/
example : ∃ t, ((SGP4 (SGP4_init fourRadii) fourRadii t).1 = -2 ∨ (SGP4 (SGP4_init fourRadii) fourRadii t).1 = -1) := by
  obtain ⟨h1, h2, h3, h4⟩ := fourRadii_axis
  have hc := fourRadii_c1
  refine ⟨2 / (sxpx_common_init fourRadii).c1, (C109_decayed fourRadii _ (by rw [h1]; norm_num) ?_).1⟩
  have ht : 0 < (sxpx_common_init fourRadii).tsi := by
    show 0 < 1 / ((sxpx_common_init fourRadii).aodp - (sxpx_common_init fourRadii).s4)
    rw [h1, h3]; unfold sConst earthRadius; norm_num
  have hs : 0 < (sxpx_common_init fourRadii).s4 := by rw [h3]; unfold sConst earthRadius; norm_num
  have ha : 0 < (sxpx_common_init fourRadii).aodp := by rw [h1]; norm_num
  have d2 : 0 < (SGP4_init fourRadii).d2 := by
    show 0 < 4 * (sxpx_common_init fourRadii).aodp * (sxpx_common_init fourRadii).tsi * ((sxpx_common_init fourRadii).c1 * (sxpx_common_init fourRadii).c1)
    positivity
  have d3 : 0 < (SGP4_init fourRadii).d3 := by
    show 0 < (17 * (sxpx_common_init fourRadii).aodp + (sxpx_common_init fourRadii).s4)
      * ((SGP4_init fourRadii).d2 * (sxpx_common_init fourRadii).tsi * (sxpx_common_init fourRadii).c1 / 3)
    positivity
  have d4 : 0 < (SGP4_init fourRadii).d4 := by
    show 0 < 1 / 2 * ((SGP4_init fourRadii).d2 * (sxpx_common_init fourRadii).tsi * (sxpx_common_init fourRadii).c1 / 3) * (sxpx_common_init fourRadii).aodp
      * (sxpx_common_init fourRadii).tsi * (221 * (sxpx_common_init fourRadii).aodp + 31 * (sxpx_common_init fourRadii).s4) * (sxpx_common_init fourRadii).c1
    positivity
  generalize hcc : (sxpx_common_init fourRadii).c1 = c at *
  have hp : 0 < 2 / c := by positivity
  have hcp : c * (2 / c) = 2 := by field_simp
  unfold decay Jet.quartic
  rw [hcc]
  generalize 2 / c = t at *
  split_ifs
  · linarith
  · have p2 := mul_pos d2 (pow_pos hp 2)
    have p3 := mul_pos d3 (pow_pos hp 3)
    have p4 := mul_pos d4 (pow_pos hp 4)
    linarith

end SatSky.Props
