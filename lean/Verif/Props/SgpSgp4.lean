import Verif.Props.Sdp8
import Verif.Props.LongPeriod
import Verif.Props.Sgp

/-! C162: SGP and SGP4 have the same first-order effect of the oblateness on the position. -/

namespace SatSky.Props

open Real SatSky.Sxp SatSky.Spec SatSky.Sgp SatSky.Sgp8

/-- What `sxpall_common_init` recovers, for the field coefficient `k2`. -/
noncomputable def recovFor (k2 : ℝ) (e : Elem) : Recov :=
  let t := 3 / 2 * k2 * (3 * (cos e.xincl * cos e.xincl) - 1) / (√(1 - e.eo * e.eo) * (1 - e.eo * e.eo))
  let d := t / (a1 e * a1 e)
  let o := a1 e * (1 - d * (1 / 3 + d * (1 + 134 / 81 * d)))
  let l := t / (o * o)
  ⟨cos e.xincl, cos e.xincl * cos e.xincl, e.eo * e.eo, 1 - e.eo * e.eo, √(1 - e.eo * e.eo), e.xno / (1 + l), o / (1 - l)⟩

theorem recovFor_program (e : Elem) : recovFor ck2 e = sxpall_common_init e := rfl

/-- The relative change of the axis per coefficient. -/
noncomputable def axisRate (e : Elem) : ℝ :=
  3 / 2 * (3 * (cos e.xincl * cos e.xincl) - 1) / (√(1 - e.eo * e.eo) * (1 - e.eo * e.eo)) / (a1 e * a1 e)

theorem aoFor_deriv (A D : ℝ) : HasDerivAt (fun k : ℝ => A * (1 - k * D * (1 / 3 + k * D * (1 + 134 / 81 * (k * D))))) (A * (-D / 3)) 0 := by
  have h := (hasDerivAt_id (0 : ℝ)).mul_const D
  refine hda' (((h.mul (((h.mul ((h.const_mul (134 / 81)).const_add 1))).const_add (1 / 3))).const_sub 1).const_mul A) (fun _ => rfl) ?_
  simp
  ring

theorem recovFor_deriv (e : Elem) (ha : 0 < a1 e) :
    HasDerivAt (fun k => (recovFor k e).aodp) (a1 e * (2 / 3 * axisRate e)) 0 ∧ HasDerivAt (fun k => (recovFor k e).xnodp) (-(e.xno * axisRate e)) 0 ∧
    (recovFor 0 e).aodp = a1 e ∧ (recovFor 0 e).xnodp = e.xno := by
  have ho := aoFor_deriv (a1 e) (axisRate e)
  have hl : HasDerivAt (fun k : ℝ => k * (axisRate e * (a1 e * a1 e)) / ((a1 e * (1 - k * axisRate e * (1 / 3 + k * axisRate e * (1 + 134 / 81 * (k * axisRate e)))))
      * (a1 e * (1 - k * axisRate e * (1 / 3 + k * axisRate e * (1 + 134 / 81 * (k * axisRate e))))))) (axisRate e) 0 := by
    refine hda' (((hasDerivAt_id (0 : ℝ)).mul_const (axisRate e * (a1 e * a1 e))).div (ho.mul ho) (by simp; exact ha.ne')) (fun _ => rfl) ?_
    simp
    field_simp
  have e1 : ∀ k, 3 / 2 * k * (3 * (cos e.xincl * cos e.xincl) - 1) / (√(1 - e.eo * e.eo) * (1 - e.eo * e.eo)) = k * (axisRate e * (a1 e * a1 e)) := fun k => by
    unfold axisRate
    rw [div_mul_cancel₀ _ (by positivity)]
    ring
  have e2 : ∀ k, k * (axisRate e * (a1 e * a1 e)) / (a1 e * a1 e) = k * axisRate e := fun k => by field_simp
  refine ⟨?_, ?_, ?_, ?_⟩
  · refine hda' (ho.div (hl.const_sub 1) (by simp)) (fun k => ?_) ?_
    · simp only [recovFor, e1, e2]
      rfl
    · simp
      ring
  · refine hda' ((hasDerivAt_const (0 : ℝ) e.xno).div (hl.const_add 1) (by simp)) (fun k => ?_) ?_
    · simp only [recovFor, e1, e2]
      rfl
    · simp
  · simp [recovFor]
  · simp [recovFor]

/-- A term proportional to the coefficient. -/
theorem first_term {F : ℝ → ℝ} {f : ℝ} (hF : ContinuousAt F 0) (hf : F 0 = f) : HasDerivAt (fun k => k * F k) f 0 := by
  rw [hasDerivAt_iff_tendsto_slope]
  have : Filter.Tendsto F (nhdsWithin 0 {0}ᶜ) (nhds f) := hf ▸ hF.mono_left nhdsWithin_le_nhds
  refine this.congr' ?_
  filter_upwards [self_mem_nhdsWithin] with k hk
  have : k ≠ 0 := hk
  simp [slope, this]

/-- The rates of SGP4 to the first order; the one of the mean anomaly is the given mean motion. -/
theorem rates_first (e : Elem) (c : ℝ) (ha : 0 < a1 e) (he : 0 < 1 - e.eo * e.eo) :
    let p := a1 e * (1 - e.eo * e.eo)
    HasDerivAt (fun k => xmdotOf k (recovFor k e)) 0 0 ∧
    HasDerivAt (fun k => omgdotOf k (c * k ^ 2) (recovFor k e)) (-(3 / 2) * e.xno * (1 - 5 * (cos e.xincl * cos e.xincl)) / p ^ 2) 0 ∧
    HasDerivAt (fun k => xnodotOf k (c * k ^ 2) (recovFor k e)) (-3 * e.xno * cos e.xincl / p ^ 2) 0 ∧
    xmdotOf 0 (recovFor 0 e) = e.xno ∧ omgdotOf 0 (c * 0 ^ 2) (recovFor 0 e) = 0 ∧ xnodotOf 0 (c * 0 ^ 2) (recovFor 0 e) = 0 := by
  intro p
  obtain ⟨da, dn, a0, n0⟩ := recovFor_deriv e ha
  have hp : 0 < p := mul_pos ha he
  have ca := da.continuousAt
  have cn := dn.continuousAt
  have eb : ∀ k, (recovFor k e).betao2 = 1 - e.eo * e.eo ∧ (recovFor k e).cosio2 = cos e.xincl * cos e.xincl ∧ (recovFor k e).cosio = cos e.xincl ∧
    (recovFor k e).betao = √(1 - e.eo * e.eo) := fun k => ⟨rfl, rfl, rfl, rfl⟩
  have hne : (recovFor 0 e).aodp * (1 - e.eo * e.eo) ≠ 0 := by rw [a0]; exact hp.ne'
  have cpi : ContinuousAt (fun k => 1 / ((recovFor k e).aodp * (1 - e.eo * e.eo))) 0 := continuousAt_const.div (ca.mul continuousAt_const) hne
  have hs := sq_sqrt he.le
  have hb := sqrt_pos.2 he
  refine ⟨?_, ?_, ?_, ?_, ?_, ?_⟩
  · have h := first_term (F := fun k => 3 * ((1 / ((recovFor k e).aodp * (1 - e.eo * e.eo))) * (1 / ((recovFor k e).aodp * (1 - e.eo * e.eo)))) * (recovFor k e).xnodp
        * √(1 - e.eo * e.eo) * (3 * (cos e.xincl * cos e.xincl) - 1) / 2
      + 3 * k * ((1 / ((recovFor k e).aodp * (1 - e.eo * e.eo))) * (1 / ((recovFor k e).aodp * (1 - e.eo * e.eo)))) * (recovFor k e).xnodp
        * ((1 / ((recovFor k e).aodp * (1 - e.eo * e.eo))) * (1 / ((recovFor k e).aodp * (1 - e.eo * e.eo))))
        * √(1 - e.eo * e.eo) * (13 - 78 * (cos e.xincl * cos e.xincl) + 137 * (cos e.xincl * cos e.xincl * (cos e.xincl * cos e.xincl))) / 16)
      (f := e.xno * axisRate e) (by fun_prop) ?_
    · refine hda' (dn.add h) (fun k => ?_) (by ring)
      simp only [xmdotOf, eb, Pi.add_apply]
      ring
    · simp only [a0, n0]
      unfold axisRate
      generalize √(1 - e.eo * e.eo) = b at *
      rw [← hs]
      field_simp
      ring
  · refine hda' (first_term (F := fun k => -(3 * ((1 / ((recovFor k e).aodp * (1 - e.eo * e.eo))) * (1 / ((recovFor k e).aodp * (1 - e.eo * e.eo)))) * (recovFor k e).xnodp)
        * (1 - 5 * (cos e.xincl * cos e.xincl)) / 2
      + 3 * k * ((1 / ((recovFor k e).aodp * (1 - e.eo * e.eo))) * (1 / ((recovFor k e).aodp * (1 - e.eo * e.eo)))) * (recovFor k e).xnodp
        * ((1 / ((recovFor k e).aodp * (1 - e.eo * e.eo))) * (1 / ((recovFor k e).aodp * (1 - e.eo * e.eo))))
        * (7 - 114 * (cos e.xincl * cos e.xincl) + 395 * (cos e.xincl * cos e.xincl * (cos e.xincl * cos e.xincl))) / 16
      + 5 / 4 * (c * k) * ((1 / ((recovFor k e).aodp * (1 - e.eo * e.eo))) * (1 / ((recovFor k e).aodp * (1 - e.eo * e.eo))))
        * ((1 / ((recovFor k e).aodp * (1 - e.eo * e.eo))) * (1 / ((recovFor k e).aodp * (1 - e.eo * e.eo)))) * (recovFor k e).xnodp
        * (3 - 36 * (cos e.xincl * cos e.xincl) + 49 * (cos e.xincl * cos e.xincl * (cos e.xincl * cos e.xincl)))) (by fun_prop) rfl) (fun k => ?_) ?_
    · simp only [omgdotOf, eb]
      ring
    · simp only [a0, n0, p]
      generalize 1 - e.eo * e.eo = q at *
      field_simp
      ring
  · refine hda' (first_term (F := fun k => -(3 * ((1 / ((recovFor k e).aodp * (1 - e.eo * e.eo))) * (1 / ((recovFor k e).aodp * (1 - e.eo * e.eo)))) * (recovFor k e).xnodp)
        * cos e.xincl
      + (3 * k * ((1 / ((recovFor k e).aodp * (1 - e.eo * e.eo))) * (1 / ((recovFor k e).aodp * (1 - e.eo * e.eo)))) * (recovFor k e).xnodp
        * ((1 / ((recovFor k e).aodp * (1 - e.eo * e.eo))) * (1 / ((recovFor k e).aodp * (1 - e.eo * e.eo))))
        * (4 - 19 * (cos e.xincl * cos e.xincl)) / 2
      + 2 * (5 / 4 * (c * k) * ((1 / ((recovFor k e).aodp * (1 - e.eo * e.eo))) * (1 / ((recovFor k e).aodp * (1 - e.eo * e.eo))))
        * ((1 / ((recovFor k e).aodp * (1 - e.eo * e.eo))) * (1 / ((recovFor k e).aodp * (1 - e.eo * e.eo)))) * (recovFor k e).xnodp)
        * (3 - 7 * (cos e.xincl * cos e.xincl))) * cos e.xincl) (by fun_prop) rfl) (fun k => ?_) ?_
    · simp only [xnodotOf, xhdot1Of, eb]
      ring
    · simp only [a0, n0, p]
      generalize 1 - e.eo * e.eo = q at *
      field_simp
      ring
  · simp [xmdotOf, n0]
  · simp [omgdotOf]
  · simp [xnodotOf, xhdot1Of]

/-- The direction for an argument of latitude of which cosine and sine are given, and its change. -/
theorem place_deriv {r c s d h i : ℝ → ℝ} {r' u' d' h' i' u : ℝ} (R : ℝ) (hcs : ∀ k, c k ^ 2 + s k ^ 2 = 1) (c0 : c 0 = cos u) (s0 : s 0 = sin u)
    (hc : HasDerivAt c (-(sin u * u')) 0) (hs : HasDerivAt s (cos u * u') 0) (hd : HasDerivAt d d' 0) (d0 : d 0 = 0) (hh : HasDerivAt h h' 0)
    (hi : HasDerivAt i i' 0) (hr : HasDerivAt r r' 0) :
    HasVel (fun k => (orientU (Geo.atan2 (s k) (c k) - d k) (h k) (i k)).smul (R * r k))
      (inFrame u (h 0) (i 0) (R * r') (R * (r 0 * (u' - d' + cos (i 0) * h'))) (R * (r 0 * (sin u * i' - cos u * sin (i 0) * h')))) 0 := by
  have e0 := fun k => atan2_unit (hcs k)
  have hS : HasDerivAt (fun k => sin (Geo.atan2 (s k) (c k) - d k)) (cos u * (u' - d')) 0 := by
    refine hda' ((hs.mul hd.cos).sub (hc.mul hd.sin)) (fun k => ?_) ?_
    · rw [sin_sub, (e0 k).1, (e0 k).2]
      rfl
    · simp only [d0, c0, cos_zero, sin_zero, s0]
      ring
  have hC : HasDerivAt (fun k => cos (Geo.atan2 (s k) (c k) - d k)) (-sin u * (u' - d')) 0 := by
    refine hda' ((hc.mul hd.cos).add (hs.mul hd.sin)) (fun k => ?_) ?_
    · rw [cos_sub, (e0 k).1, (e0 k).2]
      rfl
    · simp only [d0, s0, cos_zero, sin_zero, c0]
      ring
  have S0 : sin (Geo.atan2 (s 0) (c 0) - d 0) = sin u := by rw [d0, sub_zero, (e0 0).2, s0]
  have C0 : cos (Geo.atan2 (s 0) (c 0) - d 0) = cos u := by rw [d0, sub_zero, (e0 0).1, c0]
  have sh := hh.sin; have ch := hh.cos; have si := hi.sin; have ci := hi.cos
  have hr' := hr.const_mul R
  have e1 := sin_sq_add_cos_sq (i 0)
  refine ⟨hda' (hr'.mul (((sh.neg.mul ci).mul hS).add (ch.mul hC))) (fun y => rfl) ?_, hda' (hr'.mul (((ch.mul ci).mul hS).add (sh.mul hC))) (fun y => rfl) ?_,
    hda' (hr'.mul (si.mul hS)) (fun y => rfl) ?_⟩ <;>
    simp only [inFrame, V3.add, V3.smul, orientU, orientV, orientW, Pi.mul_apply, Pi.neg_apply, Pi.add_apply, S0, C0]
  · linear_combination (-sin (h 0) * cos u * h' * R * r 0) * e1
  · linear_combination (cos (h 0) * cos u * h' * R * r 0) * e1
  · ring

/-- What both programs compute from an ellipse: the semimajor axis `a`, its eccentricity `e`, argument of perigee `w`, node `h`, inclination `i` and
eccentric anomaly `E`; `ρ` multiplies the distance. -/
noncomputable def withShort (e i k a ρ w h E : ℝ) : V3 :=
  let c := cos (fm8 e E + w)
  let s := sin (fm8 e E + w)
  let p := a * (1 - e * e)
  (orientU (Geo.atan2 s c - k * (1 / 4 * (7 * (cos i * cos i) - 1) * (2 * s * c) / p ^ 2)) (h + k * (3 / 2 * cos i * (2 * s * c) / p ^ 2))
    (i + k * (3 / 2 * cos i * sin i * (1 - 2 * s * s) / p ^ 2))).smul
    (earthRadius * (a * ρ * (1 - e * cos E) + k * (1 / 2 * sin i ^ 2 * (1 - 2 * s * s) / p)))

theorem short_first {e i A : ℝ} (he : 0 ≤ e) (he1 : e < 1) (hA : 0 < A) {a ρ w h E : ℝ → ℝ} {r' w' h' : ℝ} (ha : ContinuousAt a 0) (a0 : a 0 = A)
    (hr : HasDerivAt (fun k => a k * ρ k) r' 0) (ρ0 : ρ 0 = 1) (hw : HasDerivAt w w' 0) (hh : HasDerivAt h h' 0) (hE : HasDerivAt E 0 0) :
    let u := fm8 e (E 0) + w 0
    let p := A * (1 - e * e)
    let h₁ := h' + 3 / 2 * cos i * sin (2 * u) / p ^ 2
    let i₁ := 3 / 2 * cos i * sin i * cos (2 * u) / p ^ 2
    let r := A * (1 - e * cos (E 0))
    HasVel (fun k => withShort e i k (a k) (ρ k) (w k) (h k) (E k))
      (inFrame u (h 0) i (earthRadius * (r' * (1 - e * cos (E 0)) + 1 / 2 * sin i ^ 2 * cos (2 * u) / p))
        (earthRadius * (r * (w' - 1 / 4 * (7 * (cos i * cos i) - 1) * sin (2 * u) / p ^ 2 + cos i * h₁)))
        (earthRadius * (r * (sin u * i₁ - cos u * sin i * h₁)))) 0 := by
  intro u p h₁ i₁ r
  have hp : 0 < p := mul_pos hA (by nlinarith)
  have hf : ∀ x : ℝ, 1 - e * cos x ≠ 0 := fun x => by
    have : 0 < 1 - e * cos x := by nlinarith [neg_one_le_cos x, cos_le_one x]
    exact this.ne'
  have hcE : HasDerivAt (fun k => cos (E k)) 0 0 := hda' hE.cos (fun _ => rfl) (by ring)
  have hsE : HasDerivAt (fun k => sin (E k)) 0 0 := hda' hE.sin (fun _ => rfl) (by ring)
  have hden : HasDerivAt (fun k => 1 - e * cos (E k)) 0 0 := hda' ((hcE.const_mul e).const_sub 1) (fun _ => rfl) (by ring)
  have hX : HasDerivAt (fun k => cos (fm8 e (E k))) 0 0 := by
    refine hda' ((hcE.sub_const e).div hden (hf _)) (fun k => (fm8_polar he he1 (E k)).1) (by ring)
  have hY : HasDerivAt (fun k => sin (fm8 e (E k))) 0 0 := by
    refine hda' ((hsE.const_mul √(1 - e * e)).div hden (hf _)) (fun k => (fm8_polar he he1 (E k)).2.1) (by ring)
  have hc : HasDerivAt (fun k => cos (fm8 e (E k) + w k)) (-(sin u * w')) 0 := by
    refine hda' ((hX.mul hw.cos).sub (hY.mul hw.sin)) (fun k => ?_) ?_
    · rw [cos_add]; rfl
    · simp only [u, sin_add]; ring
  have hs : HasDerivAt (fun k => sin (fm8 e (E k) + w k)) (cos u * w') 0 := by
    refine hda' ((hY.mul hw.cos).add (hX.mul hw.sin)) (fun k => ?_) ?_
    · rw [sin_add]; rfl
    · simp only [u, cos_add]; ring
  have cc := hc.continuousAt
  have cs := hs.continuousAt
  have cp : ContinuousAt (fun k => a k * (1 - e * e)) 0 := ha.mul continuousAt_const
  have p0 : a 0 * (1 - e * e) ≠ 0 := by rw [a0]; exact hp.ne'
  have p0' : (a 0 * (1 - e * e)) ^ 2 ≠ 0 := pow_ne_zero 2 p0
  have hd := first_term (F := fun k => 1 / 4 * (7 * (cos i * cos i) - 1) * (2 * sin (fm8 e (E k) + w k) * cos (fm8 e (E k) + w k)) / (a k * (1 - e * e)) ^ 2)
    (by fun_prop (disch := assumption)) rfl
  have hn := hh.add (first_term (F := fun k => 3 / 2 * cos i * (2 * sin (fm8 e (E k) + w k) * cos (fm8 e (E k) + w k)) / (a k * (1 - e * e)) ^ 2)
    (by fun_prop (disch := assumption)) rfl)
  have hi := (first_term (F := fun k => 3 / 2 * cos i * sin i * (1 - 2 * sin (fm8 e (E k) + w k) * sin (fm8 e (E k) + w k)) / (a k * (1 - e * e)) ^ 2)
    (by fun_prop (disch := assumption)) rfl).const_add i
  have hR := (hr.mul hden).add (first_term (F := fun k => 1 / 2 * sin i ^ 2 * (1 - 2 * sin (fm8 e (E k) + w k) * sin (fm8 e (E k) + w k)) / (a k * (1 - e * e)))
    (by fun_prop (disch := assumption)) rfl)
  have key := place_deriv earthRadius (fun k => cos_sq_add_sin_sq (fm8 e (E k) + w k)) rfl rfl hc hs hd (by simp) hn hi hR
  refine hasVel_congr key rfl ?_
  have c2 : cos (2 * u) = 1 - 2 * sin u * sin u := by rw [cos_two_mul]; linear_combination 2 * cos_sq_add_sin_sq u
  have eu : fm8 e (E 0) + w 0 = u := rfl
  have ep : A * (1 - e * e) = p := rfl
  simp only [h₁, i₁, r, Pi.add_apply, Pi.mul_apply, zero_mul, add_zero, ρ0, mul_one, a0, c2, sin_two_mul, eu, ep]
  clear_value u p
  congr 1 <;> ring

/-- The mean elements of SGP4 at the time `t` without drag, for the field coefficients `k2` and `k4`. -/
noncomputable def freeMean (k2 k4 : ℝ) (e : Elem) (t : ℝ) : Mean :=
  let r := recovFor k2 e
  let h := e.xnodeo + xnodotOf k2 k4 r * t
  let w := e.omegao + omgdotOf k2 k4 r * t
  ⟨h, r.aodp, e.eo, r.cosio, sin e.xincl, e.xincl, w, e.xmo + xmdotOf k2 r * t + w + h⟩

/-- C162: without drag the mean elements of SGP4 are these. -/
theorem C162_free (e : Elem) (hb : e.bstar = 0) (he : 1 / 10 ^ 6 ≤ e.eo) (t : ℝ) : sgp4Mean (SGP4_init e) e t = freeMean ck2 ck4 e t := by
  have h1 : (SGP4_init e).i.c1 = 0 := by simp [SGP4_init, sxpx_common_init, hb]
  have h2 : (SGP4_init e).d2 = 0 := by simp [SGP4_init, sxpx_common_init, hb]
  have h3 : (SGP4_init e).d3 = 0 := by simp [SGP4_init, sxpx_common_init, hb]
  have h4 : (SGP4_init e).d4 = 0 := by simp [SGP4_init, sxpx_common_init, hb]
  have h5 : (SGP4_init e).t3cof = 0 := by simp [SGP4_init, sxpx_common_init, hb]
  have h6 : (SGP4_init e).t4cof = 0 := by simp [SGP4_init, sxpx_common_init, hb]
  have h7 : (SGP4_init e).t5cof = 0 := by simp [SGP4_init, sxpx_common_init, hb]
  have h8 : (SGP4_init e).xmcof = 0 := by simp [SGP4_init, hb]
  have h9 : (SGP4_init e).omgcof = 0 := by simp [SGP4_init, hb]
  have h10 : (SGP4_init e).i.xnodcf = 0 := by simp [SGP4_init, sxpx_common_init, hb]
  have h11 : (SGP4_init e).i.t2cof = 0 := by simp [SGP4_init, sxpx_common_init, hb]
  have h12 : ¬ e.eo < 1 / 10 ^ 6 := not_lt.mpr he
  have h13 : ¬ ((1 : ℝ) < 0) := by norm_num
  unfold sgp4Mean
  simp only [h1, h2, h3, h4, h5, h6, h7, h8, h9, h10, h11, hb, zero_mul, mul_zero, add_zero, sub_zero, ite_self, h12, if_false, h13, mul_one]
  rfl

/-- The position of SGP4 without drag and without the third harmonic, if the second one had the coefficient `k` and the fourth one `c k²`, for the
eccentric longitude `E`. -/
noncomputable def sgp4Free (c : ℝ) (e : Elem) (t k E : ℝ) : V3 :=
  let m := freeMean k (c * k ^ 2) e t
  (posVelOf k m.axn (m.ecc * sin m.omega) m E).1

/-- The position of SGP without the third harmonic, if the second one had the coefficient `k`, for the eccentric longitude `E`. -/
noncomputable def sgpFree (e : ElemN) (t k E : ℝ) : V3 :=
  let p := SGP_initOf k 0 e.toElem
  let m := sgpMean p e t
  (sgpPosVel p e.xincl m.xnodes m.a m.axn m.ayn E).1

/-- The eccentric longitudes `E` are the exact solutions of Kepler's equation for the mean elements of SGP4, and of SGP. -/
def Solves4 (c : ℝ) (e : Elem) (t : ℝ) (E : ℝ → ℝ) : Prop :=
  ∀ k, let m := freeMean k (c * k ^ 2) e t
    KeplerEq m.axn (m.ecc * sin m.omega) (m.xl - m.xnode) (E k)
def SolvesSgp (e : ElemN) (t : ℝ) (E : ℝ → ℝ) : Prop :=
  ∀ k, let m := sgpMean (SGP_initOf k 0 e.toElem) e t
    KeplerEq m.axn m.ayn m.u (E k)

theorem square_e (e w : ℝ) : e * cos w * (e * cos w) + e * sin w * (e * sin w) = e * e := by linear_combination (e * e) * sin_sq_add_cos_sq w

theorem sgp4_short {e : Elem} (he : 0 ≤ e.eo) (he1 : e.eo < 1) {k : ℝ} (ha : 0 < (recovFor k e).aodp) (c t E : ℝ) :
    sgp4Free c e t k (E + (freeMean k (c * k ^ 2) e t).omega) = withShort e.eo e.xincl k (recovFor k e).aodp
      (1 - k * (3 / 2 * √(1 - e.eo * e.eo) * (3 * (cos e.xincl * cos e.xincl) - 1) / ((recovFor k e).aodp * (1 - e.eo * e.eo)) ^ 2))
      (freeMean k (c * k ^ 2) e t).omega (freeMean k (c * k ^ 2) e t).xnode E := by
  have f1 : (freeMean k (c * k ^ 2) e t).ecc = e.eo := rfl
  have f2 : (freeMean k (c * k ^ 2) e t).a = (recovFor k e).aodp := rfl
  have f3 : (freeMean k (c * k ^ 2) e t).cosio = cos e.xincl := rfl
  have f4 : (freeMean k (c * k ^ 2) e t).sinio = sin e.xincl := rfl
  have f5 : (freeMean k (c * k ^ 2) e t).xincl = e.xincl := rfl
  unfold sgp4Free
  simp only [Mean.axn, f1]
  unfold posVelOf
  simp only [f1, f2, f3, f4, f5]
  generalize (freeMean k (c * k ^ 2) e t).omega = w
  generalize (freeMean k (c * k ^ 2) e t).xnode = h
  rw [prelim_true he he1 ha]
  simp only [square_e]
  generalize (recovFor k e).aodp = a at *
  have hb : 0 < 1 - e.eo * e.eo := by nlinarith
  have hcs := sin_sq_add_cos_sq (fm8 e.eo E + w)
  have hi := sin_sq_add_cos_sq e.xincl
  unfold withShort
  dsimp only
  generalize hs : sin (fm8 e.eo E + w) = s at *
  generalize hc : cos (fm8 e.eo E + w) = c' at *
  generalize √(1 - e.eo * e.eo) = b
  generalize 1 - e.eo * e.eo = q at *
  have c2 : 2 * c' * c' - 1 = 1 - 2 * s * s := by linear_combination 2 * hcs
  have s2 : 1 - cos e.xincl * cos e.xincl = sin e.xincl ^ 2 := by linear_combination -hi
  have g1 : 1 / 4 * (k / (a * q) / (a * q)) * (7 * (cos e.xincl * cos e.xincl) - 1) * (2 * s * c')
      = k * (1 / 4 * (7 * (cos e.xincl * cos e.xincl) - 1) * (2 * s * c') / (a * q) ^ 2) := by field_simp
  have g2 : 3 / 2 * (k / (a * q) / (a * q)) * cos e.xincl * (2 * s * c') = k * (3 / 2 * cos e.xincl * (2 * s * c') / (a * q) ^ 2) := by field_simp
  have g3 : 3 / 2 * (k / (a * q) / (a * q)) * cos e.xincl * sin e.xincl * (1 - 2 * s * s)
      = k * (3 / 2 * cos e.xincl * sin e.xincl * (1 - 2 * s * s) / (a * q) ^ 2) := by field_simp
  rw [c2, s2, g1, g2, g3]
  generalize orientU _ _ _ = U
  ext <;> simp only [V3.smul] <;> field_simp

theorem sgp_short {e : Elem} (he : 0 ≤ e.eo) (he1 : e.eo < 1) {k a : ℝ} (ha : 0 < a) (w h E : ℝ) :
    (sgpPosVel (SGP_initOf k 0 e) e.xincl h a (e.eo * cos w) (e.eo * sin w) (E + w)).1 = withShort e.eo e.xincl k a 1 w h E := by
  rw [sgpPosVel_eq]
  dsimp only
  rw [prelim_true he he1 ha]
  simp only [square_e, SGP_initOf]
  have hb : 0 < 1 - e.eo * e.eo := by nlinarith
  unfold withShort
  dsimp only
  generalize sin (fm8 e.eo E + w) = s
  generalize cos (fm8 e.eo E + w) = c'
  generalize 1 - e.eo * e.eo = q at *
  have g1 : k / 4 * (cos e.xincl * 7 * cos e.xincl - 1) / (a * q * (a * q)) * (2 * s * c')
      = k * (1 / 4 * (7 * (cos e.xincl * cos e.xincl) - 1) * (2 * s * c') / (a * q) ^ 2) := by field_simp
  have g2 : k * (3 / 2) * cos e.xincl * (2 * s * c') / (a * q * (a * q)) = k * (3 / 2 * cos e.xincl * (2 * s * c') / (a * q) ^ 2) := by field_simp
  have g3 : k * (3 / 2) * cos e.xincl * sin e.xincl / (a * q * (a * q)) * (1 - 2 * s * s)
      = k * (3 / 2 * cos e.xincl * sin e.xincl * (1 - 2 * s * s) / (a * q) ^ 2) := by field_simp
  rw [g1, g2, g3]
  generalize orientU _ _ _ = U
  congr 1
  field_simp

theorem aoOf_rate {e : Elem} (he : 0 < 1 - e.eo * e.eo) (ha : 0 < a1 e) (k : ℝ) :
    aoOf k e = a1 e * (1 - k * axisRate e * (1 / 3 + k * axisRate e * (1 + 134 / 81 * (k * axisRate e)))) := by
  have h1 : (1 - e.eo * e.eo) ^ (3 / 2 : ℝ) = √(1 - e.eo * e.eo) * (1 - e.eo * e.eo) := by
    rw [show (3 / 2 : ℝ) = 1 / 2 + 1 by norm_num, rpow_add he, rpow_one, ← sqrt_eq_rpow]
  have h2 : k * (3 / 2) / a1 e / a1 e * (cos e.xincl * 3 * cos e.xincl - 1) / (1 - e.eo * e.eo) ^ (3 / 2 : ℝ) = k * axisRate e := by
    rw [h1]
    unfold axisRate
    have := sqrt_pos.2 he
    field_simp
  have h3 : aoOf k e = a1 e * (1 - k * axisRate e * (1 / 3) - k * axisRate e * (k * axisRate e) - k * axisRate e * (134 / 81) * (k * axisRate e) * (k * axisRate e)) := by
    rw [← h2]; rfl
  rw [h3]
  ring

/-- Without drag and without the third harmonic the mean elements of SGP are the given ones, turned at the rates of perigee and node. -/
theorem C162_sgp {k : ℝ} {e : ElemN} (hn : 0 < e.xno) (he : 0 < e.eo) (h1 : e.xndt2o = 0) (h2 : e.xndd6o = 0) (ha : 0 < aoOf k e.toElem) (t : ℝ) :
    let p := SGP_initOf k 0 e.toElem
    let m := sgpMean p e t
    let w := e.omegao + p.omgdt * t
    m.a = aoOf k e.toElem ∧ m.axn = e.eo * cos w ∧ m.ayn = e.eo * sin w ∧ m.xnodes = e.xnodeo + p.xnodot * t ∧
    Turns (2 * π) m.u (e.xmo + e.xno * t + w) := by
  intro p m w
  have hm : axisAt p e t = aoOf k e.toElem := by
    unfold axisAt motionAt
    rw [h1, h2]
    simp only [zero_mul, add_zero, div_self hn.ne', one_rpow, mul_one]
    rfl
  have hecc : eccOf p (aoOf k e.toElem) = e.eo := by
    have := (C137_epoch k 0 e hn ha he).2.1
    rwa [(C137_epoch k 0 e hn ha he).1] at this
  have hc5 : p.c5 = 0 := by simp [p, SGP_initOf]
  have hc6 : p.c6 = 0 := by simp [p, SGP_initOf]
  refine ⟨hm, ?_, ?_, rfl, ?_⟩
  · show eccOf p (axisAt p e t) * cos w = _
    rw [hm, hecc]
  · show eccOf p (axisAt p e t) * sin w - p.c6 / _ = _
    rw [hm, hecc, hc6, zero_div, sub_zero]
  · show Turns (2 * π) (Geo.FMod2p (Geo.FMod2p (Geo.FMod2p (longitudeAt p e t) - p.c5 / _ * _) - (e.xnodeo + p.xnodot * t))) _
    rw [hc5, zero_div, zero_mul, sub_zero]
    obtain ⟨j1, e1⟩ := (C40_FMod2p (longitudeAt p e t)).2.2
    obtain ⟨j2, e2⟩ := (C40_FMod2p (Geo.FMod2p (longitudeAt p e t))).2.2
    obtain ⟨j3, e3⟩ := (C40_FMod2p (Geo.FMod2p (Geo.FMod2p (longitudeAt p e t)) - (e.xnodeo + p.xnodot * t))).2.2
    refine ⟨j1 + j2 + j3, ?_⟩
    rw [e3, e2, e1]
    have : p.xlo = e.xmo + e.omegao + e.xnodeo := rfl
    unfold longitudeAt
    rw [this, h1, h2]
    simp only [w]
    push_cast
    ring

theorem turn_longitude (p : SgpPar) (i h a x y E : ℝ) (j : ℤ) : sgpPosVel p i h a x y (E + 2 * π * j) = sgpPosVel p i h a x y E := by
  unfold sgpPosVel
  simp only [show E + 2 * π * j = E + j * (2 * π) by ring, sin_add_int_mul_two_pi, cos_add_int_mul_two_pi]

/-- How far the second harmonic moves the satellite at the time `t`, per unit of its coefficient, on an orbit with the mean motion `n` and the axis `A`
of Kepler's third law, argument of perigee `w` and node `h` at the epoch and the eccentric anomaly `E` at `t`. -/
noncomputable def oblateMove (n A e i w h t E : ℝ) : V3 :=
  let u := fm8 e E + w
  let p := A * (1 - e * e)
  let h₁ := -3 * n * cos i / p ^ 2 * t + 3 / 2 * cos i * sin (2 * u) / p ^ 2
  let i₁ := 3 / 2 * cos i * sin i * cos (2 * u) / p ^ 2
  let r := A * (1 - e * cos E)
  let r₁ := -(1 / 2) * (3 * (cos i * cos i) - 1) * r / (√(1 - e * e) * (1 - e * e) * A ^ 2) + 1 / 2 * sin i ^ 2 * cos (2 * u) / p
  let u₁ := -(3 / 2) * n * (1 - 5 * (cos i * cos i)) / p ^ 2 * t - 1 / 4 * (7 * (cos i * cos i) - 1) * sin (2 * u) / p ^ 2
  inFrame u h i (earthRadius * r₁) (earthRadius * (r * (u₁ + cos i * h₁))) (earthRadius * (r * (sin u * i₁ - cos u * sin i * h₁)))

/-- C162: to the first order in the coefficient of the second harmonic the positions of SGP and SGP4 are the same, on every orbit and at every time;
without it they are the same point of a Kepler ellipse. -/
theorem C162_position {e : ElemN} (hn : 0 < e.xno) (he : 0 < e.eo) (he1 : e.eo < 1) (h1 : e.xndt2o = 0) (h2 : e.xndd6o = 0) (c t : ℝ) {E Es : ℝ → ℝ}
    (hE : Solves4 c e.toElem t E) (hEs : SolvesSgp e t Es) :
    ∃ X, KeplerEq e.eo 0 (e.xmo + e.xno * t) X ∧
      (let p := (orientU (fm8 e.eo X + e.omegao) e.xnodeo e.xincl).smul (earthRadius * (a1 e.toElem * (1 - e.eo * cos X)))
      sgp4Free c e.toElem t 0 (E 0) = p ∧ sgpFree e t 0 (Es 0) = p) ∧
      (let δ := oblateMove e.xno (a1 e.toElem) e.eo e.xincl e.omegao e.xnodeo t X
      HasVel (fun k => sgp4Free c e.toElem t k (E k)) δ 0 ∧ HasVel (fun k => sgpFree e t k (Es k)) δ 0) := by
  have ha := a1_pos hn
  have hq : 0 < 1 - e.eo * e.eo := by nlinarith
  have hsq : e.eo ^ 2 + (0 : ℝ) ^ 2 ≤ e.eo ^ 2 := by simp
  choose R hR using fun l => Kep.root_exists (x := e.eo) (y := 0) l he.le he1 hsq
  have hRk : ∀ l, KeplerEq e.eo 0 l (R l) := fun l => (Kep.keplerEq_iff _ _ _ _).2 (hR l)
  have uniq : ∀ l X, X - e.eo * sin X = l → X = R l := by
    intro l X hX
    have hz : keplerRes e.eo 0 l X = 0 := by unfold keplerRes; linarith
    have := Kep.near he.le he1 hsq (E := X) (hR l)
    rw [hz, abs_zero, zero_div] at this
    exact sub_eq_zero.1 (abs_nonpos_iff.1 this)
  have kep : ∀ x w l : ℝ, KeplerEq (e.eo * cos w) (e.eo * sin w) (l + w) x → x = R l + w := by
    intro x w l hx
    have := uniq l (x - w) (by
      unfold KeplerEq at hx
      rw [sin_sub]
      linear_combination hx)
    linarith
  -- SGP4
  obtain ⟨da, dn, a0, n0⟩ := recovFor_deriv e.toElem ha
  obtain ⟨dM, dw, dh, M0, w0, h0⟩ := rates_first e.toElem c ha hq
  set M := fun k => e.xmo + xmdotOf k (recovFor k e.toElem) * t with hM
  set w := fun k => e.omegao + omgdotOf k (c * k ^ 2) (recovFor k e.toElem) * t with hw
  set h := fun k => e.xnodeo + xnodotOf k (c * k ^ 2) (recovFor k e.toElem) * t with hh
  have eE : ∀ k, E k = R (M k) + w k := by
    intro k
    apply kep
    have := hE k
    dsimp only at this
    rwa [show (freeMean k (c * k ^ 2) e.toElem t).xl - (freeMean k (c * k ^ 2) e.toElem t).xnode = M k + w k by
      simp only [freeMean, hM, hw]; ring] at this
  have DM : HasDerivAt M 0 0 := hda' ((dM.mul_const t).const_add e.xmo) (fun _ => rfl) (by ring)
  have Dw := (dw.mul_const t).const_add e.omegao
  have Dh := (dh.mul_const t).const_add e.xnodeo
  have DR : HasDerivAt (fun k => R (M k)) 0 0 := by
    have := (hasDerivAt_root (x := e.eo) (y := 0) (by nlinarith) hRk (M 0)).comp 0 DM
    exact hda' this (fun _ => rfl) (by ring)
  have M00 : M 0 = e.xmo + e.xno * t := by simp only [hM, M0]
  have pos4 : ∀ᶠ k in nhds (0 : ℝ), 0 < (recovFor k e.toElem).aodp := da.continuousAt.eventually (lt_mem_nhds (by dsimp only; rw [a0]; exact ha))
  have eq4 : ∀ k, 0 < (recovFor k e.toElem).aodp → sgp4Free c e.toElem t k (E k) = withShort e.eo e.xincl k (recovFor k e.toElem).aodp
      (1 - k * (3 / 2 * √(1 - e.eo * e.eo) * (3 * (cos e.xincl * cos e.xincl) - 1) / ((recovFor k e.toElem).aodp * (1 - e.eo * e.eo)) ^ 2))
      (w k) (h k) (R (M k)) := by
    intro k hk
    rw [eE k]
    exact sgp4_short he.le he1 hk c t (R (M k))
  have cq := first_term (F := fun k => 3 / 2 * √(1 - e.eo * e.eo) * (3 * (cos e.xincl * cos e.xincl) - 1) / ((recovFor k e.toElem).aodp * (1 - e.eo * e.eo)) ^ 2)
    (by
      have ca := da.continuousAt
      have : ((recovFor 0 e.toElem).aodp * (1 - e.eo * e.eo)) ^ 2 ≠ 0 := by rw [a0]; positivity
      fun_prop (disch := assumption)) rfl
  have D4 : HasDerivAt (fun k => (recovFor k e.toElem).aodp *
      (1 - k * (3 / 2 * √(1 - e.eo * e.eo) * (3 * (cos e.xincl * cos e.xincl) - 1) / ((recovFor k e.toElem).aodp * (1 - e.eo * e.eo)) ^ 2)))
      (a1 e.toElem * (-axisRate e.toElem / 3)) 0 := by
    refine hda' (da.mul (cq.const_sub 1)) (fun _ => rfl) ?_
    have hs := sq_sqrt hq.le
    have hb := sqrt_pos.2 hq
    simp only [a0, zero_mul, sub_zero, mul_one]
    unfold axisRate
    generalize √(1 - e.eo * e.eo) = b at *
    generalize 1 - e.eo * e.eo = q at *
    subst hs
    field_simp
    ring
  have V4 := short_first he.le he1 (i := e.xincl) ha da.continuousAt a0 D4 (by simp) Dw Dh DR
  -- SGP
  have Da := aoFor_deriv (a1 e.toElem) (axisRate e.toElem)
  have hao : HasDerivAt (fun k => aoOf k e.toElem) (a1 e.toElem * (-axisRate e.toElem / 3)) 0 := hda' Da (fun k => aoOf_rate hq ha k) rfl
  have ao0 : aoOf 0 e.toElem = a1 e.toElem := by rw [aoOf_rate hq ha]; simp
  have posS : ∀ᶠ k in nhds (0 : ℝ), 0 < aoOf k e.toElem := hao.continuousAt.eventually (lt_mem_nhds (by dsimp only; rw [ao0]; exact ha))
  set ws := fun k => e.omegao + (SGP_initOf k 0 e.toElem).omgdt * t with hws
  set hs := fun k => e.xnodeo + (SGP_initOf k 0 e.toElem).xnodot * t with hhs
  have eqS : ∀ k, 0 < aoOf k e.toElem → sgpFree e t k (Es k) = withShort e.eo e.xincl k (aoOf k e.toElem) 1 (ws k) (hs k) (R (M 0)) := by
    intro k hk
    obtain ⟨m1, m2, m3, m4, j, m5⟩ := C162_sgp hn he h1 h2 hk t
    have hk' := hEs k
    dsimp only at hk' m1 m2 m3 m4 m5
    unfold sgpFree
    dsimp only
    rw [m2, m3, m5] at hk'
    rw [m1, m2, m3, m4]
    have : Es k - 2 * π * j = R (M 0) + ws k := by
      apply kep
      rw [M00]
      unfold KeplerEq at hk' ⊢
      rw [show Es k - 2 * π * j = Es k - j * (2 * π) by ring, sin_sub_int_mul_two_pi, cos_sub_int_mul_two_pi]
      linear_combination hk'
    rw [show Es k = R (M 0) + ws k + 2 * π * j by linarith, turn_longitude]
    exact sgp_short he.le he1 hk (ws k) (hs k) (R (M 0))
  have cp : ContinuousAt (fun k => aoOf k e.toElem * (1 - e.eo * e.eo) * (aoOf k e.toElem * (1 - e.eo * e.eo))) 0 := by
    have := hao.continuousAt
    fun_prop
  have cp0 : aoOf 0 e.toElem * (1 - e.eo * e.eo) * (aoOf 0 e.toElem * (1 - e.eo * e.eo)) ≠ 0 := by rw [ao0]; positivity
  have dws : HasDerivAt (fun k => (SGP_initOf k 0 e.toElem).omgdt)
      (-(3 / 2) * e.xno * (1 - 5 * (cos e.xincl * cos e.xincl)) / (a1 e.toElem * (1 - e.eo * e.eo)) ^ 2) 0 := by
    refine hda' (first_term (F := fun k => 3 / 2 * (e.xno / (aoOf k e.toElem * (1 - e.eo * e.eo) * (aoOf k e.toElem * (1 - e.eo * e.eo)))) *
      (cos e.xincl * 5 * cos e.xincl - 1)) (by fun_prop (disch := assumption)) rfl) (fun k => ?_) ?_
    · simp only [SGP_initOf]
      ring
    · simp only [ao0]
      field_simp
      ring
  have dhs : HasDerivAt (fun k => (SGP_initOf k 0 e.toElem).xnodot) (-3 * e.xno * cos e.xincl / (a1 e.toElem * (1 - e.eo * e.eo)) ^ 2) 0 := by
    refine hda' (first_term (F := fun k => 3 / 2 * cos e.xincl * (-2) * (e.xno / (aoOf k e.toElem * (1 - e.eo * e.eo) * (aoOf k e.toElem * (1 - e.eo * e.eo)))))
      (by fun_prop (disch := assumption)) rfl) (fun k => ?_) ?_
    · simp only [SGP_initOf]
      ring
    · simp only [ao0]
      field_simp
  have Dws := (dws.mul_const t).const_add e.omegao
  have Dhs := (dhs.mul_const t).const_add e.xnodeo
  have VS := short_first he.le he1 (i := e.xincl) (ρ := fun _ => 1) (E := fun _ => R (M 0)) ha hao.continuousAt ao0 (hda' hao (fun k => by ring) rfl) rfl Dws Dhs
    (hasDerivAt_const (0 : ℝ) (R (M 0)))
  have w00 : w 0 = e.omegao := by simp only [hw, w0]; simp
  have h00 : h 0 = e.xnodeo := by simp only [hh, h0]; simp
  have ws0 : ws 0 = e.omegao := by simp only [hws]; simp [SGP_initOf]
  have hs0 : hs 0 = e.xnodeo := by simp only [hhs]; simp [SGP_initOf]
  have still : ∀ X, withShort e.eo e.xincl 0 (a1 e.toElem) 1 e.omegao e.xnodeo X
      = (orientU (fm8 e.eo X + e.omegao) e.xnodeo e.xincl).smul (earthRadius * (a1 e.toElem * (1 - e.eo * cos X))) := fun X => by
    obtain ⟨g1, g2⟩ := atan2_unit (cos_sq_add_sin_sq (fm8 e.eo X + e.omegao))
    unfold withShort orientU
    simp only [zero_mul, sub_zero, add_zero, mul_one, g1, g2]
  have same : inFrame (fm8 e.eo (R (M 0)) + e.omegao) e.xnodeo e.xincl (earthRadius * (a1 e.toElem * (-axisRate e.toElem / 3) * (1 - e.eo * cos (R (M 0)))
        + 1 / 2 * sin e.xincl ^ 2 * cos (2 * (fm8 e.eo (R (M 0)) + e.omegao)) / (a1 e.toElem * (1 - e.eo * e.eo)))) = inFrame (fm8 e.eo (R (M 0)) + e.omegao) e.xnodeo e.xincl
      (earthRadius * (-(1 / 2) * (3 * (cos e.xincl * cos e.xincl) - 1) * (a1 e.toElem * (1 - e.eo * cos (R (M 0)))) / (√(1 - e.eo * e.eo) * (1 - e.eo * e.eo) * a1 e.toElem ^ 2)
        + 1 / 2 * sin e.xincl ^ 2 * cos (2 * (fm8 e.eo (R (M 0)) + e.omegao)) / (a1 e.toElem * (1 - e.eo * e.eo)))) := by
    congr 3
    have hb := sqrt_pos.2 hq
    unfold axisRate
    field_simp
  refine ⟨R (M 0), M00 ▸ hRk (M 0), ⟨?_, ?_⟩, hasVel_congr (hasVel_near V4 (pos4.mono eq4)) rfl ?_, hasVel_congr (hasVel_near VS (posS.mono eqS)) rfl ?_⟩
  · rw [eq4 0 (by rw [a0]; exact ha), w00, h00, a0, ← still]
    simp
  · rw [eqS 0 (by rw [ao0]; exact ha), ws0, hs0, ao0, ← still]
  · change _ = inFrame (fm8 e.eo (R (M 0)) + w 0) (h 0) e.xincl _ _ _
    rw [show e.omegao + omgdotOf 0 (c * 0 ^ 2) (recovFor 0 e.toElem) * t = e.omegao from w00, w00, h00, same]
    rfl
  · change _ = inFrame (fm8 e.eo (R (M 0)) + ws 0) (hs 0) e.xincl _ _ _
    rw [show e.omegao + (SGP_initOf 0 0 e.toElem).omgdt * t = e.omegao from ws0, ws0, hs0, same]
    rfl

/-- The exact solutions exist. -/
theorem solves_exist {e : ElemN} (hn : 0 < e.xno) (he : 0 < e.eo) (he1 : e.eo < 1) (h1 : e.xndt2o = 0) (h2 : e.xndd6o = 0) (c t : ℝ) :
    (∃ E, Solves4 c e.toElem t E) ∧ ∃ E, SolvesSgp e t E := by
  have root : ∀ x y l : ℝ, x ^ 2 + y ^ 2 < 1 → ∃ E, KeplerEq x y l E := fun x y l h => by
    obtain ⟨E, hE⟩ := Kep.root_exists (x := x) (y := y) (e := √(x ^ 2 + y ^ 2)) l (sqrt_nonneg _) (by rw [sqrt_lt' one_pos]; linarith) (by rw [sq_sqrt (by positivity)])
    exact ⟨E, (Kep.keplerEq_iff _ _ _ _).2 hE⟩
  have sq : ∀ x w : ℝ, 0 ≤ x → x < 1 → (x * cos w) ^ 2 + (x * sin w) ^ 2 < 1 := fun x w h h' => by
    have := square_e x w
    nlinarith
  constructor
  · choose E hE using fun k => root _ _ ((freeMean k (c * k ^ 2) e.toElem t).xl - (freeMean k (c * k ^ 2) e.toElem t).xnode)
      (sq e.eo (freeMean k (c * k ^ 2) e.toElem t).omega he.le he1)
    exact ⟨E, hE⟩
  · have hex : ∀ k, ∃ x, KeplerEq (sgpMean (SGP_initOf k 0 e.toElem) e t).axn (sgpMean (SGP_initOf k 0 e.toElem) e t).ayn (sgpMean (SGP_initOf k 0 e.toElem) e t).u x := by
      intro k
      have hc6 : (SGP_initOf k 0 e.toElem).c6 = 0 := by simp [SGP_initOf]
      have hy : (sgpMean (SGP_initOf k 0 e.toElem) e t).ayn
          = eccOf (SGP_initOf k 0 e.toElem) (axisAt (SGP_initOf k 0 e.toElem) e t) * sin (e.omegao + (SGP_initOf k 0 e.toElem).omgdt * t) := by
        simp only [sgpMean, hc6, zero_div, sub_zero]
      have hm : axisAt (SGP_initOf k 0 e.toElem) e t = aoOf k e.toElem := by
        unfold axisAt motionAt
        rw [h1, h2]
        simp only [zero_mul, add_zero, div_self hn.ne', one_rpow, mul_one]
        rfl
      rw [hy]
      apply root
      apply sq
      all_goals rw [hm]
      all_goals by_cases hk : 0 < aoOf k e.toElem
      · have := (C137_epoch k 0 e hn hk he).2.1
        rw [(C137_epoch k 0 e hn hk he).1] at this
        rw [this]; exact he.le
      · rw [C137_round _ _ (by simp only [SGP_initOf]; nlinarith)]; norm_num
      · have := (C137_epoch k 0 e hn hk he).2.1
        rw [(C137_epoch k 0 e hn hk he).1] at this
        rw [this]; exact he1
      · rw [C137_round _ _ (by simp only [SGP_initOf]; nlinarith)]; norm_num
    choose E hE using hex
    exact ⟨E, hE⟩

/-- At the perigee of a polar orbit of eccentricity 3/5 (axis one Earth radius, perigee at the node) both positions move outwards by 75/64 Earth radii
per unit of the coefficient. -/
example : ∃ y z : ℝ, oblateMove xke 1 (3 / 5) (π / 2) 0 0 0 0 = ⟨earthRadius * (75 / 64), y, z⟩ := by
  have hf : cos (fm8 (3 / 5) 0) = 1 ∧ sin (fm8 (3 / 5) 0) = 0 := by
    obtain ⟨f1, f2, -, -⟩ := fm8_polar (e := 3 / 5) (by norm_num) (by norm_num) 0
    rw [f1, f2]; norm_num
  have hb : √(1 - 3 / 5 * (3 / 5)) = (4 / 5 : ℝ) := by
    rw [show (1 - 3 / 5 * (3 / 5) : ℝ) = (4 / 5) ^ 2 by norm_num]; exact sqrt_sq (by norm_num)
  refine ⟨_, _, V3.ext ?_ rfl rfl⟩
  simp only [oblateMove, inFrame, V3.add, V3.smul, orientU, orientV, orientW, add_zero, cos_pi_div_two, sin_pi_div_two, sin_zero, cos_zero, hb, cos_two_mul,
    sin_two_mul, hf.1, hf.2]
  ring_nf

end SatSky.Props
