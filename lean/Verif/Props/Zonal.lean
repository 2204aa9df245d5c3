import Verif.Model.Propagate
import Verif.Spec.Oblate
import Verif.Lemmas.ThirdBody
import Verif.Props.Oblate

/-! C108: the secular rates of SGP4 are those of Lagrange's equations for the averaged zonal harmonics. -/

namespace SatSky.Props

open Real SatSky.Spec SatSky.Sxp

theorem conicPos_len {a e : ℝ} (i h g v : ℝ) (hr : 0 ≤ conicRadius a e v) : (conicPos a e i h g v).len = conicRadius a e v := by
  have h1 : (conicPos a e i h g v).dot (conicPos a e i h g v) = conicRadius a e v ^ 2 := by
    unfold conicPos
    rw [Tide.dot_add, Tide.add_dot, Tide.add_dot, Tide.dot_smul, Tide.dot_smul, Tide.smul_dot, Tide.smul_dot, Tide.dot_smul, Tide.dot_smul, Tide.smul_dot,
      Tide.smul_dot, Tide.apse_apse, Tide.latus_latus, Tide.apse_latus]
    have : (latus i h g).dot (apse i h g) = 0 := by rw [← Tide.apse_latus i h g]; unfold V3.dot; ring
    rw [this]
    linear_combination (conicRadius a e v ^ 2) * sin_sq_add_cos_sq v
  unfold V3.len
  rw [h1, sqrt_sq hr]

theorem conicPos_z (a e i h g v : ℝ) : (conicPos a e i h g v).z = conicRadius a e v * (sin i * sin (g + v)) := by
  simp only [conicPos, V3.add, V3.smul, apse, latus, sin_add]
  ring

theorem mean_sin_sq (v : ℝ) : ∫ g in (0)..(2 * π), sin (g + v) ^ 2 = π := by
  rw [intervalIntegral.integral_comp_add_right (fun x => sin x ^ 2), integral_sin_sq, add_comm (2 * π) v, sin_add_two_pi, cos_add_two_pi]
  rw [zero_add]; ring

theorem mean_sin_four (v : ℝ) : ∫ g in (0)..(2 * π), sin (g + v) ^ 4 = 3 / 4 * π := by
  rw [intervalIntegral.integral_comp_add_right (fun x => sin x ^ 4)]
  have := integral_sin_pow (a := 0 + v) (b := 2 * π + v) 2
  norm_num at this
  rw [zero_add, this, add_comm (2 * π) v, sin_add_two_pi, cos_add_two_pi]
  ring

theorem mean_cube (e : ℝ) : ∫ v in (0)..(2 * π), (1 + e * cos v) ^ 3 = 2 * π * (1 + 3 / 2 * e ^ 2) := by
  have h := Tide.integral_trig 1 (3 * e) (3 * e ^ 2) (e ^ 3) 0 0 0
  rw [show (fun v => (1 + e * cos v) ^ 3) = fun E => (1 + 3 * e * cos E + 3 * e ^ 2 * cos E ^ 2 + e ^ 3 * cos E ^ 3 + 0 * sin E
    + 0 * (sin E ^ 1 * cos E ^ (2 * 0 + 1)) + 0 * (sin E * cos E ^ 2)) from funext fun v => by ring, h]
  ring

theorem mean_one (e : ℝ) : ∫ v in (0)..(2 * π), (1 + e * cos v) = 2 * π := by
  rw [intervalIntegral.integral_add (by simp) (by apply Continuous.intervalIntegrable; fun_prop)]
  simp

/-- The averaged potential. -/
theorem secularMean_zonal (μ J2 J4 : ℝ) {a e : ℝ} (i h : ℝ) (ha : 0 < a) (he : |e| < 1) :
    secularMean a e i h (zonal μ J2 J4) = -(μ * J2 / (2 * a ^ 3 * √(1 - e ^ 2) ^ 3) * (3 / 2 * sin i ^ 2 - 1))
      - μ * J4 * (1 + 3 / 2 * e ^ 2) / (8 * a ^ 5 * √(1 - e ^ 2) ^ 7) * (105 / 8 * sin i ^ 4 - 15 * sin i ^ 2 + 3) := by
  have he2 : 0 < 1 - e ^ 2 := by nlinarith [abs_lt.mp he]
  have hq : 0 < √(1 - e ^ 2) := sqrt_pos.mpr he2
  have hqs : √(1 - e ^ 2) ^ 2 = 1 - e ^ 2 := sq_sqrt he2.le
  have hpos : ∀ v, 0 < 1 + e * cos v := fun v => by
    have h1 := abs_mul e (cos v)
    have h2 := mul_le_mul_of_nonneg_left (abs_cos_le_one v) (abs_nonneg e)
    have := abs_lt.mp (show |e * cos v| < 1 by rw [h1]; linarith)
    linarith
  have hr : ∀ v, 0 < conicRadius a e v := fun v => div_pos (mul_pos ha he2) (hpos v)
  have inner : ∀ v, (∫ g in (0)..(2 * π), zonal μ J2 J4 (conicPos a e i h g v)) / (2 * π) * (conicRadius a e v ^ 2 / (a ^ 2 * √(1 - e ^ 2)))
      = -(μ * J2 / (2 * a ^ 3 * √(1 - e ^ 2) ^ 3) * (3 / 2 * sin i ^ 2 - 1)) * (1 + e * cos v)
        - μ * J4 / (8 * a ^ 5 * √(1 - e ^ 2) ^ 7) * (105 / 8 * sin i ^ 4 - 15 * sin i ^ 2 + 3) * (1 + e * cos v) ^ 3 := by
    intro v
    have hz : ∀ g, zonal μ J2 J4 (conicPos a e i h g v) =
        (μ / conicRadius a e v ^ 3 * J2 / 2 - μ / conicRadius a e v ^ 5 * J4 * 3 / 8)
        + (-(3 / 2 * μ / conicRadius a e v ^ 3 * J2 * sin i ^ 2) + μ / conicRadius a e v ^ 5 * J4 * 30 / 8 * sin i ^ 2) * sin (g + v) ^ 2
        + -(μ / conicRadius a e v ^ 5 * J4 * 35 / 8 * sin i ^ 4) * sin (g + v) ^ 4 := by
      intro g
      unfold zonal
      rw [conicPos_len i h g v (hr v).le, conicPos_z]
      rw [show conicRadius a e v * (sin i * sin (g + v)) / conicRadius a e v = sin i * sin (g + v) by field_simp [(hr v).ne']]
      ring
    simp only [hz]
    rw [intervalIntegral.integral_add, intervalIntegral.integral_add, intervalIntegral.integral_const_mul, intervalIntegral.integral_const_mul,
      mean_sin_sq, mean_sin_four, intervalIntegral.integral_const]
    · have hc : (1 - e ^ 2) ≠ 0 := he2.ne'
      have hd := (hpos v).ne'
      simp only [smul_eq_mul, sub_zero]
      unfold conicRadius
      generalize √(1 - e ^ 2) = q at *
      rw [← hqs]
      field_simp
      ring
    all_goals (apply Continuous.intervalIntegrable; fun_prop)
  unfold secularMean
  simp only [inner]
  rw [intervalIntegral.integral_sub, intervalIntegral.integral_const_mul, intervalIntegral.integral_const_mul, mean_one, mean_cube]
  · field_simp
  all_goals (apply Continuous.intervalIntegrable; fun_prop)

/-- The averaged potential in closed form. -/
noncomputable def zonalMean (μ J2 J4 a e i : ℝ) : ℝ := -(μ * J2 / (2 * a ^ 3 * √(1 - e ^ 2) ^ 3) * (3 / 2 * sin i ^ 2 - 1))
  - μ * J4 * (1 + 3 / 2 * e ^ 2) / (8 * a ^ 5 * √(1 - e ^ 2) ^ 7) * (105 / 8 * sin i ^ 4 - 15 * sin i ^ 2 + 3)

theorem zonal_da (μ J2 J4 : ℝ) {a e : ℝ} (i : ℝ) (ha : 0 < a) (he : 0 < 1 - e ^ 2) :
    HasDerivAt (fun x => zonalMean μ J2 J4 x e i) (3 * (μ * J2 / (2 * a ^ 4 * √(1 - e ^ 2) ^ 3) * (3 / 2 * sin i ^ 2 - 1))
      + 5 * (μ * J4 * (1 + 3 / 2 * e ^ 2) / (8 * a ^ 6 * √(1 - e ^ 2) ^ 7) * (105 / 8 * sin i ^ 4 - 15 * sin i ^ 2 + 3))) a := by
  have hq : √(1 - e ^ 2) ≠ 0 := (sqrt_pos.mpr he).ne'
  have hx := hasDerivAt_id a
  have d1 := (((hasDerivAt_const a (μ * J2)).div (((hx.pow 3).const_mul 2).mul_const (√(1 - e ^ 2) ^ 3))
    (by simp only [Pi.pow_apply, id]; positivity)).mul_const (3 / 2 * sin i ^ 2 - 1)).neg
  have d2 := (((hasDerivAt_const a (μ * J4 * (1 + 3 / 2 * e ^ 2))).div (((hx.pow 5).const_mul 8).mul_const (√(1 - e ^ 2) ^ 7))
    (by simp only [Pi.pow_apply, id]; positivity)).mul_const (105 / 8 * sin i ^ 4 - 15 * sin i ^ 2 + 3))
  refine hda' (d1.sub d2) (fun y => rfl) ?_
  simp only [Pi.pow_apply, id]
  generalize √(1 - e ^ 2) = q at *
  push_cast
  field_simp
  ring

theorem zonal_de (μ J2 J4 : ℝ) {a e : ℝ} (i : ℝ) (ha : 0 < a) (he : 0 < 1 - e ^ 2) :
    HasDerivAt (fun x => zonalMean μ J2 J4 a x i) (-(3 * e * (μ * J2 / (2 * a ^ 3 * √(1 - e ^ 2) ^ 5) * (3 / 2 * sin i ^ 2 - 1)))
      - e * (10 + 15 / 2 * e ^ 2) * (μ * J4 / (8 * a ^ 5 * √(1 - e ^ 2) ^ 9) * (105 / 8 * sin i ^ 4 - 15 * sin i ^ 2 + 3))) e := by
  have hq : √(1 - e ^ 2) ≠ 0 := (sqrt_pos.mpr he).ne'
  have hs := sq_sqrt he.le
  have hx := hasDerivAt_id e
  have hd := ((hx.pow 2).const_sub 1).sqrt (show 1 - (id ^ 2) e ≠ 0 from he.ne')
  have d1 := (((hasDerivAt_const e (μ * J2)).div ((hd.pow 3).const_mul (2 * a ^ 3))
    (by simp only [Pi.pow_apply, id]; positivity)).mul_const (3 / 2 * sin i ^ 2 - 1)).neg
  have d2 := ((((((hx.pow 2).const_mul (3 / 2)).const_add 1).const_mul (μ * J4)).div ((hd.pow 7).const_mul (8 * a ^ 5))
    (by simp only [Pi.pow_apply, id]; positivity)).mul_const (105 / 8 * sin i ^ 4 - 15 * sin i ^ 2 + 3))
  refine hda' (d1.sub d2) (fun y => rfl) ?_
  simp only [Pi.pow_apply, id]
  have he2 : e ^ 2 = 1 - √(1 - e ^ 2) ^ 2 := by rw [hs]; ring
  generalize √(1 - e ^ 2) = q at *
  push_cast
  norm_num
  field_simp
  rw [he2]
  ring

theorem zonal_di (μ J2 J4 : ℝ) (a e i : ℝ) :
    HasDerivAt (fun x => zonalMean μ J2 J4 a e x) (-(μ * J2 / (2 * a ^ 3 * √(1 - e ^ 2) ^ 3) * (3 * sin i * cos i))
      - μ * J4 * (1 + 3 / 2 * e ^ 2) / (8 * a ^ 5 * √(1 - e ^ 2) ^ 7) * ((105 / 2 * sin i ^ 3 - 30 * sin i) * cos i)) i := by
  have hs := hasDerivAt_sin i
  have d1 := ((((hs.pow 2).const_mul (3 / 2)).sub_const 1).const_mul (μ * J2 / (2 * a ^ 3 * √(1 - e ^ 2) ^ 3))).neg
  have d2 := ((((hs.pow 4).const_mul (105 / 8)).sub ((hs.pow 2).const_mul 15)).add_const 3).const_mul
    (μ * J4 * (1 + 3 / 2 * e ^ 2) / (8 * a ^ 5 * √(1 - e ^ 2) ^ 7))
  refine hda' (d1.sub d2) (fun y => rfl) ?_
  push_cast
  ring

theorem linear_rate {f : ℝ → ℝ} {c x y z : ℝ} (hf : ∀ ε, f ε = c + ε * x + ε ^ 2 * y) (hz : z = x) : HasDerivAt f z 0 :=
  hda' (quadratic_deriv c x y) hf hz

/-- C108: Lagrange's equations for the second and fourth zonal harmonic, averaged over the orbit and the direction of the perigee, give the part of the
rates of node, perigee and mean anomaly that is linear in the coefficients, up to the stated multiples of `J4 e ^ 2`; the mean motion and the axis are
related by Kepler's third law. -/
theorem C108_zonal (J2 J4 n a e i h g : ℝ) (ha : 0 < a) (hn : 0 < n) (he : 0 < e) (he1 : e < 1) (hi : sin i ≠ 0) :
    let r : Recov := ⟨cos i, cos i * cos i, e * e, 1 - e * e, √(1 - e * e), n, a⟩
    let k2 := J2 / 2
    let k4 := -(3 / 8) * J4
    let p := a * (1 - e ^ 2)
    ∃ hdot gdot ldot, Lagrange (fun x y z w _ => secularMean x y z w (zonal (n ^ 2 * a ^ 3) J2 J4)) n a e i h g 0 0 hdot gdot ldot ∧
      HasDerivAt (fun ε => xnodotOf (ε * k2) (ε * k4) r) (hdot - e ^ 2 * (n * k4 / p ^ 4 * (15 / 4 * cos i * (3 - 7 * cos i ^ 2)))) 0 ∧
      HasDerivAt (fun ε => omgdotOf (ε * k2) (ε * k4) r) (gdot - e ^ 2 * (n * k4 / p ^ 4 * (45 / 16 * (1 - 14 * cos i ^ 2 + 21 * cos i ^ 4)))) 0 ∧
      HasDerivAt (fun ε => xmdotOf (ε * k2) r)
        (ldot - e ^ 2 * (n * k4 / p ^ 4 * (15 / 16 * √(1 - e ^ 2) * (3 - 30 * cos i ^ 2 + 35 * cos i ^ 4)))) 0 ∧
      xnodotOf 0 0 r = 0 ∧ omgdotOf 0 0 r = 0 ∧ xmdotOf 0 r = n := by
  intro r k2 k4 p
  have he2 : 0 < 1 - e ^ 2 := by nlinarith
  have hq : 0 < √(1 - e ^ 2) := sqrt_pos.mpr he2
  have hs := sq_sqrt he2.le
  have hab : |e| < 1 := by rw [abs_of_pos he]; exact he1
  have ea : (fun x => secularMean x e i h (zonal (n ^ 2 * a ^ 3) J2 J4)) =ᶠ[nhds a] fun x => zonalMean (n ^ 2 * a ^ 3) J2 J4 x e i := by
    filter_upwards [lt_mem_nhds ha] with x hx
    exact secularMean_zonal _ _ _ i h hx hab
  have ee : (fun x => secularMean a x i h (zonal (n ^ 2 * a ^ 3) J2 J4)) =ᶠ[nhds e] fun x => zonalMean (n ^ 2 * a ^ 3) J2 J4 a x i := by
    filter_upwards [lt_mem_nhds he, gt_mem_nhds he1] with x hx hx1
    exact secularMean_zonal _ _ _ i h ha (by rw [abs_of_pos hx]; exact hx1)
  have ei : (fun x => secularMean a e x h (zonal (n ^ 2 * a ^ 3) J2 J4)) = fun x => zonalMean (n ^ 2 * a ^ 3) J2 J4 a e x :=
    funext fun x => secularMean_zonal _ _ _ x h ha hab
  have eh : (fun x => secularMean a e i x (zonal (n ^ 2 * a ^ 3) J2 J4)) = fun _ => zonalMean (n ^ 2 * a ^ 3) J2 J4 a e i :=
    funext fun x => secularMean_zonal _ _ _ i x ha hab
  have da := (zonal_da (n ^ 2 * a ^ 3) J2 J4 i ha he2).congr_of_eventuallyEq ea
  have de := (zonal_de (n ^ 2 * a ^ 3) J2 J4 i ha he2).congr_of_eventuallyEq ee
  have di := zonal_di (n ^ 2 * a ^ 3) J2 J4 a e i
  rw [← ei] at di
  have dh : HasDerivAt (fun x => secularMean a e i x (zonal (n ^ 2 * a ^ 3) J2 J4)) 0 h := by rw [eh]; exact hasDerivAt_const _ _
  have dg : HasDerivAt (fun _ : ℝ => secularMean a e i h (zonal (n ^ 2 * a ^ 3) J2 J4)) 0 g := hasDerivAt_const _ _
  have hee : 1 - e * e = 1 - e ^ 2 := by ring
  have he' : e ^ 2 = 1 - √(1 - e ^ 2) ^ 2 := by rw [hs]; ring
  have s2 : sin i ^ 2 = 1 - cos i ^ 2 := by have := sin_sq_add_cos_sq i; linarith
  have s3 : sin i ^ 3 = sin i * (1 - cos i ^ 2) := by rw [← s2]; ring
  have s4 : sin i ^ 4 = (1 - cos i ^ 2) ^ 2 := by rw [← s2]; ring
  refine ⟨_, _, _, ⟨⟨da.differentiableAt, de.differentiableAt, di.differentiableAt, dh.differentiableAt, dg.differentiableAt⟩, ?_, ?_, rfl, rfl, rfl⟩,
    ?_, ?_, ?_, ?_, ?_, ?_⟩
  · rw [dg.deriv, mul_zero]
  · rw [dg.deriv, dh.deriv]; ring
  · rw [di.deriv]
    refine linear_rate (c := 0) (x := 3 * k2 / p ^ 2 * n * -cos i + 5 / 2 * k4 / p ^ 4 * n * (3 - 7 * cos i ^ 2) * cos i)
      (y := 3 * k2 ^ 2 / p ^ 4 * n * (4 - 19 * cos i ^ 2) / 2 * cos i) (fun ε => ?_) ?_
    · simp only [xnodotOf, xhdot1Of, r, hee, p]
      field_simp
      ring
    · simp only [k2, k4, p, s3]
      generalize √(1 - e ^ 2) = q at *
      rw [← hs]
      field_simp
      simp only [he']
      ring
  · rw [de.deriv, di.deriv]
    refine linear_rate (c := 0) (x := 3 * k2 / p ^ 2 * n * (5 * cos i ^ 2 - 1) / 2 + 5 / 4 * k4 / p ^ 4 * n * (3 - 36 * cos i ^ 2 + 49 * cos i ^ 4))
      (y := 3 * k2 ^ 2 / p ^ 4 * n * (7 - 114 * cos i ^ 2 + 395 * cos i ^ 4) / 16) (fun ε => ?_) ?_
    · simp only [omgdotOf, r, hee, p]
      field_simp
      ring
    · simp only [k2, k4, p, s3, s2, s4]
      generalize √(1 - e ^ 2) = q at *
      rw [← hs]
      field_simp
      simp only [he']
      ring
  · rw [da.deriv, de.deriv]
    refine linear_rate (c := n) (x := 3 * k2 / p ^ 2 * n * √(1 - e ^ 2) * (3 * cos i ^ 2 - 1) / 2)
      (y := 3 * k2 ^ 2 / p ^ 4 * n * √(1 - e ^ 2) * (13 - 78 * cos i ^ 2 + 137 * cos i ^ 4) / 16) (fun ε => ?_) ?_
    · simp only [xmdotOf, r, hee, p]
      field_simp
    · simp only [k2, k4, p, s2, s4]
      generalize √(1 - e ^ 2) = q at *
      rw [← hs]
      field_simp
      simp only [he']
      ring
  · simp [xnodotOf, xhdot1Of]
  · simp [omgdotOf]
  · simp [xmdotOf, r]

/-- C108, the program: the rates it uses are these functions of the coefficients of its field and of the recovered mean motion and axis. -/
theorem C108_program (e : Elem) :
    sxpall_common_init e = ⟨cos e.xincl, cos e.xincl * cos e.xincl, e.eo * e.eo, 1 - e.eo * e.eo, √(1 - e.eo * e.eo), (sxpall_common_init e).xnodp,
      (sxpall_common_init e).aodp⟩ ∧
    (sxpx_common_init e).xmdot = xmdotOf (xj2 / 2) (sxpall_common_init e) ∧
    (sxpx_common_init e).omgdot = omgdotOf (xj2 / 2) (-(3 / 8) * xj4) (sxpall_common_init e) ∧
    (sxpx_common_init e).xnodot = xnodotOf (xj2 / 2) (-(3 / 8) * xj4) (sxpall_common_init e) := by
  have h2 : xj2 / 2 = ck2 := by unfold ck2; ring
  have h4 : -(3 / 8) * xj4 = ck4 := by unfold ck4; norm_num
  rw [h2, h4]
  exact ⟨rfl, rfl, rfl, rfl⟩

/-- The perigee of the orbit of a communication satellite of high eccentricity stands still where `5 cos ^ 2 i = 1`, to the first
order in `J2`. -/
example (J2 n a e i : ℝ) (hi : 5 * cos i ^ 2 = 1) :
    HasDerivAt (fun ε => omgdotOf (ε * (J2 / 2)) 0 ⟨cos i, cos i * cos i, e * e, 1 - e * e, √(1 - e * e), n, a⟩) 0 0 := by
  have hc : cos i * cos i = 1 / 5 := by linarith
  refine linear_rate (c := 0) (x := 0) (y := 3 * (J2 / 2) * (1 / (a * (1 - e * e))) ^ 4 * n * (J2 / 2) * (7 - 114 / 5 + 395 / 25) / 16) (fun ε => ?_) rfl
  simp only [omgdotOf, hc]
  ring

end SatSky.Props
